import Verif.Lemmas.StreamInv
/-! Invariants of the stream system are preserved, part B: the frame channel, binding and keys. -/
namespace Qrpc
open Spec

set_option maxHeartbeats 8000000 in
theorem SInvB.step {s a s'} (hA : SInvA s) (h : SInvB s) (hs : sStep s a = some s') : SInvB s' := by
  obtain ⟨a1, a2, a3, a4, a5, a6, a7⟩ := hA
  obtain ⟨h1, h2, h3, h4, h5, h6, h7, h8, h9⟩ := h
  sstep_cases hs a
  all_goals constructor
  all_goals simp only []
  all_goals clear a7
  all_goals try first
    | assumption
    | grind [RPc.ok, WPc.ok, releaseStream, RPc.keyOK, RPc.chOK, RPc.binding, RPc.closing, Frame.key]
    | (cases hr : s.r <;> grind [RPc.ok, WPc.ok, releaseStream, RPc.keyOK, RPc.chOK, RPc.binding, RPc.closing, Frame.key])

end Qrpc
