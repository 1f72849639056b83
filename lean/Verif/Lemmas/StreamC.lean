import Verif.Lemmas.StreamInv
/-! Invariants of the stream system are preserved, part C: both sides closed leads to `afterDone`. -/
namespace Qrpc
open Spec

set_option maxHeartbeats 8000000 in
theorem SInvC.step {s a s'} (hA : SInvA s) (hB : SInvB s) (h : SInvC s) (hs : sStep s a = some s') : SInvC s' := by
  obtain ⟨a1, a2, a3, a4, a5, a6, a7⟩ := hA
  obtain ⟨b1, b2, b3, b4, b5, b6, b7, b8, b9⟩ := hB
  obtain ⟨h1, h2, h3, h4, h5⟩ := h
  sstep_cases hs a
  all_goals constructor
  all_goals simp only []
  all_goals clear a7 a1 a2 b8 b9
  all_goals try first
    | assumption
    | grind [RPc.ok, WPc.ok, releaseStream, RPc.keyOK, RPc.chOK, RPc.willCheck, WPc.willCheck, RPc.bothOK, WPc.bothOK]
    | (cases hr : s.r <;> grind [RPc.ok, WPc.ok, releaseStream, RPc.bothOK])
    | (cases hr : s.w <;> grind [RPc.ok, WPc.ok, releaseStream, WPc.bothOK])

end Qrpc
