import Verif.Lemmas.StreamInv
/-! Invariants of the stream system are preserved, part D: the log of what was handed to the user. -/
namespace Qrpc
open Spec

set_option maxHeartbeats 8000000 in
theorem SInvD1.step {s a s'} (hA : SInvA s) (hB : SInvB s) (h : SInvD1 s) (hs : sStep s a = some s') : SInvD1 s' := by
  obtain ⟨a1, a2, a3, a4, a5, a6, a7⟩ := hA
  obtain ⟨b1, b2, b3, b4, b5, b6, b7, b8, b9⟩ := hB
  obtain ⟨h1, h2, h3⟩ := h
  sstep_cases hs a
  all_goals constructor
  all_goals simp only [outs_append, res_append]
  all_goals clear a7 a2 b8 b9 b5 b6 b7
  all_goals try first
    | assumption
    | grind [RPc.ok, WPc.ok, releaseStream, RPc.keyOK, RPc.chOK, RPc.pend, evRef, FirstThenRest.first, FirstThenRest.more, streamOut, resFrame]

end Qrpc
