import Verif.Lemmas.StreamInv
/-! Invariants of the stream system are preserved, part E: how streams end. -/
namespace Qrpc
open Spec

set_option maxHeartbeats 8000000 in
theorem SInvE.step {s a s'} (hA : SInvA s) (hB : SInvB s) (hC : SInvC s) (hD : SInvD1 s) (h : SInvE s)
    (hs : sStep s a = some s') : SInvE s' := by
  obtain ⟨a1, a2, a3, a4, a5, a6, a7⟩ := hA
  obtain ⟨b1, b2, b3, b4, b5, b6, b7, b8, b9⟩ := hB
  obtain ⟨c1, c2, c3, c4, c5⟩ := hC
  obtain ⟨d1, d2, d3⟩ := hD
  obtain ⟨h1, h2, h3, h4, h5, h6, h7⟩ := h
  sstep_cases hs a
  all_goals constructor
  all_goals simp only [outs_append]
  all_goals clear a7 b8 b9 b5 b6 b7
  all_goals try first
    | assumption
    | grind [RPc.ok, WPc.ok, releaseStream, RPc.keyOK, RPc.chOK, RPc.pend, RPc.logOK, RPc.donePending, peerEnded_rst, peerEnded_out, peerEnded_append, streamOut, FirstThenRest, RPc.bothOK, WPc.bothOK, outs_append]
    | (cases hr : s.r <;> grind [RPc.ok, WPc.ok, releaseStream, RPc.logOK, outs_append, streamOut])

end Qrpc
