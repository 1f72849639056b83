import Verif.Lemmas.StreamInv
/-! Invariants of the stream system are preserved, part G: the local side of streams, ghost fields. -/
namespace Qrpc
open Spec

set_option maxHeartbeats 8000000 in
theorem SInvG.step {s a s'} (hA : SInvA s) (hB : SInvB s) (hC : SInvC s) (hD : SInvD1 s) (hE : SInvE s) (h : SInvG s)
    (hs : sStep s a = some s') : SInvG s' := by
  obtain ⟨a1, a2, a3, a4, a5, a6, a7⟩ := hA
  obtain ⟨b1, b2, b3, b4, b5, b6, b7, b8, b9⟩ := hB
  have c2 := hC.wb
  have d3 := hD.ftr
  have e2 := hE.rl
  obtain ⟨h1, h2, h3, h4, h5, h6, h7, h8⟩ := h
  sstep_cases hs a
  all_goals clear a7 b8 b9 b3 b4 b5 b6 b7 a2 hC hD hE
  all_goals constructor
  all_goals simp only [selfEnded_append]
  all_goals try first
    | assumption
    | (refine EachAfter.snoc h4 ?_; grind [WPc.outOK])
    | (intro r hr; refine rub_append _ (h7 r ?_); grind)
    | (intro q hq
       rcases Classical.em ((s.str q).resetUnbound = true) with hr | hr
       · exact h7 q hr
       · refine rub_intro ?_ ?_ <;> grind [FirstThenRest, RPc.logOK])
    | grind [RPc.ok, WPc.ok, releaseStream, RPc.keyOK, RPc.chOK, RPc.logOK, WPc.outOK, WPc.closing, selfEnded_append, WPc.bothOK, RPc.pushing]
    | (cases hw : s.w <;> grind [RPc.ok, WPc.ok, releaseStream, WPc.outOK, selfEnded_append])

end Qrpc
