import Verif.Lemmas.StreamInv
/-! Invariants of the stream system are preserved, part A: allocation, stream tables, phases of `afterDone`. -/
namespace Qrpc
open Spec

set_option maxHeartbeats 4000000 in
theorem SInvA.step {s a s'} (h : SInvA s) (hs : sStep s a = some s') : SInvA s' := by
  obtain ⟨h1, h2, h3, h4, h5, h6, h7⟩ := h
  sstep_cases hs a
  all_goals constructor
  all_goals simp only []
  all_goals try first
    | assumption
    | exact RPc.ok_succ h4
    | exact WPc.ok_succ h5
    | grind [RPc.ok, WPc.ok, releaseStream, PhaseOK, RPc.adPc, WPc.adPc]

end Qrpc
