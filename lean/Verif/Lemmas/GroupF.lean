import Verif.Lemmas.GroupInv
/-! Write path: `inflight` and the release of the stream tables. -/
namespace Qrpc

set_option maxHeartbeats 4000000 in
theorem GInvF.step {cap s a s'} (hA : GInvA cap s) (h : GInvF s) (hs : gStep cap s a = some s') : GInvF s' := by
  obtain ⟨h1, h2, h3⟩ := h
  have u := hA.unique
  obtain ⟨a1, -, -, -, -, -, -⟩ := hA
  have hcu : heldBy s.lock s.pc TPc.counted = (heldBy s.lock s.pc TPc.using || heldBy s.lock s.pc TPc.undoing) := by
    cases s.lock with
    | held i => simp only [heldBy]; cases s.pc i <;> rfl
    | _ => rfl
  gstep_cases hs a
  all_goals constructor
  all_goals simp only [heldBy_setAt]
  all_goals try first
    | assumption
    | grind [setAt, TPc.holds, TPc.counted, TPc.using, TPc.undoing, heldBy_held, heldBy_free, heldBy_dead, RdPc.alive]

end Qrpc
