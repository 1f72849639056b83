import Verif.Lemmas.GroupInv
/-! Write path: when the lock is kept. -/
namespace Qrpc

set_option maxHeartbeats 4000000 in
theorem GInvG.step {cap s a s'} (hA : GInvA cap s) (hF : GInvF s) (h : GInvG s) (hs : gStep cap s a = some s') : GInvG s' := by
  obtain ⟨h1, h2, h3, h4, h5⟩ := h
  obtain ⟨f1, -, f3⟩ := hF
  have u := hA.unique
  obtain ⟨a1, -, -, -, -, -, -⟩ := hA
  gstep_cases hs a
  all_goals constructor
  all_goals simp only []
  all_goals try first
    | assumption
    | grind [setAt, TPc.holds, TPc.keeps, heldBy_held, heldBy_free, heldBy_dead, TPc.undoing, TPc.counted, RdPc.alive]

end Qrpc
