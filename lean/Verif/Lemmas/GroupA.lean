import Verif.Lemmas.GroupInv
/-! Write path: mutual exclusion and ticket ownership are invariant. -/
namespace Qrpc

set_option maxHeartbeats 4000000 in
theorem GInvA.step {cap s a s'} (h : GInvA cap s) (hs : gStep cap s a = some s') : GInvA cap s' := by
  obtain ⟨h1, h2, h3, h4, h5, h6, h7⟩ := h
  gstep_cases hs a
  all_goals constructor
  all_goals simp only []
  all_goals try first
    | assumption
    | grind [setAt, TPc.tk, TPc.holds]

end Qrpc
