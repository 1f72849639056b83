import Verif.Lemmas.RegistryInv
namespace Qrpc

set_option maxHeartbeats 4000000 in
theorem QInvB.step {s s' : QSt} {a : QAct} (hA : QInvA s) (h : QInvB s) (hs : qStep s a = some s') : QInvB s' := by
  have hcl := hA.cu_cl
  obtain ⟨h1, h2, h3, h4, h5, h6, h7, h8, h9, h10⟩ := h
  clear hA
  qstep_cases hs a
  all_goals constructor
  all_goals try simp only []
  all_goals try first
    | assumption
    | grind [setAt, QPc.hold, QPc.cu]

end Qrpc
