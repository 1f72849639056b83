import Verif.Lemmas.RegistryInv
namespace Qrpc

theorem QInvX.step {s s' : QSt} {a : QAct} (hA : QInvA s) (h : QInvX s) (hs : qStep s a = some s') : QInvX s' := by
  have a1 := hA.cu_cl
  clear hA
  obtain ⟨h1, h2, h3⟩ := h
  qstep_cases hs a
  all_goals constructor
  all_goals try simp only []
  all_goals try first
    | assumption
    | grind [setAt, QPc.cancels, QPc.notifies, QPc.cu]

end Qrpc
