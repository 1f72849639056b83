import Verif.Lemmas.RegistryInv
namespace Qrpc

set_option maxHeartbeats 4000000 in
theorem QInvA.step {s s' : QSt} {a : QAct} (h : QInvA s) (hs : qStep s a = some s') : QInvA s' := by
  obtain ⟨h1, h2, h3, h4, h5, h6, h7, h8, h9, h10, h11, h12, h13⟩ := h
  have e1 : ∀ i v, (s.pc i).preKick = some v → (s.pc i).own = some v := fun _ _ => QPc.own_of_preKick
  qstep_cases hs a
  all_goals constructor
  all_goals try simp only []
  all_goals try first
    | assumption
    | grind [setAt, QPc.own, QPc.preKick, QPc.past, QPc.cu, QPc.waits]

end Qrpc
