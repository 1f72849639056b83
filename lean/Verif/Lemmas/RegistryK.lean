import Verif.Lemmas.RegistryInv
namespace Qrpc

set_option maxHeartbeats 4000000 in
theorem QInvK.step {s s' : QSt} {a : QAct} (hC : QInvC s) (h : QInvK s) (hs : qStep s a = some s') : QInvK s' := by
  have c1 := hC.set_own
  have c2 := hC.ret_st
  have c3 := hC.tbl_id
  have c4 := hC.load
  have e1 : ∀ i c d, (s.pc i).owes = some (c, d) → s.stored c = true ∨ s.setBy c = i := by
    intro i c d ho
    rcases QPc.setter_of_owes ho with ⟨id, h⟩ | ⟨id, h⟩
    · exact .inr (c1 i c id h).1
    · exact .inl (c4 i c id h).2
  clear hC
  obtain ⟨h1, h2, h3, h4⟩ := h
  qstep_cases hs a
  all_goals constructor
  all_goals try simp only []
  all_goals try first
    | assumption
    | grind [setAt, QPc.setter, QK.setter, QPc.owes, QK.owes, QPc.loading]

end Qrpc
