import Verif.Lemmas.RegistryInv
namespace Qrpc

set_option maxHeartbeats 4000000 in
theorem QInvC.step {s s' : QSt} {a : QAct} (hA : QInvA s) (hD : QInvD s) (h : QInvC s) (hs : qStep s a = some s') :
    QInvC s' := by
  have a1 := hA.past_ch
  have a2 := hA.cl_ch
  have a3 := hA.cu_cl
  have a4 := hA.own_un
  have d1 := hD.tbl_lt
  clear hA hD
  obtain ⟨h1, h2, h3, h4, h5, h6, h7, h8, h9, h10, h11⟩ := h
  have e1 : ∀ i c k, (s.pc i).kickFlag = some (c, k) → s.stored c = true ∨ s.setBy c = i := by
    intro i c k ho
    rcases QPc.setter_of_kickFlag ho with ⟨id, h⟩ | ⟨id, h⟩
    · exact .inr (h2 i c id h).1
    · exact .inl (h3 i c id h).2
  qstep_cases hs a
  all_goals constructor
  all_goals try simp only [List.any_append, List.any_cons, List.any_nil, dispBy]
  all_goals try first
    | assumption
    | grind [setAt, QPc.setter, QK.setter, QPc.loading, QPc.delId, QPc.kickFlag, QPc.kicking, QK.flag, QK.kicking, QPc.past, QPc.cu, QPc.own]
    | (rename_i hq _ _
       have g1 := h2 _ _ _ (by rw [hq]; rfl)
       have g2 := h7 _ _ _ (by rw [hq]; rfl)
       grind [setAt])
    | (rename_i hq _ _ _ _
       have g1 := h2 _ _ _ (by rw [hq]; rfl)
       have g2 := h7 _ _ _ (by rw [hq]; rfl)
       grind [setAt, QPc.kickFlag, QK.flag])
    | (rename_i hq
       have g1 := h3 _ _ _ (by rw [hq]; rfl)
       have g2 := h7 _ _ _ (by rw [hq]; rfl)
       grind [setAt])

end Qrpc
