import Verif.Lemmas.RegistryInv
namespace Qrpc

set_option maxHeartbeats 4000000 in
theorem QInvL.step {s s' : QSt} {a : QAct} (hA : QInvA s) (hD : QInvD s) (hC : QInvC s) (h : s.late = false → QInvL s)
    (hs : qStep s a = some s') : s'.late = false → QInvL s' := by
  have a1 := hA.past_ch
  have a3 := hA.notun
  have a4 := hA.own_un
  have d1 := hD.pre_del
  have d2 := hD.ch_del
  have c1 := hC.tbl_id
  have c2 := hC.set_own
  have c3 := hC.del_id
  have c4 := hC.disp
  have c5 := hC.st_id
  have e1 : ∀ i v o, (s.pc i).delId = some (v, o) → (s.pc i).own = some v := by
    intro i v o h
    cases hp : s.pc i <;> rw [hp] at h <;> simp_all [QPc.delId, QPc.own]
  have e2 : ∀ c v, v ∈ s.log.filterMap (dispOf c) → ∃ id, .displaced c v id ∈ s.log := by
    intro c v h
    obtain ⟨e, he, h⟩ := List.mem_filterMap.mp h
    cases e <;> grind [dispOf]
  clear hA hD hC
  intro hl
  have hl0 : s.late = false := by
    qstep_cases hs a <;> simp_all
  obtain ⟨h1, h2, h3, h4, h5⟩ := h hl0
  clear h
  qstep_cases hs a
  all_goals constructor
  all_goals try simp only [List.filterMap_append, List.filterMap_cons, List.filterMap_nil, dispOf]
  all_goals try first
    | assumption
    | grind [setAt, QPc.setter, QK.setter, QPc.delId, QPc.preDel, QPc.own, QPc.kicking, QK.kicking]
    | (rename_i hq _ _ hq2 _
       have g1 := c2 _ _ _ (by rw [hq]; rfl)
       have g2 := h4 _ _ hq2
       intro c
       have g3 := h5 c
       have g4 := e2 c
       rw [List.nodup_append]
       refine ⟨g3, ?_, ?_⟩ <;> grind [QPc.kicking])

end Qrpc
