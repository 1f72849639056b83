import Verif.Lemmas.RegistryInv
namespace Qrpc

set_option maxHeartbeats 4000000 in
theorem QInvD.step {s s' : QSt} {a : QAct} (hA : QInvA s) (h : QInvD s) (hs : qStep s a = some s') : QInvD s' := by
  have e1 : ∀ i v, (s.pc i).postActive = some v → (s.pc i).own = some v := fun _ _ => QPc.own_of_postActive
  have e2 : ∀ i v, (s.pc i).preDel = some v → (s.pc i).own = some v := fun _ _ => QPc.own_of_preDel
  have e3 : ∀ i v, (s.pc i).postDel = some v → (s.pc i).own = some v := fun _ _ => QPc.own_of_postDel
  have a1 := hA.own_owner
  have a2 := hA.own_un
  have a3 := hA.notun
  have a4 := hA.ch_le
  clear hA
  obtain ⟨h1, h2, h3, h4, h5, h6, h7, h8, h9, h10⟩ := h
  qstep_cases hs a
  all_goals constructor
  all_goals try simp only []
  all_goals try first
    | assumption
    | grind [setAt, QPc.own, QPc.target, QPc.postActive, QPc.preDel, QPc.postDel, QPc.setter, QK.setter]
    | (rename_i hq
       have hlt := h9 _ _ _ (by rw [hq]; rfl)
       grind [setAt, QPc.target])

end Qrpc
