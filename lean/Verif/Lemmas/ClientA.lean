import Verif.Lemmas.ClientInv
/-! Client: tickets and results. -/
namespace Qrpc

set_option maxHeartbeats 4000000 in
theorem CInvA.step {c s a s'} (hL : CInvL c s) (h : CInvA s) (hs : cStep c s a = some s') : CInvA s' := by
  obtain ⟨h1, h2, h3, h4, h5, h6, h7, h8, h9, h10, h11, h12, h13, h14, h15, h16⟩ := h
  have hidle := hL.idle
  clear hL
  have hsub := (registerAll_sublist s.frames s.respes s.batch).subset
  have hdn : (registerAll s.frames s.respes s.batch).2.Nodup := h6.sublist (registerAll_sublist s.frames s.respes s.batch)
  cstep_cases hs a
  all_goals constructor
  all_goals try simp only [map_fst_zip_client, map_fst_constC]
  all_goals try first
    | assumption
    | grind [setAt, CWr.collecting, CWr.distributing, CLp.running]
    | (intro p hp; have := (List.of_mem_zip hp).1; grind)
    | (intro t ht; have := h7 _ (by rw [‹s.toSend = _›]; exact List.mem_cons_self); grind [setAt])

set_option maxHeartbeats 4000000 in
theorem CInvB.step {c s a s'} (hA : CInvA s) (h : CInvB c s) (hs : cStep c s a = some s') : CInvB c s' := by
  intro hrec
  replace h := h hrec
  obtain ⟨h1, h2, h3, h4, h5, h6, h7, h8, h9, h10, h11, h12, h13, h14, h15, h16⟩ := hA
  cstep_cases hs a
  all_goals try simp only [map_fst_zip_client, map_fst_constC]
  all_goals try first
    | assumption
    | grind [setAt, CWr.collecting, CWr.distributing]

end Qrpc
