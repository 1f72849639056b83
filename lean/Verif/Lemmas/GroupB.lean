import Verif.Lemmas.GroupInv
/-! Write path: the whereabouts of tickets. -/
namespace Qrpc

set_option maxHeartbeats 4000000 in
theorem GInvB.step {cap s a s'} (hA : GInvA cap s) (h : GInvB s) (hs : gStep cap s a = some s') : GInvB s' := by
  obtain ⟨h1, h2, h3, h4, h5, h6, h7, h8, h9, h10, h11⟩ := h
  have u := hA.unique
  obtain ⟨a1, a2, a3, a4, a5, -, -⟩ := hA
  have hc := TPc.holds_of_clean
  have hco := TPc.holds_of_collecting
  have hn : s.batch.Nodup := h7.imp (fun h => Nat.ne_of_lt h)
  gstep_cases hs a
  all_goals constructor
  all_goals simp only [map_fst_zip_batch, map_fst_const]
  all_goals try first
    | assumption
    | grind [setAt, TPc.holds, TPc.clean, TPc.collecting]
    | (intro p hp; have := (List.of_mem_zip hp).1; grind)
    | (intro t ht; have := h4 _ (by rw [‹s.toSend = _›]; exact List.mem_cons_self); grind [setAt])
    | (simp_all [setAt]; done)

end Qrpc
