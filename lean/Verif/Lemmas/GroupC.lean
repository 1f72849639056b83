import Verif.Lemmas.GroupInv
/-! Write path: the ticket of a goroutine inside `writeFrameBytes`. -/
namespace Qrpc

set_option maxHeartbeats 4000000 in
theorem GInvC.step {cap s a s'} (hA : GInvA cap s) (hB : GInvB s) (h : GInvC s) (hs : gStep cap s a = some s') : GInvC s' := by
  obtain ⟨h12, h13, h14, h15, h16⟩ := h
  obtain ⟨h1, h2, h3, h4, h5, h6, h7, h8, h9, h10, h11⟩ := hB
  have u := hA.unique
  obtain ⟨a1, a2, a3, a4, a5, -, -⟩ := hA
  have hc := TPc.holds_of_clean
  have hco := TPc.holds_of_collecting
  gstep_cases hs a
  all_goals constructor
  all_goals simp only [map_fst_zip_batch, map_fst_const]
  all_goals try first
    | assumption
    | grind [setAt, TPc.tk, TPc.holds, TPc.clean, TPc.collecting]

end Qrpc
