import Verif.Lemmas.ServeReadInv
namespace Qrpc

set_option maxHeartbeats 4000000 in
theorem RInvA.step {c s a s'} (h : RInvA c s) (hs : rdStep c s a = some s') : RInvA c s' := by
  obtain ⟨h1, h2, h3, h4, h5, h6, h7, h8, h9, h10, h11, h12, h13, h14⟩ := h
  have hsn := fun k (hk : ∀ j ∈ s.log.filterMap startOf, j < k) => pairwise_snoc_lt h13 hk
  have hcn := fun k (hk : ∀ j ∈ s.ch, j < k) => pairwise_snoc_lt h2 hk
  have hms := fun j => @mem_starts s.log j
  have hcons : ∀ k rest, s.ch = k :: rest → ∀ q ∈ rest, k < q := by
    intro k rest he; rw [he, List.pairwise_cons] at h2; exact h2.1
  rdstep_cases hs a
  all_goals constructor
  all_goals try simp only [List.filterMap_append, List.filterMap_cons, List.filterMap_nil, startOf, List.append_nil]
  all_goals try first
    | assumption
    | grind [MPc.item, RRd.item, MPc.blk]

end Qrpc
