import Verif.Lemmas.ClientInv
/-! Client: the table of outstanding responses. -/
namespace Qrpc

theorem nodup_map_inj {α β : Type} {f : α → β} {l : List α} (h : (l.map f).Nodup) {x y : α} (hx : x ∈ l) (hy : y ∈ l)
    (he : f x = f y) : x = y := by
  induction l with
  | nil => simp at hx
  | cons a l ih =>
    simp only [List.map_cons, List.nodup_cons, List.mem_map, not_exists, not_and] at h
    simp only [List.mem_cons] at hx hy
    rcases hx with rfl | hx <;> rcases hy with rfl | hy
    · rfl
    · exact absurd he.symm (h.1 y hy)
    · exact absurd he (h.1 x hx)
    · exact ih h.2 hx hy

set_option maxHeartbeats 4000000 in
theorem CInvC.step {c s a s'} (hL : CInvL c s) (hA : CInvA s) (h : CInvC s) (hs : cStep c s a = some s') : CInvC s' := by
  obtain ⟨h1, h2, h3, h4, h5, h6, h7, h8, h9, h10, h11⟩ := h
  have hreg := registerAll_mem s.frames s.respes s.batch hA.batchNodup
  have hregn := registerAll_nodup_fst s.frames s.respes s.batch h1
  obtain ⟨a1, a2, a3, a4, a5, a6, a7, a8, a9, a10, -, -, -, -, -, -⟩ := hA
  have hidle := hL.idle
  clear hL
  have hm : ∀ r t, (r, t) ∈ s.respes → t ∈ s.respes.map Prod.snd := fun r t h => List.mem_map.2 ⟨(r, t), h, rfl⟩
  have hm' : ∀ t, t ∈ s.respes.map Prod.snd → ∃ p ∈ s.respes, p.2 = t := by intro t ht; simpa using ht
  have hfr : ∀ f t, t < s.deq → cframeOf (s.frames ++ [f]) t = cframeOf s.frames t :=
    fun f t ht => cframeOf_append f (Nat.lt_of_lt_of_le ht a3)
  have huniq : ∀ p ∈ s.respes, ∀ q ∈ s.respes, p.1 = q.1 → p = q := fun p hp q hq he => nodup_map_inj h1 hp hq he
  cstep_cases hs a
  all_goals constructor
  all_goals try simp only []
  all_goals try first
    | assumption
    | grind [setAt, CWr.preReg, CWr.collecting, CLp.running]
    | (intro t ht
       rcases h5 t ht with h | h | h
       · have hp := List.mem_of_find?_eq_some ‹_›
         have hq := List.find?_some ‹_›
         by_cases he : (cframeOf s.frames t).rid = ‹InFrame›.rid
         · have := huniq _ hp _ h (by simp only [beq_iff_eq] at hq; rw [hq, he])
           exact .inr (.inr ⟨_, by rw [this]⟩)
         · exact .inl (List.mem_filter.2 ⟨h, by simpa using he⟩)
       · exact .inr (.inl h)
       · obtain ⟨g, hg⟩ := h
         simp_all)
    | (intro t ht
       rcases h5 t ht with h | h | h
       · exact .inr (.inl (by simp [hm _ _ h]))
       · refine .inr (.inl ?_)
         split
         · simp
         · exact h
       · exact .inr (.inr h))

end Qrpc
