import Verif.Lemmas.ServeRespInv
/-! The response table of a server connection: the invariant is inductive. -/
namespace Qrpc

set_option maxHeartbeats 2000000 in
theorem VInvC.step {s a s'} (hA : VInvA s) (h : VInvC s) (hs : vStep s a = some s') : VInvC s' := by
  obtain ⟨h1, h2, h3, h4, h5, h6, h7, hl, h8, h9, h10, h11, h12, h13⟩ := h
  have hsn := nodup_snd_of_fst (g := fun t => (cframeOf s.reqs t).rid) h1 (fun p hp => (h2 p hp).2.1)
  have hreg := fun ts hn => registerAll_mem s.reqs s.respes ts hn
  have hregn := fun ts => registerAll_nodup_fst s.reqs s.respes ts h1
  have hresp : ∀ t, t < s.reqs.length → (cframeOf s.reqs t).resp = true := by
    intro t ht
    have : cframeOf s.reqs t = s.reqs[t] := by simp [cframeOf, List.getD, List.getElem?_eq_getElem ht]
    rw [this]; exact hA.resp _ (List.getElem_mem ht)
  have hlt : ∀ t ∈ s.regd, t < s.reqs.length := fun t ht => hA.len ▸ hA.takenLt t (hA.regd t ht)
  have htk := hA.regd
  have hfr : ∀ f t, t < s.reqs.length → cframeOf (s.reqs ++ [f]) t = cframeOf s.reqs t := fun f t ht => cframeOf_append f ht
  clear hA
  have hm : ∀ r t, (r, t) ∈ s.respes → t ∈ s.respes.map Prod.snd := fun r t h => List.mem_map.2 ⟨(r, t), h, rfl⟩
  have hm' : ∀ t, t ∈ s.respes.map Prod.snd → ∃ p ∈ s.respes, p.2 = t := by intro t ht; simpa using ht
  have huniq : ∀ p ∈ s.respes, ∀ q ∈ s.respes, p.1 = q.1 → p = q := fun p hp q hq he => nodup_map_inj h1 hp hq he
  vstep_cases hs a
  all_goals constructor
  all_goals try simp only []
  all_goals try first
    | assumption
    | grind [setAt]
  · rename_i i _ hi _
    intro t ht
    rcases h4 t ht with h | h | h | ⟨j, us, h, _⟩
    · exact .inr (.inr (.inr ⟨i, _, by rw [setAt, if_pos rfl], hm _ _ h⟩))
    · exact .inr (.inl h)
    · exact .inr (.inr (.inl h))
    · have := (h9 j us h).2.1; simp_all
  all_goals
    rename_i i _ u us hi
    have hc := h9 _ _ hi
    have hc2 := hc.2.2 u (by simp)
  · intro t ht
    rcases h4 t ht with h | h | h | ⟨j, vs, h, hv⟩
    · exact .inl h
    · refine .inr (.inl ?_); simp only [setAt]; split <;> simp_all
    · exact .inr (.inr (.inl h))
    · have hij := h10 _ _ _ _ h hi
      subst hij
      rw [hi] at h
      cases h
      rcases List.mem_cons.1 hv with rfl | hv
      · refine .inr (.inl ?_); simp [setAt]
      · exact .inr (.inr (.inr ⟨j, _, by rw [setAt, if_pos rfl], hv⟩))
  · intro t
    simp only [setAt]
    split
    · simp [hc2.2.1]
    · exact h5 t
  · intro t
    simp only [setAt]
    split
    · next he => subst he; exact fun _ => hc2.1
    · exact h6 t
  · intro t f ht
    have := h8 t f ht
    have hne : t ≠ u := fun he => hc2.2.2 f (he ▸ ht)
    simpa [setAt, hne] using this
  · simp [h12, hc2.2.1]

structure VInv (s : VSt) : Prop where
  a : VInvA s
  c : VInvC s

theorem VInv.reach {acts s} (h : vRun acts = some s) : VInv s :=
  runActs_inv (P := VInv) (fun _ _ _ hi hs => ⟨hi.a.step hs, hi.c.step hi.a hs⟩) ⟨.init, .init⟩ h

end Qrpc
