import Verif.Lemmas.ServeReadInv
namespace Qrpc

theorem mem_erase_or {l : List Nat} {k j : Nat} (h : k ∈ l) : k = j ∨ k ∈ l.erase j := by
  by_cases hkj : k = j
  · exact .inl hkj
  · exact .inr ((List.mem_erase_of_ne hkj).2 h)

set_option maxHeartbeats 4000000 in
theorem RInvD.step {c s a s'} (h : RInvD s) (hs : rdStep c s a = some s') : RInvD s' := by
  obtain ⟨h1, h2, h3, h4, h5, h6⟩ := h
  have e1 := fun k j => @mem_erase_or s.running k j
  have e2 := fun k j => @mem_erase_or s.ending k j
  have e3 := fun k j => @mem_erase_or s.cleaning k j
  have e4 := fun k j => @mem_erase_or s.resetting k j
  rdstep_cases hs a
  all_goals constructor
  all_goals try simp only []
  all_goals try first
    | assumption
    | grind [MPc.down, MPc.over, MPc.blk, setAt]

theorem filter_lt_nil {arr : List (RFrame × Nat)} {last now : Nat} (h : ∀ p ∈ arr, p.2 ≤ last) (hl : last < now) :
    (arr.filter fun p => p.2 = now) = [] := by
  rw [List.filter_eq_nil_iff]
  intro p hp
  have := h p hp
  simp only [decide_eq_true_eq]
  omega

theorem RInvE.step {c s a s'} (h : RInvE c s) (hs : rdStep c s a = some s') : RInvE c s' := by
  obtain ⟨h1, h2, h3, h4⟩ := h
  have accept : ∀ f, ¬ (0 < c.rate ∧ c.rate < rateCount s.now s.last s.count) →
      (∀ p ∈ s.arr ++ [(f, s.now)], p.2 ≤ s.now) ∧
      (0 < c.rate → ((s.arr ++ [(f, s.now)]).filter fun p => p.2 = s.now).length ≤ rateCount s.now s.last s.count) ∧
      (0 < c.rate → ∀ sec, ((s.arr ++ [(f, s.now)]).filter fun p => p.2 = sec).length ≤ c.rate) := by
    intro f hn
    have key : 0 < c.rate → ((s.arr ++ [(f, s.now)]).filter fun p => p.2 = s.now).length ≤ rateCount s.now s.last s.count := by
      intro hr
      simp only [rateCount, List.filter_append, List.length_append]
      by_cases he : s.now = s.last
      · have := h3 hr
        rw [if_pos he, he]
        simp only [decide_true, List.filter_cons_of_pos, List.filter_nil, List.length_cons, List.length_nil]
        omega
      · rw [if_neg he, filter_lt_nil h2 (by omega)]
        simp
    refine ⟨?_, key, ?_⟩
    · intro p hp
      simp only [List.mem_append, List.mem_singleton] at hp
      rcases hp with hp | rfl
      · exact Nat.le_trans (h2 p hp) h1
      · exact Nat.le_refl _
    · intro hr sec
      by_cases he : sec = s.now
      · subst he
        have := key hr
        have : ¬ c.rate < rateCount s.now s.last s.count := fun h => hn ⟨hr, h⟩
        omega
      · have := h4 hr sec
        simp only [List.filter_append, List.length_append]
        rw [List.filter_cons_of_neg (by simp; omega)]
        simpa using this
  rdstep_cases hs a
  all_goals constructor
  all_goals try simp only []
  all_goals try first
    | assumption
    | exact Nat.le_refl _
    | exact (accept _ (by assumption)).1
    | exact (accept _ (by assumption)).2.1
    | exact (accept _ (by assumption)).2.2
    | (intro p hp; exact Nat.le_trans (h2 p hp) h1)
    | omega
    | skip
  all_goals
    intro hr
    simp only [rateCount]
    by_cases he : s.now = s.last
    · have := h3 hr
      rw [if_pos he, he]; omega
    · rw [if_neg he, filter_lt_nil h2 (by omega)]; simp

/-- F: who gets a frame. -/
structure RInvF (s : RSt) : Prop where
  ch : ∀ k ∈ s.ch, (frameAt s.arr k).push = false
  rd : ∀ k, s.rd.item = some k → (frameAt s.arr k).push = false
  main : ∀ k, s.main.item = some k → (frameAt s.arr k).push = false
  start : ∀ k, HEv.start k ∈ s.log → (frameAt s.arr k).push = false
  resp : ∀ k, HEv.resp k ∈ s.log → k < s.arr.length ∧ (frameAt s.arr k).push = false
  push : ∀ k, HEv.push k ∈ s.log → k < s.arr.length ∧ (frameAt s.arr k).push = true

theorem RInvF.init (t : Nat) : RInvF (RSt.init t) := by
  constructor <;> simp [RSt.init, RRd.item, MPc.item]

set_option maxHeartbeats 4000000 in
theorem RInvF.step {c s a s'} (hA : RInvA c s) (h : RInvF s) (hs : rdStep c s a = some s') : RInvF s' := by
  obtain ⟨h1, h2, h3, h4, h5, h6⟩ := h
  have hfa := fun x k (hk : k < s.arr.length) => frameAt_append (arr := s.arr) x hk
  have hfl := frameAt_last s.arr
  have a1 := hA.chLt
  have a2 := hA.rdLast
  have a3 := hA.mainLt
  have a4 := hA.startsLt
  clear hA
  rdstep_cases hs a
  all_goals constructor
  all_goals try simp only []
  all_goals try first
    | assumption
    | grind [RRd.item, MPc.item]

end Qrpc
