import Verif.Lemmas.ApiB
namespace Qrpc

theorem APc.del1_dels_ref {p : APc} {x : Nat × Nat} (h : p.atDel2 = some x) : p.ref = some x := by
  cases p <;> simp [APc.atDel2, APc.ref] at *; exact h

theorem AInvT.miss_step {s s' : ASt} {a : AAct} (hm : AInvM s) (h : ∀ j i, (s.pc j).miss = some i → s.conns i = none)
    (hs : aStep s a = some s') : ∀ j i, (s'.pc j).miss = some i → s'.conns i = none := by
  have e1 : ∀ i x, (s.pc i).miss = some x → s.mu = some i := fun i _ hi => hm.holds i (APc.miss_holds hi)
  have e2 : ∀ i m x c, s.pc i = .ncSt1 m x c → s.mu = some i := fun i _ _ _ hi => hm.holds i (by rw [hi]; rfl)
  clear hm
  astep_cases hs a
  all_goals try simp only []
  all_goals grind [setAt, APc.miss]

theorem AInvT.fr1_step {s s' : ASt} {a : AAct} (hm : AInvM s) (h2 : ∀ c, s.made c = true → c < s.nextC)
    (h4 : ∀ i c, s.active c = some i → s.made c = true ∧ s.home c = i)
    (h : ∀ j c, (s.pc j).fresh1 = some c → s.active c = none)
    (hs : aStep s a = some s') : ∀ j c, (s'.pc j).fresh1 = some c → s'.active c = none := by
  have e1 : ∀ i x, (s.pc i).fresh1 = some x → s.mu = some i := fun i _ hi => hm.holds i (APc.fresh1_holds hi)
  have e2 : ∀ i m x c, s.pc i = .ncSt2 m x c → s.mu = some i := fun i _ _ _ hi => hm.holds i (by rw [hi]; rfl)
  have e3 : s.active s.nextC = none := by
    cases ha : s.active s.nextC with
    | none => rfl
    | some i => have := h2 _ (h4 _ _ ha).1; omega
  clear hm h2 h4
  astep_cases hs a
  all_goals try simp only []
  all_goals grind [setAt, APc.fresh1]

theorem AInvT.fr2_step {s s' : ASt} {a : AAct} (hm : AInvM s)
    (h1 : ∀ j c, (s.pc j).fresh1 = some c → s.active c = none)
    (h : ∀ j i c, (s.pc j).fresh2 = some (i, c) → s.active c = none ∧ s.conns i = some c)
    (hs : aStep s a = some s') : ∀ j i c, (s'.pc j).fresh2 = some (i, c) → s'.active c = none ∧ s'.conns i = some c := by
  have e1 : ∀ i x, (s.pc i).fresh2 = some x → s.mu = some i := fun i _ hi => hm.holds i (APc.fresh2_holds hi)
  have e2 : ∀ i m x c, s.pc i = .ncSt1 m x c → s.mu = some i := fun i _ _ _ hi => hm.holds i (by rw [hi]; rfl)
  have e3 : ∀ i m x c nc, s.pc i = .del1 m x c nc → s.mu = some i := fun i _ _ _ _ hi => hm.holds i (by rw [hi]; rfl)
  clear hm
  astep_cases hs a
  all_goals try simp only []
  all_goals grind [setAt, APc.fresh1, APc.fresh2]

set_option maxHeartbeats 1000000 in
theorem AInvT.conn_step {s s' : ASt} {a : AAct} (hm : AInvM s)
    (h6 : ∀ j i c, (s.pc j).ref = some (i, c) → s.made c = true ∧ s.home c = i)
    (h2 : ∀ c, s.made c = true → c < s.nextC)
    (h : ∀ i c, s.conns i = some c → s.made c = true ∧ s.home c = i ∧ (s.active c = some i ∨ (s.pc s.owner).fresh2 = some (i, c)))
    (h9 : ∀ j i c, (s.pc j).atDel2 = some (i, c) → s.conns i ≠ some c)
    (hs : aStep s a = some s') :
    ∀ i c, s'.conns i = some c → s'.made c = true ∧ s'.home c = i ∧ (s'.active c = some i ∨ (s'.pc s'.owner).fresh2 = some (i, c)) := by
  have e1 : ∀ i x, (s.pc i).fresh2 = some x → s.mu = some i := fun i _ hi => hm.holds i (APc.fresh2_holds hi)
  have e2 : ∀ i m x c, s.pc i = .ncSt1 m x c → s.mu = some i := fun i _ _ _ hi => hm.holds i (by rw [hi]; rfl)
  have e3 : ∀ i m x c nc, s.pc i = .del1 m x c nc → s.mu = some i := fun i _ _ _ _ hi => hm.holds i (by rw [hi]; rfl)
  have e4 : ∀ i, s.mu = some i → s.owner = i := fun i hi => (hm.held i hi).2
  clear hm
  astep_cases hs a
  all_goals try simp only []
  all_goals try first | assumption | grind [setAt, APc.fresh2, APc.ref, APc.atDel2]

theorem AInvT.d2_step {s s' : ASt} {a : AAct} (hm : AInvM s)
    (h : ∀ j i c, (s.pc j).atDel2 = some (i, c) → s.conns i ≠ some c)
    (hs : aStep s a = some s') : ∀ j i c, (s'.pc j).atDel2 = some (i, c) → s'.conns i ≠ some c := by
  have e1 : ∀ i x, (s.pc i).atDel2 = some x → s.mu = some i := fun i _ hi => hm.holds i (APc.atDel2_holds hi)
  have e2 : ∀ i m x c, s.pc i = .ncSt1 m x c → s.mu = some i := fun i _ _ _ hi => hm.holds i (by rw [hi]; rfl)
  clear hm
  astep_cases hs a
  all_goals try simp only []
  all_goals try first | assumption | grind [setAt, APc.atDel2]

set_option maxHeartbeats 1000000 in
theorem AInvT.act_step {s s' : ASt} {a : AAct} (hm : AInvM s)
    (h6 : ∀ j i c, (s.pc j).ref = some (i, c) → s.made c = true ∧ s.home c = i)
    (h2 : ∀ c, s.made c = true → c < s.nextC)
    (h8 : ∀ j i c, (s.pc j).fresh2 = some (i, c) → s.active c = none ∧ s.conns i = some c)
    (h : ∀ i c, s.active c = some i → s.made c = true ∧ s.home c = i ∧
      (s.conns i = some c ∨ s.conns i = none ∧ (s.pc s.owner).atDel2 = some (i, c)))
    (hs : aStep s a = some s') :
    ∀ i c, s'.active c = some i → s'.made c = true ∧ s'.home c = i ∧
      (s'.conns i = some c ∨ s'.conns i = none ∧ (s'.pc s'.owner).atDel2 = some (i, c)) := by
  have e1 : ∀ i x, (s.pc i).atDel2 = some x → s.mu = some i := fun i _ hi => hm.holds i (APc.atDel2_holds hi)
  have e2 : ∀ i m x c, s.pc i = .ncSt1 m x c → s.mu = some i := fun i _ _ _ hi => hm.holds i (by rw [hi]; rfl)
  have e3 : ∀ i m x c nc, s.pc i = .del1 m x c nc → s.mu = some i := fun i _ _ _ _ hi => hm.holds i (by rw [hi]; rfl)
  have e4 : ∀ i, s.mu = some i → s.owner = i := fun i hi => (hm.held i hi).2
  have e5 : ∀ i m x c, s.pc i = .ncSt2 m x c → s.mu = some i := fun i _ _ _ hi => hm.holds i (by rw [hi]; rfl)
  clear hm
  astep_cases hs a
  all_goals try simp only []
  all_goals try first | assumption | grind [setAt, APc.fresh2, APc.ref, APc.atDel2]

theorem AInvT.step {s s' : ASt} {a : AAct} (hm : AInvM s) (h : AInvT s) (hs : aStep s a = some s') : AInvT s' := by
  have hc : ∀ i c, s.conns i = some c → s.made c = true ∧ s.home c = i := fun i c hh => ⟨(h.conn i c hh).1, (h.conn i c hh).2.1⟩
  have ha : ∀ i c, s.active c = some i → s.made c = true ∧ s.home c = i := fun i c hh => ⟨(h.act i c hh).1, (h.act i c hh).2.1⟩
  exact
    { nopan := nopan_step h.nopan h.miss hs
      lt := lt_step h.lt hs
      conn := conn_step hm h.ref h.lt h.conn h.d2 hs
      act := act_step hm h.ref h.lt h.fr2 h.act hs
      miss := miss_step hm h.miss hs
      ref := ref_step h.lt hc ha h.ref hs
      fr1 := fr1_step hm h.lt ha h.fr1 hs
      fr2 := fr2_step hm h.fr1 h.fr2 hs
      d2 := d2_step hm h.d2 hs }

end Qrpc
