import Verif.Lemmas.ApiA
namespace Qrpc

theorem APc.fresh2_holds {p : APc} {x : Nat × Nat} (h : p.fresh2 = some x) : p.holds = true := by
  cases p <;> simp [APc.fresh2, APc.holds] at *

theorem APc.fresh1_holds {p : APc} {x : Nat} (h : p.fresh1 = some x) : p.holds = true := by
  cases p <;> simp [APc.fresh1, APc.holds] at *

theorem APc.fresh_holds {p : APc} {x : Nat} (h : p.fresh = some x) : p.holds = true := by
  cases p <;> simp [APc.fresh, APc.holds] at *

theorem APc.atDel2_holds {p : APc} {x : Nat × Nat} (h : p.atDel2 = some x) : p.holds = true := by
  cases p <;> simp [APc.atDel2, APc.holds] at *

theorem APc.miss_holds {p : APc} {x : Nat} (h : p.miss = some x) : p.holds = true := by
  cases p <;> simp [APc.miss, APc.holds] at *

theorem AInvT.nopan_step {s s' : ASt} {a : AAct} (h1 : ∀ i, s.pc i ≠ .panicked) (h5 : ∀ j i, (s.pc j).miss = some i → s.conns i = none)
    (hs : aStep s a = some s') : ∀ i, s'.pc i ≠ .panicked := by
  astep_cases hs a
  all_goals try simp only []
  all_goals grind [setAt, APc.miss]

theorem AInvT.lt_step {s s' : ASt} {a : AAct} (h : ∀ c, s.made c = true → c < s.nextC)
    (hs : aStep s a = some s') : ∀ c, s'.made c = true → c < s'.nextC := by
  astep_cases hs a
  all_goals try simp only []
  all_goals first | assumption | grind [setAt]

theorem AInvT.ref_step {s s' : ASt} {a : AAct} (h2 : ∀ c, s.made c = true → c < s.nextC)
    (h3 : ∀ i c, s.conns i = some c → s.made c = true ∧ s.home c = i)
    (h4 : ∀ i c, s.active c = some i → s.made c = true ∧ s.home c = i)
    (h : ∀ j i c, (s.pc j).ref = some (i, c) → s.made c = true ∧ s.home c = i)
    (hs : aStep s a = some s') : ∀ j i c, (s'.pc j).ref = some (i, c) → s'.made c = true ∧ s'.home c = i := by
  astep_cases hs a
  all_goals try simp only []
  all_goals grind [setAt, APc.ref]

end Qrpc
