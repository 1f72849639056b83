import Verif.Model.ServeChanMem
import Verif.Props.ChannelMem
/-!
# C138 A handler's channel: no races and no message twice, if the calls are made one after the other
-/
namespace Qrpc
open Spec

/-- The variable that the calls of a sort share. -/
def xsVar : Bool → XsX
  | false => .buf
  | true => .flag

theorem XsPc.sort_none {p : XsPc} : p.sort = none ↔ p = .idle := by cases p <;> simp [XsPc.sort]

/-- What a step of a call does, apart from the frames. -/
theorem xs_next {s s' : XsSt} {g : Nat} {b : Bool} {p : XsPc} (h : s.next g b p = some s') :
    ∃ κ p', p.sort = some κ ∧ s'.us = s.us ∧ s'.handed = s.handed ∧ s'.pc = setC s.pc g p' ∧
      ((p'.sort = some κ ∧ s'.n = s.n ∧ s'.seen = s.seen) ∨
       (p' = .idle ∧ s'.n κ = s.n κ + 1 ∧ s'.seen κ = setC (s.seen κ) g (s.n κ + 1) ∧ ∀ k, k ≠ κ → s'.n k = s.n k ∧ s'.seen k = s.seen k)) := by
  cases p <;> simp only [XsSt.next, reduceCtorEq] at h
  case r2 =>
    cases h
    refine ⟨true, _, rfl, rfl, rfl, rfl, .inl ⟨?_, rfl, rfl⟩⟩
    cases s.got1 <;> rfl
  case r3 =>
    split at h
    · split at h
      · cases h
        exact ⟨true, _, rfl, rfl, rfl, rfl, .inl ⟨rfl, rfl, rfl⟩⟩
      · cases h
    · cases h
      exact ⟨true, .idle, rfl, rfl, rfl, rfl, .inr ⟨rfl, by simp [XsSt.ret], by simp [XsSt.ret], fun k hk => by simp [XsSt.ret, XsSt.to, hk]⟩⟩
  all_goals cases h
  case s4 | e2 => exact ⟨false, .idle, rfl, rfl, rfl, rfl, .inr ⟨rfl, by simp [XsSt.ret], by simp [XsSt.ret], fun k hk => by simp [XsSt.ret, XsSt.to, hk]⟩⟩
  case r5 => exact ⟨true, .idle, rfl, rfl, rfl, rfl, .inr ⟨rfl, by simp [XsSt.ret], by simp [XsSt.ret], fun k hk => by simp [XsSt.ret, XsSt.to, hk]⟩⟩
  all_goals exact ⟨_, _, rfl, rfl, rfl, rfl, .inl ⟨rfl, rfl, rfl⟩⟩

/-- The accesses of a call: to the variable of its sort, or a read of the fields. -/
theorem xs_acc {p : XsPc} {x : XsX} {w : Bool} {l : Nat} (h : p.acc = some (x, w, l)) :
    l ≠ 43 ∧ l ≠ 44 ∧ ∃ κ, p.sort = some κ ∧ (x = xsVar κ ∨ (x = .fld ∧ w = false)) := by
  cases p <;> simp only [XsPc.acc, Option.some.injEq, Prod.mk.injEq, reduceCtorEq] at h
  all_goals obtain ⟨rfl, rfl, rfl⟩ := h
  all_goals exact ⟨by decide, by decide, _, rfl, by simp [xsVar]⟩

theorem xs_evs {p : XsPc} {g : Nat} : p.evs g = [] ∨ ∃ x w l, p.acc = some (x, w, l) ∧ p.evs g = [⟨g, .acc x w false, l⟩] := by
  unfold XsPc.evs
  cases h : p.acc with
  | none => exact .inl rfl
  | some y => obtain ⟨x, w, l⟩ := y; exact .inr ⟨x, w, l, rfl, rfl⟩

/-! ## Whoever calls what -/

def xsIni (e : XsEv) : Prop := e.line = 43 ∨ e.line = 44

structure XsBase (s : XsSt) : Prop where
  at_ : ∀ g, s.pc g ≠ .idle → g ∈ s.us
  ini : ∀ (i : Nat) (e : XsEv), s.tr[i]? = some e → xsIni e → ∀ g ∈ s.us, Knows s.tr g i
  shape : ∀ (i : Nat) (e : XsEv) (x : XsX) (w p : Bool), s.tr[i]? = some e → e.op = .acc x w p →
    (xsIni e ∧ x ≠ .buf) ∨ ((x = .fld → w = false) ∧ ¬ xsIni e)
  fld : RaceFree s.tr .fld

theorem XsBase.init : XsBase XsSt.init := by
  have hm : ∀ (i : Nat) (e : XsEv), XsSt.init.tr[i]? = some e → e.g = 0 ∧ xsIni e ∧ ∀ x w p, e.op = .acc x w p → x ≠ .buf := by
    intro i e he
    have := List.mem_of_getElem? he
    simp only [XsSt.init] at this
    simp at this
    rcases this with rfl | rfl
    · exact ⟨rfl, .inl rfl, by rintro _ _ _ h; cases h; simp⟩
    · exact ⟨rfl, .inr rfl, by rintro _ _ _ h; cases h; simp⟩
  refine ⟨fun g h => absurd rfl h, fun i e he _ g hg => ?_, fun i e x w p he ho => .inl ⟨(hm i e he).2.1, (hm i e he).2.2 _ _ _ ho⟩, ?_⟩
  · have : g = 0 := by simpa [XsSt.init] using hg
    exact Knows.own' he ((hm i e he).1.trans this.symm)
  · rintro i j ⟨hij, ⟨a, b, ha, hb, -⟩, hn⟩
    exact hn (.program hij ha hb ((hm i a ha).1.trans (hm j b hb).1.symm))

/-- An event of a goroutine that has the sender or receiver, and no access to the fields unless it reads. -/
theorem XsBase.snoc {s s' : XsSt} {e : XsEv} (h : XsBase s) (ht : s'.tr = s.tr ++ [e]) (he : e.g ∈ s.us) (hi : ¬ xsIni e)
    (hus : ∀ g ∈ s'.us, g ∈ s.us ∨ e.op = .go g) (hpc : ∀ g, s'.pc g ≠ .idle → g ∈ s'.us)
    (hx : ∀ x w p, e.op = .acc x w p → x = .fld → w = false) : XsBase s' := by
  obtain ⟨h1, h2, h3, h4⟩ := h
  refine ⟨hpc, fun i a ha hl g hg => ?_, fun i a x w p ha ho => ?_, fun i j hr => ?_⟩
  · rw [ht] at ha ⊢
    rcases getElem?_snoc ha with ha | ⟨-, rfl⟩
    · rcases hus g hg with hg | ho
      · exact (h2 i a ha hl g hg).mono _
      · exact (h2 i a ha hl _ he).go ho
    · exact absurd hl hi
  · rw [ht] at ha
    rcases getElem?_snoc ha with ha | ⟨-, rfl⟩
    · exact h3 i a x w p ha ho
    · exact .inr ⟨hx x w p ho, hi⟩
  · rw [ht] at hr
    rcases new_race hr with hr | ⟨-, a, ha, ⟨w, v, p, q, o1, o2, hw, -⟩, hk⟩
    · exact h4 i j hr
    · rcases h3 i a _ _ _ ha o1 with ⟨hi', -⟩ | ⟨hf, -⟩
      · exact hk (h2 i a ha hi' _ he)
      · rw [hf rfl, hx _ _ _ o2 rfl] at hw
        rcases hw with hw | hw <;> cases hw

theorem XsBase.step {s s' : XsSt} {a : XsAct} (h : XsBase s) (hs : xsStep s a = some s') : XsBase s' := by
  cases a <;> simp only [xsStep] at hs
  case go g b =>
    simp only [Option.map_eq_some_iff] at hs
    obtain ⟨u, hu, rfl⟩ := hs
    obtain ⟨κ, p', k1, k2, k3, k4, k5⟩ := xs_next hu
    have hg : g ∈ s.us := h.at_ g (by intro e; rw [e] at k1; cases k1)
    have hpc : ∀ g', u.pc g' ≠ .idle → g' ∈ u.us := by
      intro g' hp
      rw [k2]
      rw [k4] at hp
      by_cases e : g' = g
      · rw [e]; exact hg
      · rw [setC_ne _ _ e] at hp; exact h.at_ g' hp
    rcases @xs_evs (s.pc g) g with e | ⟨x, w, l, e1, e2⟩
    · rw [e, List.append_nil]
      exact ⟨hpc, by rw [k2]; exact h.ini, h.shape, h.fld⟩
    · rw [e2]
      obtain ⟨a1, a2, κ', a3, a4⟩ := xs_acc e1
      refine h.snoc (e := ⟨g, .acc x w false, l⟩) rfl hg (fun hi => hi.elim a1 a2) (fun g' hg' => .inl (by rw [← k2]; exact hg')) hpc ?_
      rintro _ _ _ ho rfl
      cases ho
      rcases a4 with a4 | a4
      · cases κ' <;> cases a4
      · exact a4.2
  case come => cases hs; exact ⟨h.at_, h.ini, h.shape, h.fld⟩
  all_goals (split at hs <;> cases hs)
  case send g hc | fin g hc | recv g hc =>
    refine ⟨fun g' hp => ?_, h.ini, h.shape, h.fld⟩
    by_cases e : g' = g
    · rw [e]; exact hc.1
    · simp only [XsSt.to, setC_ne _ _ e] at hp; exact h.at_ g' hp
  case share g j hc =>
    refine h.snoc (e := ⟨g, .go j, 0⟩) rfl hc.1 (by simp [xsIni]) (fun g' hg' => ?_) (fun g' hp => .tail _ (h.at_ g' hp)) (by rintro _ _ _ ho; cases ho)
    rcases List.mem_cons.1 hg' with rfl | hg'
    · exact .inr rfl
    · exact .inl hg'
  case hand g k hc => exact h.snoc (e := ⟨g, .rel k, 0⟩) rfl hc.1 (by simp [xsIni]) (fun g' hg' => .inl hg') h.at_ (by rintro _ _ _ ho; cases ho)
  case take g k hc => exact h.snoc (e := ⟨g, .acq k, 0⟩) rfl hc.1 (by simp [xsIni]) (fun g' hg' => .inl hg') h.at_ (by rintro _ _ _ ho; cases ho)

/-! ## One call after the other -/

/-- Event `i`, by goroutine `g0`, belongs to call `m` of the sort: who has learnt of the call knows it. -/
def XsOf (k : Bool) (s : XsSt) (g0 i : Nat) : Prop :=
  ∃ m, (m ≤ s.n k ∨ (m = s.n k + 1 ∧ (s.pc g0).sort = some k)) ∧
    (∀ g, m ≤ s.seen k g → Knows s.tr g i) ∧ ∀ o, m ≤ s.handed k o → KnowsO s.tr o i

structure XsSer (k : Bool) (s : XsSt) : Prop where
  one : ∀ g g', (s.pc g).sort = some k → (s.pc g').sort = some k → g = g'
  cur : ∀ g, (s.pc g).sort = some k → s.seen k g = s.n k
  le : ∀ g, s.seen k g ≤ s.n k ∧ s.handed k g ≤ s.n k
  ev : ∀ (i : Nat) (e : XsEv) (w p : Bool), s.tr[i]? = some e → e.op = .acc (xsVar k) w p → ¬ xsIni e → XsOf k s e.g i
  free : RaceFree s.tr (xsVar k)

theorem XsSer.init (k : Bool) : XsSer k XsSt.init := by
  have hm : ∀ (i : Nat) (e : XsEv), XsSt.init.tr[i]? = some e → e.g = 0 ∧ xsIni e := by
    intro i e he
    have := List.mem_of_getElem? he
    simp only [XsSt.init] at this
    simp at this
    rcases this with rfl | rfl
    · exact ⟨rfl, .inl rfl⟩
    · exact ⟨rfl, .inr rfl⟩
  refine ⟨fun g g' h => (by cases h), fun g h => (by cases h), fun g => ⟨Nat.le_refl _, Nat.le_refl _⟩, fun i e _ _ he _ hi => absurd (hm i e he).2 hi, ?_⟩
  rintro i j ⟨hij, ⟨a, b, ha, hb, -⟩, hn⟩
  exact hn (.program hij ha hb ((hm i a ha).1.trans (hm j b hb).1.symm))

/-- No new access to the variable. -/
theorem XsSer.quiet {k : Bool} {s s' : XsSt} {l : List XsEv} (h : XsSer k s) (ht : s'.tr = s.tr ++ l) (hl : ∀ e ∈ l, ∀ w p, e.op ≠ .acc (xsVar k) w p)
    (h1 : l = [] ∨ ∃ e, l = [e])
    (one : ∀ g g', (s'.pc g).sort = some k → (s'.pc g').sort = some k → g = g')
    (cur : ∀ g, (s'.pc g).sort = some k → s'.seen k g = s'.n k)
    (le : ∀ g, s'.seen k g ≤ s'.n k ∧ s'.handed k g ≤ s'.n k)
    (of : ∀ i e, s.tr[i]? = some e → XsOf k s e.g i → XsOf k s' e.g i) : XsSer k s' := by
  refine ⟨one, cur, le, fun i e w p he ho hi => ?_, ?_⟩
  · rw [ht] at he
    rcases snocs he with he | he
    · exact of i e he (h.ev i e w p he ho hi)
    · exact absurd ho (hl e he w p)
  · rw [ht]
    rcases h1 with rfl | ⟨e, rfl⟩
    · rw [List.append_nil]; exact h.free
    · intro i j hr
      rcases new_race hr with hr | ⟨-, a, -, ⟨w, v, p, q, -, o2, -⟩, -⟩
      · exact h.free i j hr
      · exact hl e (.head _) _ _ o2

theorem XsOf.mono {k : Bool} {s s' : XsSt} {g0 i : Nat} (h : XsOf k s g0 i) {l : List XsEv} (ht : s'.tr = s.tr ++ l) (hn : s'.n = s.n)
    (hsn : s'.seen k = s.seen k) (hh : s'.handed k = s.handed k) (hp : (s.pc g0).sort = some k → (s'.pc g0).sort = some k) : XsOf k s' g0 i := by
  obtain ⟨m, h1, h2, h3⟩ := h
  refine ⟨m, ?_, ?_, ?_⟩
  · rw [hn]; exact h1.imp id (fun h => ⟨h.1, hp h.2⟩)
  · intro g hg; rw [ht]; rw [hsn] at hg; exact (h2 g hg).mono _
  · intro g hg; rw [ht]; rw [hh] at hg; exact (h3 g hg).mono _

/-- The calling goroutine knows all accesses to the variable. -/
theorem XsSer.knows {k : Bool} {s : XsSt} (b : XsBase s) (h : XsSer k s) {g : Nat} (hg : (s.pc g).sort = some k) {i : Nat} {e : XsEv} {w p : Bool}
    (he : s.tr[i]? = some e) (ho : e.op = .acc (xsVar k) w p) : Knows s.tr g i := by
  by_cases hi : xsIni e
  · exact b.ini i e he hi g (b.at_ g (by intro e; rw [e] at hg; cases hg))
  · obtain ⟨m, h1, h2, -⟩ := h.ev i e w p he ho hi
    rcases h1 with h1 | ⟨-, h1⟩
    · exact h2 g (by rw [h.cur g hg]; exact h1)
    · exact Knows.own' he (h.one _ _ h1 hg)

theorem XsSer.go {k : Bool} {s s' : XsSt} {g : Nat} {c : Bool} (b : XsBase s) (h : XsSer k s) (hs : xsStep s (.go g c) = some s') : XsSer k s' := by
  simp only [xsStep, Option.map_eq_some_iff] at hs
  obtain ⟨u, hu, rfl⟩ := hs
  obtain ⟨κ, p', k1, k2, k3, k4, k5⟩ := xs_next hu
  by_cases hk : κ = k
  case neg =>
    -- a call of the other sort
    have hl : ∀ e ∈ (s.pc g).evs g, ∀ w p, e.op ≠ .acc (xsVar k) w p := by
      intro e he w p ho
      rcases @xs_evs (s.pc g) g with e1 | ⟨x, w', l, e1, e2⟩
      · rw [e1] at he; cases he
      · rw [e2] at he
        obtain rfl := List.mem_singleton.1 he
        obtain ⟨-, -, κ', a3, a4⟩ := xs_acc e1
        rw [k1] at a3
        cases a3
        cases ho
        rcases a4 with a4 | ⟨a4, -⟩
        · cases κ <;> cases k <;> simp_all [xsVar]
        · cases k <;> cases a4
    have hpk : ∀ g', (u.pc g').sort = some k → g' ≠ g ∧ (s.pc g').sort = some k := by
      intro g' hp
      rw [k4] at hp
      by_cases e : g' = g
      · subst e
        rw [setC_self] at hp
        rcases k5 with ⟨k5, -⟩ | ⟨rfl, -⟩
        · rw [hp] at k5; cases k5; exact absurd rfl hk
        · cases hp
      · rw [setC_ne _ _ e] at hp; exact ⟨e, hp⟩
    have hn : u.n k = s.n k ∧ u.seen k = s.seen k := by
      rcases k5 with ⟨-, a, b⟩ | ⟨-, -, -, a⟩
      · rw [a, b]; exact ⟨rfl, rfl⟩
      · exact a k (Ne.symm hk)
    refine h.quiet (l := (s.pc g).evs g) rfl hl (xs_evs.imp id (fun ⟨_, _, _, _, e⟩ => ⟨_, e⟩)) (fun g1 g2 a1 a2 => h.one g1 g2 (hpk g1 a1).2 (hpk g2 a2).2)
      (fun g' a => ?_) (fun g' => ?_) (fun i e he ⟨m, m1, m2, m3⟩ => ⟨m, ?_, fun g' hg' => ?_, fun o ho => ?_⟩) <;> simp only [] at *
    · rw [hn.1, hn.2]; exact h.cur g' (hpk g' a).2
    · rw [hn.1, hn.2, k3]; exact h.le g'
    · rw [hn.1]
      refine m1.imp id (fun h => ⟨h.1, ?_⟩)
      rw [k4]
      by_cases e' : e.g = g
      · rw [e', k1] at h; cases h.2; exact absurd rfl hk
      · rw [setC_ne _ _ e']; exact h.2
    · rw [hn.2] at hg'; exact (m2 g' hg').mono _
    · rw [k3] at ho; exact (m3 o ho).mono _
  case pos =>
    subst hk
    have one : ∀ g', (s.pc g').sort = some κ → g' = g := fun g' hg' => h.one _ _ hg' k1
    have seen := h.cur g k1
    have hpk : ∀ g', (u.pc g').sort = some κ → g' = g := by
      intro g' hp
      rw [k4] at hp
      by_cases e : g' = g
      · exact e
      · rw [setC_ne _ _ e] at hp; exact one g' hp
    refine ⟨fun g1 g2 a1 a2 => (hpk g1 a1).trans (hpk g2 a2).symm, fun g' a => ?_, fun g' => ?_, ?_, ?_⟩ <;> simp only [] at *
    · have := hpk g' a
      subst this
      rcases k5 with ⟨-, e1, e2⟩ | ⟨rfl, -⟩
      · rw [e1, e2]; exact seen
      · rw [k4, setC_self] at a; cases a
    · rw [k3]
      have hle := h.le g'
      rcases k5 with ⟨-, e1, e2⟩ | ⟨-, e1, e2, -⟩
      · rw [e1, e2]; exact hle
      · rw [e1, e2]
        refine ⟨?_, by omega⟩
        unfold setC; split <;> omega
    · -- an access belongs to the call that goes on, or to one that has returned
      intro i e w p he ho hi
      have old : s.tr[i]? = some e ∨ e.g = g := by
        rcases snocs he with he | he
        · exact .inl he
        · rcases @xs_evs (s.pc g) g with e1 | ⟨_, _, _, -, e2⟩
          · rw [e1] at he; cases he
          · rw [e2] at he; rw [List.mem_singleton.1 he]; exact .inr rfl
      have key : e.g = g ∨ ∃ m, m ≤ s.n κ ∧ (∀ g, m ≤ s.seen κ g → Knows s.tr g i) ∧ ∀ o, m ≤ s.handed κ o → KnowsO s.tr o i := by
        rcases old with he' | he'
        · obtain ⟨m, m1, m2, m3⟩ := h.ev i e w p he' ho hi
          rcases m1 with m1 | ⟨-, m1⟩
          · exact .inr ⟨m, m1, m2, m3⟩
          · exact .inl (one _ m1)
        · exact .inl he'
      rcases key with hg | ⟨m, m1, m2, m3⟩
      · refine ⟨s.n κ + 1, ?_, fun g' hg' => ?_, fun o ho' => ?_⟩
        · rcases k5 with ⟨e0, e1, e2⟩ | ⟨-, e1, -⟩
          · right
            simp only []
            rw [e1, hg, k4, setC_self]
            exact ⟨rfl, e0⟩
          · left; simp only []; rw [e1]; exact Nat.le_refl _
        · simp only [] at hg' ⊢
          have hle := (h.le g').1
          rcases k5 with ⟨-, -, e2⟩ | ⟨-, -, e2, -⟩
          · rw [e2] at hg'; omega
          · rw [e2] at hg'
            by_cases e' : g' = g
            · rw [e']; exact Knows.own' he hg
            · rw [setC_ne _ _ e'] at hg'; omega
        · simp only [] at ho'
          rw [k3] at ho'
          have := (h.le o).2
          omega
      · refine ⟨m, .inl ?_, fun g' hg' => ?_, fun o ho' => ?_⟩
        · simp only []
          rcases k5 with ⟨-, e1, -⟩ | ⟨-, e1, -⟩
          · rw [e1]; exact m1
          · rw [e1]; omega
        · simp only [] at hg' ⊢
          refine (m2 g' ?_).mono _
          rcases k5 with ⟨-, -, e2⟩ | ⟨-, -, e2, -⟩
          · rw [e2] at hg'; exact hg'
          · rw [e2] at hg'
            by_cases e' : g' = g
            · rw [e', seen]; exact m1
            · rw [setC_ne _ _ e'] at hg'; exact hg'
        · simp only [] at ho' ⊢
          rw [k3] at ho'
          exact (m3 o ho').mono _
    · rcases @xs_evs (s.pc g) g with e1 | ⟨x, w, l, -, e2⟩
      · rw [e1, List.append_nil]; exact h.free
      · rw [e2]
        intro i j hr
        rcases new_race hr with hr | ⟨-, a, ha, ⟨w, v, p, q, o1, -, -⟩, hk⟩
        · exact h.free i j hr
        · exact hk (h.knows b k1 ha o1)

theorem XsSer.step {k : Bool} {s s' : XsSt} {a : XsAct} (b : XsBase s) (h : XsSer k s) (hs : xsStep s a = some s')
    (ha : ∀ g, xsBegins a = some (k, g) → (∀ g', (s.pc g').sort ≠ some k) ∧ s.seen k g = s.n k) : XsSer k s' := by
  have begin : ∀ (g : Nat) (p : XsPc) (κ : Bool), p.sort = some κ → xsBegins a = some (κ, g) → s.pc g = .idle → XsSer k (s.to g p) := by
    intro g p κ hp hb hid
    refine h.quiet (l := []) (by simp [XsSt.to]) (fun e he => (by cases he)) (.inl rfl) (fun g1 g2 a1 a2 => ?_) (fun g1 a1 => ?_) h.le ?_
    · simp only [XsSt.to, setC] at a1 a2
      by_cases hk : κ = k
      · subst hk
        obtain ⟨n1, -⟩ := ha g hb
        grind
      · have := h.one g1 g2
        grind
    · simp only [XsSt.to, setC] at a1 ⊢
      by_cases hk : κ = k
      · subst hk
        obtain ⟨n1, n2⟩ := ha g hb
        grind
      · have := h.cur g1
        grind
    · intro i e he ho
      refine ho.mono (l := []) (by simp [XsSt.to]) rfl rfl rfl (fun hq => ?_)
      simp only [XsSt.to]
      by_cases e' : e.g = g
      · rw [e', hid] at hq; cases hq
      · rw [setC_ne _ _ e']; exact hq
  cases a <;> simp only [xsStep] at hs
  case go g c => exact h.go b hs
  case come =>
    cases hs
    exact ⟨h.one, h.cur, h.le, h.ev, h.free⟩
  all_goals (split at hs <;> cases hs)
  case send g hc => exact begin g .s1 false rfl rfl hc.2
  case fin g hc => exact begin g .e1 false rfl rfl hc.2
  case recv g hc => exact begin g .r1 true rfl rfl hc.2
  case share g j hc =>
    have hj : s.pc j = .idle := by
      cases hq : s.pc j with
      | idle => rfl
      | _ => exact absurd (b.at_ j (by rw [hq]; simp)) hc.2.2
    refine h.quiet (l := [⟨g, .go j, 0⟩]) rfl (by rintro e he w p ho; cases List.mem_singleton.1 he; cases ho) (.inr ⟨_, rfl⟩) h.one (fun g' a => ?_) (fun g' => ?_)
      (fun i e he ⟨m, m1, m2, m3⟩ => ⟨m, m1, fun g' hg' => ?_, fun o ho => (m3 o ho).mono _⟩) <;> simp only [] at *
    · rw [setC_ne _ _ (by rintro rfl; rw [hj] at a; cases a)]; exact h.cur g' a
    · refine ⟨?_, (h.le g').2⟩
      have h1 := (h.le g').1
      have h2 := (h.le g).1
      unfold setC; split <;> omega
    · by_cases e' : g' = j
      · subst e'
        rw [setC_self] at hg'
        exact (m2 g hg').go (e := ⟨g, .go g', 0⟩) rfl
      · rw [setC_ne _ _ e'] at hg'; exact (m2 g' hg').mono _
  case hand g o hc =>
    refine h.quiet (l := [⟨g, .rel o, 0⟩]) rfl (by rintro e he w p ho; cases List.mem_singleton.1 he; cases ho) (.inr ⟨_, rfl⟩) h.one h.cur (fun g' => ?_)
      (fun i e he ⟨m, m1, m2, m3⟩ => ⟨m, m1, fun g' hg' => (m2 g' hg').mono _, fun o' ho => ?_⟩) <;> simp only [] at *
    · refine ⟨(h.le g').1, ?_⟩
      have h1 := (h.le g').2
      have h2 := (h.le g).1
      have h3 := (h.le o).2
      unfold setC; split <;> omega
    · by_cases e' : o' = o
      · subst e'
        rw [setC_self] at ho
        by_cases hm : m ≤ s.handed k o'
        · exact (m3 o' hm).mono _
        · exact (m2 g (by omega)).rel (e := ⟨g, .rel o', 0⟩) rfl
      · rw [setC_ne _ _ e'] at ho; exact (m3 o' ho).mono _
  case take g o hc =>
    refine h.quiet (l := [⟨g, .acq o, 0⟩]) rfl (by rintro e he w p ho; cases List.mem_singleton.1 he; cases ho) (.inr ⟨_, rfl⟩) h.one (fun g' a => ?_) (fun g' => ?_)
      (fun i e he ⟨m, m1, m2, m3⟩ => ⟨m, m1, fun g' hg' => ?_, fun o ho => (m3 o ho).mono _⟩) <;> simp only [] at *
    · rw [setC_ne _ _ (by rintro rfl; rw [hc.2] at a; cases a)]; exact h.cur g' a
    · refine ⟨?_, (h.le g').2⟩
      have h1 := (h.le g').1
      have h2 := (h.le g).1
      have h3 := (h.le o).2
      unfold setC; split <;> omega
    · by_cases e' : g' = g
      · subst e'
        rw [setC_self] at hg'
        by_cases hm : m ≤ s.seen k g'
        · exact (m2 g' hm).mono _
        · exact (m3 o (by omega)).acq (e := ⟨g', .acq o, 0⟩) rfl
      · rw [setC_ne _ _ e'] at hg'; exact (m2 g' hg').mono _

/-! ## The frames received -/

/-- Whoever receives: no frame of the stream twice. -/
structure XsFr (s : XsSt) : Prop where
  nodup : (s.out.filter (· ≠ 0)).Nodup
  le : ∀ f ∈ s.out, f ≤ s.taken
  has : ∀ g f, s.pc g = .r5 f → f ≤ s.taken ∧ (f ≠ 0 → f ∉ s.out ∧ ∀ g', s.pc g' = .r5 f → g' = g)
  came : s.taken ≤ s.came

theorem XsFr.step {s s' : XsSt} {a : XsAct} (h : XsFr s) (hs : xsStep s a = some s') : XsFr s' := by
  obtain ⟨h1, h2, h3, h4⟩ := h
  have begin : ∀ (g : Nat) (p : XsPc), (∀ f, p ≠ .r5 f) → XsFr (s.to g p) := by
    intro g p hp
    refine ⟨h1, h2, fun g' f hf => ?_, h4⟩
    simp only [XsSt.to, setC] at hf ⊢
    grind
  cases a <;> simp only [xsStep] at hs
  case go g c =>
    simp only [Option.map_eq_some_iff] at hs
    obtain ⟨u, hu, rfl⟩ := hs
    suffices XsFr u from ⟨this.1, this.2, this.3, this.4⟩
    cases hp : s.pc g <;> rw [hp] at hu <;> simp only [XsSt.next, reduceCtorEq] at hu
    case r3 =>
      split at hu
      · split at hu
        · next hlt =>
          cases hu
          refine ⟨h1, fun f hf => Nat.le_succ_of_le (h2 f hf), fun g' f hf => ?_, hlt⟩
          simp only [XsSt.to, setC] at hf ⊢
          grind
        · cases hu
      · cases hu
        refine ⟨h1, h2, fun g' f hf => ?_, h4⟩
        simp only [XsSt.ret, XsSt.to, setC] at hf ⊢
        grind
    case r4 =>
      cases hu
      refine ⟨h1, h2, fun g' f hf => ?_, h4⟩
      simp only [XsSt.to, setC] at hf ⊢
      grind
    case r5 f =>
      cases hu
      obtain ⟨k1, k2⟩ := h3 g f hp
      refine ⟨?_, ?_, fun g' f' hf => ?_, h4⟩
      · simp only []
        rw [List.filter_append]
        by_cases hf : f = 0
        · subst hf; simpa using h1
        · have := (k2 hf).1
          simp only [ne_eq, hf, not_false_eq_true, decide_true, List.filter_cons_of_pos, List.filter_nil]
          refine List.nodup_append.2 ⟨h1, by simp, ?_⟩
          grind
      · intro f' hf'
        simp only [XsSt.ret, XsSt.to] at hf' ⊢
        rcases List.mem_append.1 hf' with hf' | hf'
        · exact h2 f' hf'
        · rw [List.mem_singleton.1 hf']; exact k1
      · simp only [XsSt.ret, XsSt.to, setC] at hf ⊢
        grind
    case s4 | e2 =>
      cases hu
      refine ⟨h1, h2, fun g' f hf => ?_, h4⟩
      simp only [XsSt.ret, XsSt.to, setC] at hf ⊢
      grind
    case r2 => cases hu; exact begin g _ (by intro f; split <;> simp)
    all_goals (cases hu; exact begin g _ (by simp))
  case come => cases hs; exact ⟨h1, h2, h3, Nat.le_succ_of_le h4⟩
  all_goals (split at hs <;> cases hs)
  case send g hc | fin g hc | recv g hc => exact begin g _ (by simp)
  all_goals exact ⟨h1, h2, h3, h4⟩

/-- One Receive after the other: the request's frame and those of the stream, in order. -/
structure XsOrd (s : XsSt) : Prop where
  fresh : s.got1 = false → s.out = [] ∧ s.taken = 0 ∧ ∀ g, s.pc g ≠ .r3 ∧ ∀ f, s.pc g ≠ .r5 f
  has : s.got1 = true → ∀ g, s.pc g ≠ .r4 ∧ ∀ f, s.pc g = .r5 f → f = s.taken ∧ s.out = List.range s.taken
  none : s.got1 = true → (∀ g f, s.pc g ≠ .r5 f) → s.out = List.range (s.taken + 1)

theorem XsOrd.step {s s' : XsSt} {a : XsAct} (one : ∀ g g', (s.pc g).sort = some true → (s.pc g').sort = some true → g = g') (h : XsOrd s)
    (hs : xsStep s a = some s') : XsOrd s' := by
  obtain ⟨h1, h2, h3⟩ := h
  have begin : ∀ (g : Nat) (p : XsPc), (∀ f, s.pc g ≠ .r5 f) → (∀ f, p ≠ .r5 f) → (p = .r3 → s.got1 = true) → (p = .r4 → s.got1 = false) → XsOrd (s.to g p) := by
    intro g p hg hp hp3 hp4
    refine ⟨fun hf => ?_, fun hf g' => ?_, fun hf hn => ?_⟩ <;> simp only [XsSt.to, setC] at *
    · obtain ⟨a1, a2, a3⟩ := h1 hf
      refine ⟨a1, a2, fun g' => ?_⟩
      have := a3 g'
      grind
    · have := h2 hf g'
      grind
    · refine h3 hf (fun g' f => ?_)
      have := hn g' f
      grind
  cases a <;> simp only [xsStep] at hs
  case go g c =>
    simp only [Option.map_eq_some_iff] at hs
    obtain ⟨u, hu, rfl⟩ := hs
    suffices XsOrd u from ⟨this.1, this.2, this.3⟩
    cases hp : s.pc g <;> rw [hp] at hu <;> simp only [XsSt.next, reduceCtorEq] at hu
    case r3 =>
      have hgot : s.got1 = true := by
        cases hq : s.got1 with
        | true => rfl
        | false => exact absurd hp ((h1 hq).2.2 g).1
      have no5 : ∀ g' f, s.pc g' ≠ .r5 f := by
        intro g' f hf
        have := one g' g (by rw [hf]; rfl) (by rw [hp]; rfl)
        rw [this, hp] at hf; cases hf
      have no4 : ∀ g', s.pc g' ≠ .r4 := fun g' => (h2 hgot g').1
      have ho := h3 hgot no5
      split at hu
      · split at hu
        · cases hu
          refine ⟨fun hf => ?_, fun hf g' => ?_, fun hf hn => ?_⟩ <;> simp only [XsSt.to] at *
          · rw [hgot] at hf; cases hf
          · by_cases e : g' = g
            · subst e
              rw [setC_self]
              exact ⟨by simp, fun f hf => by cases hf; exact ⟨rfl, ho⟩⟩
            · rw [setC_ne _ _ e]
              exact ⟨no4 g', fun f hf => absurd hf (no5 g' f)⟩
          · exact absurd (setC_self _ _ _) (hn g _)
        · cases hu
      · cases hu
        refine ⟨fun hf => ?_, fun hf g' => ?_, fun hf hn => ho⟩ <;> simp only [XsSt.ret, XsSt.to] at *
        · rw [hgot] at hf; cases hf
        · by_cases e : g' = g
          · subst e
            rw [setC_self]
            exact ⟨by simp, fun f hf => by cases hf⟩
          · rw [setC_ne _ _ e]
            exact ⟨no4 g', fun f hf => absurd hf (no5 g' f)⟩
    case r4 =>
      cases hu
      have hgot : s.got1 = false := by
        cases hq : s.got1 with
        | false => rfl
        | true => exact absurd hp (h2 hq g).1
      obtain ⟨a1, a2, a3⟩ := h1 hgot
      have no4 : ∀ g', s.pc g' = .r4 → g' = g := fun g' hf => one g' g (by rw [hf]; rfl) (by rw [hp]; rfl)
      refine ⟨fun hf => (by cases hf), fun _ g' => ?_, fun _ hn => ?_⟩ <;> simp only [XsSt.to] at *
      · by_cases e : g' = g
        · subst e
          rw [setC_self]
          exact ⟨by simp, fun f hf => by cases hf; rw [a1, a2]; exact ⟨rfl, rfl⟩⟩
        · rw [setC_ne _ _ e]
          exact ⟨fun hf => e (no4 g' hf), fun f hf => absurd hf ((a3 g').2 f)⟩
      · exact absurd (setC_self _ _ _) (hn g _)
    case r5 f =>
      cases hu
      have hgot : s.got1 = true := by
        cases hq : s.got1 with
        | true => rfl
        | false => exact absurd hp (((h1 hq).2.2 g).2 f)
      obtain ⟨rfl, a2⟩ := (h2 hgot g).2 f hp
      have no5 : ∀ g' f, s.pc g' = .r5 f → g' = g := fun g' f hf => one g' g (by rw [hf]; rfl) (by rw [hp]; rfl)
      refine ⟨fun hf => ?_, fun hf g' => ?_, fun hf hn => ?_⟩ <;> simp only [XsSt.ret, XsSt.to] at *
      · rw [hgot] at hf; cases hf
      · by_cases e : g' = g
        · subst e
          rw [setC_self]
          exact ⟨by simp, fun f hf => by cases hf⟩
        · rw [setC_ne _ _ e]
          exact ⟨(h2 hgot g').1, fun f hf => absurd (no5 g' f hf) e⟩
      · rw [a2, List.range_succ]
    case s4 | e2 =>
      cases hu
      have := begin g .idle (by rw [hp]; simp) (by simp) (by simp) (by simp)
      exact ⟨this.1, this.2, this.3⟩
    case r2 =>
      cases hu
      refine begin g _ (by rw [hp]; simp) (by intro f; split <;> simp) ?_ ?_
      · intro h; split at h
        · assumption
        · cases h
      · intro h; split at h
        · cases h
        · next h' => simpa using h'
    all_goals (cases hu; exact begin g _ (by rw [hp]; simp) (by simp) (by simp) (by simp))
  case come => cases hs; exact ⟨h1, h2, h3⟩
  all_goals (split at hs <;> cases hs)
  case send g hc | fin g hc | recv g hc => exact begin g _ (by rw [hc.2]; simp) (by simp) (by simp) (by simp)
  all_goals exact ⟨h1, h2, h3⟩

theorem xs_serial {k : Bool} {acts : List XsAct} {s : XsSt} (h : xsRun acts = some s) (hser : XsSerial k acts) {P : XsSt → Prop} (h0 : P XsSt.init)
    (hP : ∀ u a v, XsSer k u → P u → xsStep u a = some v → P v) : XsBase s ∧ XsSer k s ∧ P s := by
  have gen : ∀ (acts : List XsAct) (u v : XsSt), runActs xsStep u acts = some v →
      (∀ pre a post w g, acts = pre ++ a :: post → runActs xsStep u pre = some w → xsBegins a = some (k, g) →
        (∀ g', (w.pc g').sort ≠ some k) ∧ w.seen k g = w.n k) →
      XsBase u → XsSer k u → P u → XsBase v ∧ XsSer k v ∧ P v := by
    intro acts
    induction acts with
    | nil => intro u v hr _ h1 h2 h3; simp only [runActs, Option.some.injEq] at hr; subst hr; exact ⟨h1, h2, h3⟩
    | cons act acts ih =>
      intro u v hr hse h1 h2 h3
      simp only [runActs] at hr
      cases hw : xsStep u act with
      | none => rw [hw] at hr; cases hr
      | some w =>
        rw [hw] at hr
        refine ih w v hr (fun pre a post w' g he hp hb => hse (act :: pre) a post w' g (by rw [he]; rfl) (by simp only [runActs, hw]; exact hp) hb) (h1.step hw)
          (h2.step h1 hw (fun g hb => hse [] act acts u g rfl rfl hb)) (hP u act w h2 h3 hw)
  exact gen acts _ _ h hser .init (.init k) h0

/-! ## Who makes calls one after the other -/

/-- Only `a` makes calls of the sort. -/
structure XsSolo (k : Bool) (a : Nat) (u : XsSt) : Prop where
  only : ∀ g, (u.pc g).sort = some k → g = a
  seen : a ∈ u.us → u.seen k a = u.n k
  zero : a ∉ u.us → u.n k = 0
  le : ∀ g, u.seen k g ≤ u.n k ∧ u.handed k g ≤ u.n k

theorem XsSolo.step {k : Bool} {a : Nat} {u w : XsSt} {act : XsAct} (b : XsBase u) (h : XsSolo k a u) (hact : ∀ g, xsBegins act = some (k, g) → g = a)
    (hw : xsStep u act = some w) : XsSolo k a w := by
  obtain ⟨h1, h2, h3, h4⟩ := h
  have begin : ∀ (g1 : Nat) (p : XsPc) (κ : Bool), p.sort = some κ → xsBegins act = some (κ, g1) →
      (∀ g', ((u.to g1 p).pc g').sort = some k → g' = a) := by
    intro g1 p κ hp hb g' hs
    simp only [XsSt.to, setC] at hs
    have := h1 g'
    have := hact g'
    grind
  cases act <;> simp only [xsStep] at hw
  case go g1 c =>
    simp only [Option.map_eq_some_iff] at hw
    obtain ⟨x, hx, rfl⟩ := hw
    obtain ⟨κ, p', k1, k2, k3, k4, k5⟩ := xs_next hx
    have hg1 : κ = k → g1 = a := fun e => h1 g1 (by rw [k1, e])
    have hus : g1 ∈ u.us := b.at_ g1 (by intro e; rw [e] at k1; cases k1)
    refine ⟨fun g' hs => ?_, fun hm => ?_, fun hm => ?_, fun g' => ?_⟩ <;> simp only [] at *
    · rw [k4] at hs
      by_cases e : g' = g1
      · subst e
        rw [setC_self] at hs
        rcases k5 with ⟨k5, -⟩ | ⟨rfl, -⟩
        · rw [hs] at k5; cases k5; exact hg1 rfl
        · cases hs
      · rw [setC_ne _ _ e] at hs; exact h1 g' hs
    · rw [k2] at hm
      rcases k5 with ⟨-, e1, e2⟩ | ⟨-, e1, e2, e3⟩
      · rw [e1, e2]; exact h2 hm
      · by_cases hk : κ = k
        · have := hg1 hk
          subst hk this
          rw [e1, e2, setC_self]
        · rw [(e3 k (Ne.symm hk)).1, (e3 k (Ne.symm hk)).2]; exact h2 hm
    · rw [k2] at hm
      rcases k5 with ⟨-, e1, e2⟩ | ⟨-, e1, e2, e3⟩
      · rw [e1]; exact h3 hm
      · by_cases hk : κ = k
        · rw [hg1 hk] at hus; exact absurd hus hm
        · rw [(e3 k (Ne.symm hk)).1]; exact h3 hm
    · have hle := h4 g'
      rw [k3]
      rcases k5 with ⟨-, e1, e2⟩ | ⟨-, e1, e2, e3⟩
      · rw [e1, e2]; exact hle
      · by_cases hk : κ = k
        · subst hk
          rw [e1, e2]
          refine ⟨?_, by omega⟩
          unfold setC; split <;> omega
        · rw [(e3 k (Ne.symm hk)).1, (e3 k (Ne.symm hk)).2]; exact hle
  case come => cases hw; exact ⟨h1, h2, h3, h4⟩
  all_goals (split at hw <;> cases hw)
  case send g1 hc => exact ⟨begin g1 .s1 false rfl rfl, h2, h3, h4⟩
  case fin g1 hc => exact ⟨begin g1 .e1 false rfl rfl, h2, h3, h4⟩
  case recv g1 hc => exact ⟨begin g1 .r1 true rfl rfl, h2, h3, h4⟩
  case share g1 j hc =>
    refine ⟨h1, fun hm => ?_, fun hm => h3 (fun hm' => hm (.tail _ hm')), fun g' => ⟨?_, (h4 g').2⟩⟩ <;> simp only []
    · have a2 := (h4 g1).1
      by_cases e : a = j
      · subst e
        have := h3 hc.2.2
        rw [setC_self]; omega
      · rw [setC_ne _ _ e]
        exact h2 ((List.mem_cons.1 hm).resolve_left e)
    · have a1 := (h4 g').1
      have a2 := (h4 g1).1
      unfold setC; split <;> omega
  case hand g1 o hc =>
    refine ⟨h1, h2, h3, fun g' => ⟨(h4 g').1, ?_⟩⟩
    simp only []
    have a1 := (h4 g').2
    have a2 := (h4 g1).1
    have a3 := (h4 o).2
    unfold setC; split <;> omega
  case take g1 o hc =>
    have a3 := (h4 o).2
    refine ⟨h1, fun hm => ?_, h3, fun g' => ⟨?_, (h4 g').2⟩⟩ <;> simp only []
    · have := h2 hm
      unfold setC; split
      · next e => subst e; omega
      · exact this
    · have a1 := (h4 g').1
      have a2 := (h4 g1).1
      unfold setC; split <;> omega

/-- One goroutine that makes all the calls of a sort makes them one after the other. -/
theorem xs_one_serial {k : Bool} {a : Nat} {acts : List XsAct} {s : XsSt} (h : xsRun acts = some s)
    (hone : ∀ act ∈ acts, ∀ g, xsBegins act = some (k, g) → g = a) : XsSerial k acts := by
  intro pre act post u g he hu hb
  have hg : g = a := hone act (by rw [he]; simp) g hb
  subst hg
  have inv : ∀ (acts : List XsAct) (u v : XsSt), (∀ act ∈ acts, ∀ g', xsBegins act = some (k, g') → g' = g) → runActs xsStep u acts = some v →
      XsBase u → XsSolo k g u → XsSolo k g v := by
    intro acts
    induction acts with
    | nil => intro u v _ hr _ h; simp only [runActs, Option.some.injEq] at hr; subst hr; exact h
    | cons act acts ih =>
      intro u v ho hr b h
      simp only [runActs] at hr
      cases hw : xsStep u act with
      | none => rw [hw] at hr; cases hr
      | some w =>
        rw [hw] at hr
        exact ih w v (fun act' hm => ho act' (.tail _ hm)) hr (b.step hw) (h.step b (ho act (.head _)) hw)
  have hsolo := inv pre _ u (fun act' hm => hone act' (by rw [he]; simp [hm])) hu .init
    ⟨fun g h => (by cases h), fun _ => rfl, fun _ => rfl, fun _ => ⟨Nat.le_refl _, Nat.le_refl _⟩⟩
  have hstep : g ∈ u.us ∧ u.pc g = .idle := by
    by_cases hc : g ∈ u.us ∧ u.pc g = .idle
    · exact hc
    · exfalso
      unfold xsRun at h hu
      rw [he, runActs_append, hu] at h
      simp only [Option.bind_some, runActs] at h
      cases act <;> simp only [xsBegins, Option.some.injEq, Prod.mk.injEq, reduceCtorEq] at hb
      all_goals
        obtain ⟨-, rfl⟩ := hb
        simp only [xsStep, if_neg hc, reduceCtorEq] at h
  exact ⟨fun g' hs => (by rw [hsolo.only g' hs, hstep.2] at hs; cases hs), hsolo.seen hstep.1⟩

/-- To be computed. -/
def xsSerialB (k : Bool) (acts : List XsAct) : Bool :=
  (List.range acts.length).all fun i => match acts[i]?, xsRun (acts.take i) with
    | some a, some u => (match xsBegins a with
      | some (k', g) => k' != k || (u.us.all (fun g' => (u.pc g').sort != some k) && u.seen k g == u.n k)
      | none => true)
    | _, _ => true

theorem xs_serial_of {k : Bool} {acts : List XsAct} (h : xsSerialB k acts = true) : XsSerial k acts := by
  intro pre a post u g he hu hb
  have hi := List.all_eq_true.1 h pre.length (by simp [he])
  simp only [he, List.take_left, hu] at hi
  simp only [Nat.le_refl, List.getElem?_append_right, Nat.sub_self, List.getElem?_cons_zero, hb] at hi
  simp only [Bool.or_eq_true, bne_self_eq_false, Bool.false_eq_true, false_or, Bool.and_eq_true, List.all_eq_true, beq_iff_eq, bne_iff_ne] at hi
  refine ⟨fun g' hs => ?_, hi.2⟩
  have b := runActs_inv (P := XsBase) (fun _ _ _ h hs => h.step hs) .init hu
  exact hi.1 g' (b.at_ g' (by intro e; rw [e] at hs; cases hs)) hs

/-! ## The theorems -/

/-- **C138, the writer.** If the calls of Send and End are made one after the other (by one goroutine, or by several that take turns by means of a mutex or
the like), the sender and its writer are used without races, whatever calls of Receive go on at the same time. -/
theorem C138_send_partial {acts : List XsAct} {s : XsSt} (h : xsRun acts = some s) (hser : XsSerial false acts) :
    RaceFree s.tr .buf ∧ RaceFree s.tr .fld := by
  obtain ⟨h1, h2, -⟩ := xs_serial h hser (P := fun _ => True) trivial (fun _ _ _ _ _ _ => trivial)
  exact ⟨h2.free, h1.fld⟩

/-- **C138, the receiver.** If the calls of Receive are made one after the other, the receiver is used without races, whatever is sent at the same time, and
they return the request's frame and then those of the stream, each once and in order (calls that end with their context lose nothing). -/
theorem C138_receive_partial {acts : List XsAct} {s : XsSt} (h : xsRun acts = some s) (hser : XsSerial true acts) :
    RaceFree s.tr .flag ∧ RaceFree s.tr .fld ∧ s.out = List.range s.out.length := by
  have h0 : XsOrd XsSt.init := ⟨fun _ => ⟨rfl, rfl, fun g => ⟨by simp [XsSt.init], fun f => by simp [XsSt.init]⟩⟩, fun hf => (by cases hf), fun hf => (by cases hf)⟩
  obtain ⟨h1, h2, h3⟩ := xs_serial h hser (P := XsOrd) h0 (fun _ _ _ hs hp hv => hp.step hs.one hv)
  refine ⟨h2.free, h1.fld, ?_⟩
  cases hg : s.got1 with
  | false => rw [(h3.fresh hg).1]; rfl
  | true =>
    by_cases hn : ∀ g f, s.pc g ≠ .r5 f
    · rw [h3.none hg hn, List.length_range]
    · simp only [Classical.not_forall, Classical.not_not] at hn
      obtain ⟨g, f, hf⟩ := hn
      rw [((h3.has hg g).2 f hf).2, List.length_range]

/-- Whoever receives, no frame of the stream is returned twice, and the fields set by ServeQRPC are used without races. -/
theorem C138_frames {acts : List XsAct} {s : XsSt} (h : xsRun acts = some s) : (s.out.filter (· ≠ 0)).Nodup ∧ (∀ f ∈ s.out, f ≤ s.came) ∧ RaceFree s.tr .fld := by
  have hf := runActs_inv (P := XsFr) (fun _ _ _ h hs => h.step hs) ⟨by simp [XsSt.init], by simp [XsSt.init], by simp [XsSt.init], Nat.le_refl _⟩ h
  exact ⟨hf.nodup, fun f hm => Nat.le_trans (hf.le f hm) hf.came, (runActs_inv (P := XsBase) (fun _ _ _ h hs => h.step hs) .init h).fld⟩

/-- One goroutine that sends and ends, another that receives: no races at all, and every message once and in order. -/
theorem C138_two {a b : Nat} {acts : List XsAct} {s : XsSt} (h : xsRun acts = some s) (hs : ∀ g, .send g ∈ acts ∨ .fin g ∈ acts → g = a)
    (hr : ∀ g, .recv g ∈ acts → g = b) : (∀ x, RaceFree s.tr x) ∧ s.out = List.range s.out.length := by
  have h1 : XsSerial false acts := xs_one_serial (a := a) h (fun act hm g hb => by
    cases act <;> simp only [xsBegins, Option.some.injEq, Prod.mk.injEq, reduceCtorEq, false_and] at hb
    all_goals obtain ⟨-, rfl⟩ := hb
    · exact hs _ (.inl hm)
    · exact hs _ (.inr hm))
  have h2 : XsSerial true acts := xs_one_serial (a := b) h (fun act hm g hb => by
    cases act <;> simp only [xsBegins, Option.some.injEq, Prod.mk.injEq, reduceCtorEq, false_and, true_and] at hb
    subst hb
    exact hr _ hm)
  obtain ⟨a1, a2⟩ := C138_send_partial h h1
  obtain ⟨b1, -, b3⟩ := C138_receive_partial h h2
  exact ⟨fun x => by cases x <;> assumption, b3⟩

theorem xs_race_of {acts : List XsAct} {x : XsX} {i j : Nat} {S : List Nat}
    (h : (match xsRun acts with
      | some s => closedSet s.tr i S && !S.contains j && decide (i < j) && (match s.tr[i]?, s.tr[j]? with
          | some a, some b => (match a.op, b.op with
            | .acc y w p, .acc z v q => y == x && z == x && (w || v) && !(p && q)
            | _, _ => false)
          | _, _ => false)
      | none => false) = true) : ∃ s, xsRun acts = some s ∧ Race s.tr x i j := by
  cases hr : xsRun acts with
  | none => rw [hr] at h; cases h
  | some s =>
    rw [hr] at h
    simp only [Bool.and_eq_true, decide_eq_true_eq, Bool.not_eq_true'] at h
    obtain ⟨⟨⟨h1, h2⟩, h3⟩, h4⟩ := h
    refine ⟨s, rfl, h3, ?_, not_HB_of_closed _ h1 (by simpa using h2)⟩
    split at h4
    · next a b ha hb =>
      split at h4
      · next y w p z v q oa ob =>
        simp only [Bool.and_eq_true, beq_iff_eq, Bool.or_eq_true, Bool.not_eq_true'] at h4
        obtain ⟨⟨⟨rfl, rfl⟩, h5⟩, h6⟩ := h4
        exact ⟨a, b, ha, hb, w, v, p, q, oa, ob, h5, by rintro ⟨rfl, rfl⟩; cases h6⟩
      · cases h4
    · cases h4

/-- **C138 fails with two goroutines that send**: both write into the one writer (59). -/
theorem C138_refuted_send : ∃ s, xsRun [.share 0 1, .send 0, .send 1, .go 0 true, .go 1 true, .go 0 true, .go 1 true] = some s ∧ Race s.tr .buf 5 6 :=
  xs_race_of (S := []) (by decide +kernel)

/-- And with one that sends and one that ends the channel (66), unlike the client's, whose `End` anybody may call at any moment as to `closed`. -/
theorem C138_refuted_end : ∃ s, xsRun [.share 0 1, .send 0, .fin 1, .go 0 true, .go 1 true, .go 0 true, .go 1 true] = some s ∧ Race s.tr .buf 5 6 :=
  xs_race_of (S := []) (by decide +kernel)

/-- **C138 fails with two goroutines that receive**: both find that the first frame has not been received (73), race on the flag (85), and both return the
request's frame. -/
theorem C138_refuted_receive : ∃ s, xsRun [.share 0 1, .recv 0, .recv 1, .go 0 true, .go 1 true, .go 0 true, .go 1 true, .go 0 true, .go 1 true,
    .go 0 true, .go 1 true] = some s ∧ Race s.tr .flag 7 8 ∧ s.out = [0, 0] := by
  obtain ⟨s, hr, h⟩ := xs_race_of (acts := [.share 0 1, .recv 0, .recv 1, .go 0 true, .go 1 true, .go 0 true, .go 1 true, .go 0 true, .go 1 true,
    .go 0 true, .go 1 true]) (x := .flag) (i := 7) (j := 8) (S := []) (by decide +kernel)
  refine ⟨s, hr, h, ?_⟩
  have : (xsRun [.share 0 1, .recv 0, .recv 1, .go 0 true, .go 1 true, .go 0 true, .go 1 true, .go 0 true, .go 1 true,
    .go 0 true, .go 1 true]).map (·.out) = some [0, 0] := by decide +kernel
  rw [hr] at this
  exact Option.some.inj this

/-- The hypotheses: 0 and 1 take turns to send (they hand over at 7), and to receive three frames (at 8), while 2 does nothing; the second is received
at the second attempt. -/
def exTurns : List XsAct := [.share 0 1, .share 0 2, .send 0, .go 0 true, .go 0 true, .go 0 true, .go 0 true, .hand 0 7, .recv 0, .take 1 7, .send 1,
  .go 1 true, .go 0 true, .go 1 true, .go 0 true, .come, .go 0 true, .go 0 true, .hand 0 8, .go 1 true, .go 1 true, .fin 1, .go 1 true, .go 1 true, .take 1 8,
  .recv 1, .go 1 true, .go 1 true, .go 1 false, .recv 1, .go 1 true, .go 1 true, .go 1 true, .come, .go 1 true, .hand 1 8, .take 0 8,
  .recv 0, .go 0 true, .go 0 true, .go 0 true, .go 0 true]

example : XsSerial false exTurns ∧ XsSerial true exTurns := ⟨xs_serial_of (by decide +kernel), xs_serial_of (by decide +kernel)⟩
example : (xsRun exTurns).map (fun s => (s.out, s.n false, s.n true, s.tr.length)) = some ([0, 1, 2], 3, 4, 32) := by decide +kernel

/-- One sends while the other receives. -/
example : (xsRun [.share 0 1, .come, .send 0, .recv 1, .go 0 true, .go 1 true, .go 0 true, .go 1 true, .go 1 true, .go 0 true, .go 1 true, .go 0 true, .fin 0,
    .recv 1, .go 1 true, .go 1 true, .go 0 true, .go 1 true, .go 0 true, .go 1 true]).map (fun s => (s.out, s.n false, s.n true)) = some ([0, 1], 2, 2) := by
  decide +kernel

end Qrpc
