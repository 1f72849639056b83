import Verif.Model.ChannelMem
import Verif.Lemmas.Mem
/-!
# C136 A channel's Sender and Receiver are used without data races
-/
namespace Qrpc
open Spec

/-! ## Control -/

/-- With the lock for reading; for writing; opening the stream; receiving. -/
def XmPc.sh : XmPc → Bool
  | .s1 | .s2 | .sreq | .s3 _ | .s4 _ | .sbuf | .sout => true
  | _ => false
def XmPc.ex : XmPc → Bool
  | .e1 | .e2 | .e3 | .ebuf | .eout => true
  | _ => false
def XmPc.opening : XmPc → Bool
  | .sreq | .s3 _ | .s4 _ => true
  | _ => false
def XmPc.rc : XmPc → Bool
  | .r1 | .r2 | .rget | .r3 _ | .r4 => true
  | _ => false

theorem setC_self {α : Type} (f : Nat → α) (g : Nat) (x : α) : setC f g x g = x := by simp [setC]
theorem setC_ne {α : Type} (f : Nat → α) {g g' : Nat} (x : α) (h : g' ≠ g) : setC f g x g' = f g' := by simp [setC, h]

structure XmCtl (s : XmSt) : Prop where
  at_ : ∀ g, (s.pc g ≠ .idle → g ∈ s.us) ∧ ((s.pc g).sh = true ↔ g ∈ s.rd) ∧ ((s.pc g).ex = true ↔ s.wr = some g)
  excl : s.wr ≠ none → s.rd = []

theorem XmCtl.step {s s' : XmSt} {a : XmAct} (h : XmCtl s) (hs : xmStep s a = some s') : XmCtl s' := by
  obtain ⟨h1, h4⟩ := h
  cases a <;> simp only [xmStep] at hs <;> split at hs <;> cases hs
  case go g b hp =>
    have hu := h1 g
    refine ⟨fun g' => ?_, ?_⟩
    · have j1 := h1 g'
      by_cases e : g' = g
      · subst e
        cases hq : s.pc g' <;> simp only [XmSt.next, XmSt.emit, XmSt.to, setC_self]
        all_goals grind [XmPc.sh, XmPc.ex]
      · cases hq : s.pc g <;> simp only [XmSt.next, XmSt.emit, XmSt.to, setC_ne _ _ e]
        all_goals grind [XmPc.sh, XmPc.ex]
    · cases hq : s.pc g <;> simp only [XmSt.next, XmSt.emit, XmSt.to]
      all_goals grind [XmPc.sh, XmPc.ex]
  case send g hc =>
    refine ⟨fun g' => ?_, by simp [hc.2.2, XmSt.emit, XmSt.to]⟩
    have j1 := h1 g'
    by_cases e : g' = g <;> simp only [XmSt.emit, XmSt.to, setC, e, if_true, if_false]
    all_goals grind [XmPc.sh, XmPc.ex]
  case fin g hc =>
    refine ⟨fun g' => ?_, by simp [hc, XmSt.emit, XmSt.to]⟩
    have j1 := h1 g'
    by_cases e : g' = g <;> simp only [XmSt.emit, XmSt.to, setC, e, if_true, if_false]
    all_goals grind [XmPc.sh, XmPc.ex]
  case recv g hc =>
    refine ⟨fun g' => ?_, h4⟩
    have j1 := h1 g'
    by_cases e : g' = g <;> simp only [XmSt.to, setC, e, if_true, if_false]
    all_goals grind [XmPc.sh, XmPc.ex]
  case share g j hc =>
    refine ⟨fun g' => ?_, h4⟩
    have j1 := h1 g'
    exact ⟨fun h => .tail _ (j1.1 h), j1.2⟩
  all_goals exact ⟨h1, h4⟩

theorem XmCtl.init : XmCtl XmSt.init := by
  constructor
  · intro g; simp [XmSt.init, XmPc.sh, XmPc.ex]
  · simp [XmSt.init]

/-! ## What is known -/

def exL (l : Nat) : Bool := l == 100 || l == 105 || l == 106 || l == 110
def shL (l : Nat) : Bool := l == 75 || l == 84 || l == 85 || l == 91
def rcL (l : Nat) : Bool := l == 116 || l == 121 || l == 122 || l == 123 || l == 129

theorem acc_line {q : XmPc} {x : XmX} {w : Bool} {l : Nat} (h : q.acc = some (x, w, l)) :
    shL l = q.sh ∧ exL l = q.ex ∧ rcL l = q.rc ∧ l ≠ 45 ∧ (q.sh || q.ex || q.rc) = true := by
  cases q <;> simp only [XmPc.acc, Option.some.injEq, Prod.mk.injEq, reduceCtorEq] at h
  all_goals obtain ⟨-, -, rfl⟩ := h
  all_goals exact ⟨rfl, rfl, rfl, by decide, rfl⟩

theorem op_acc {q : XmPc} {x : XmX} {w : Bool} {l : Nat} (h : q.acc = some (x, w, l)) : q.op = (.acc x w false, l) := by
  simp only [XmPc.op, h]

structure XmMem (s : XmSt) : Prop where
  ini : ∀ (i : Nat) (e : XmEv), s.tr[i]? = some e → e.line = 45 → ∀ g ∈ s.us, Knows s.tr g i
  shape : ∀ (i : Nat) (e : XmEv) (x : XmX) (w p : Bool), s.tr[i]? = some e → e.op = .acc x w p → e.line = 45 ∨ ∃ q : XmPc, q.acc = some (x, w, e.line)
  ex : ∀ (i : Nat) (e : XmEv), s.tr[i]? = some e → exL e.line = true → (s.wr = some e.g ∨ KnowsO s.tr .w i) ∧ ∀ g, (g ∈ s.rd ∨ s.wr = some g) → Knows s.tr g i
  sh : ∀ (i : Nat) (e : XmEv), s.tr[i]? = some e → shL e.line = true → (e.g ∈ s.rd ∨ KnowsO s.tr .r i) ∧ ∀ g, s.wr = some g → Knows s.tr g i

theorem XmMem.init : XmMem XmSt.init := by
  have hm : ∀ (i : Nat) (e : XmEv), XmSt.init.tr[i]? = some e → e.g = 0 ∧ e.line = 45 := by
    intro i e he
    have := List.mem_of_getElem? he
    simp only [XmSt.init, xmInit] at this
    simp at this
    rcases this with rfl | rfl | rfl | rfl <;> exact ⟨rfl, rfl⟩
  refine ⟨fun i e he _ g hg => ?_, fun i e x w p he _ => .inl (hm i e he).2, fun i e he hl => ?_, fun i e he hl => ?_⟩
  · have : g = 0 := by simpa [XmSt.init] using hg
    exact Knows.own' he ((hm i e he).1.trans this.symm)
  · rw [(hm i e he).2] at hl; cases hl
  · rw [(hm i e he).2] at hl; cases hl

/-- An event that is no access of `Send` or `End`, with the locks as they were. -/
theorem XmMem.quiet {s s' : XmSt} {e : XmEv} (h : XmMem s) (ht : s'.tr = s.tr ++ [e]) (hrd : s'.rd = s.rd) (hwr : s'.wr = s.wr)
    (hus : ∀ g ∈ s'.us, g ∈ s.us ∨ (e.g ∈ s.us ∧ e.op = .go g)) (h45 : e.line ≠ 45) (hx : exL e.line = false) (hs : shL e.line = false)
    (hsh : ∀ x w p, e.op = .acc x w p → ∃ q : XmPc, q.acc = some (x, w, e.line)) : XmMem s' := by
  obtain ⟨h1, h2, h3, h4⟩ := h
  refine ⟨fun i a ha hl g hg => ?_, fun i a x w p ha ho => ?_, fun i a ha hl => ?_, fun i a ha hl => ?_⟩
  · rw [ht] at ha ⊢
    rcases getElem?_snoc ha with ha | ⟨-, rfl⟩
    · rcases hus g hg with hg | ⟨hg, ho⟩
      · exact (h1 i a ha hl g hg).mono _
      · exact (h1 i a ha hl _ hg).go ho
    · exact absurd hl h45
  · rw [ht] at ha
    rcases getElem?_snoc ha with ha | ⟨-, rfl⟩
    · exact h2 i a x w p ha ho
    · exact .inr (hsh x w p ho)
  · rw [ht] at ha
    rw [ht, hrd, hwr]
    rcases getElem?_snoc ha with ha | ⟨-, rfl⟩
    · obtain ⟨k1, k2⟩ := h3 i a ha hl
      exact ⟨k1.imp id (·.mono _), fun g hg => (k2 g hg).mono _⟩
    · rw [hx] at hl; cases hl
  · rw [ht] at ha
    rw [ht, hrd, hwr]
    rcases getElem?_snoc ha with ha | ⟨-, rfl⟩
    · obtain ⟨k1, k2⟩ := h4 i a ha hl
      exact ⟨k1.imp id (·.mono _), fun g hg => (k2 g hg).mono _⟩
    · rw [hs] at hl; cases hl

/-- What a step of a call does to the locks, with the event. -/
theorem go_tr {s : XmSt} {g : Nat} {b : Bool} {p : XmPc} : (s.next g b p).tr = s.tr ∧ (s.next g b p).us = s.us ∧
    (s.next g b p).rd = (if p = .sout then s.rd.filter (· ≠ g) else s.rd) ∧ (s.next g b p).wr = (if p = .eout then none else s.wr) := by
  cases p <;> simp [XmSt.next, XmSt.to]

theorem XmMem.step {s s' : XmSt} {a : XmAct} (c : XmCtl s) (h : XmMem s) (hs : xmStep s a = some s') : XmMem s' := by
  cases a <;> simp only [xmStep] at hs <;> split at hs <;> cases hs
  case share g j hc =>
    refine h.quiet (e := ⟨g, .go j, 0⟩) rfl rfl rfl (fun g' hg' => ?_) (by simp) rfl rfl (fun _ _ _ ho => by cases ho)
    rcases List.mem_cons.1 hg' with rfl | hg'
    · exact .inr ⟨hc.1, rfl⟩
    · exact .inl hg'
  case hand g k hc => exact h.quiet (e := ⟨g, .rel (.hand k), 0⟩) rfl rfl rfl (fun g' hg' => .inl hg') (by simp) rfl rfl (fun _ _ _ ho => by cases ho)
  case take g k hc => exact h.quiet (e := ⟨g, .acq (.hand k), 0⟩) rfl rfl rfl (fun g' hg' => .inl hg') (by simp) rfl rfl (fun _ _ _ ho => by cases ho)
  case recv g hc => exact ⟨h.ini, h.shape, h.ex, h.sh⟩
  case send g hc =>
    obtain ⟨h1, h2, h3, h4⟩ := h
    obtain ⟨-, -, hw⟩ := hc
    simp only [XmSt.emit, XmSt.to]
    refine ⟨fun i a ha hl g' hg => ?_, fun i a x w p ha ho => ?_, fun i a ha hl => ?_, fun i a ha hl => ?_⟩ <;> simp only [] at *
    · rcases getElem?_snoc ha with ha | ⟨-, rfl⟩
      · exact (h1 i a ha hl g' hg).mono _
      · cases hl
    · rcases getElem?_snoc ha with ha | ⟨-, rfl⟩
      · exact h2 i a x w p ha ho
      · cases ho
    · rcases getElem?_snoc ha with ha | ⟨-, rfl⟩
      · obtain ⟨k1, k2⟩ := h3 i a ha hl
        rw [hw] at k1
        have k1 : KnowsO s.tr .w i := by rcases k1 with k1 | k1; cases k1; exact k1
        refine ⟨.inr (k1.mono _), fun g' hg => ?_⟩
        rw [hw] at hg
        rcases hg with hg | hg
        · rcases List.mem_cons.1 hg with rfl | hg
          · exact k1.acq (e := ⟨g', .acq .w, 72⟩) rfl
          · exact (k2 g' (.inl hg)).mono _
        · cases hg
      · cases hl
    · rcases getElem?_snoc ha with ha | ⟨-, rfl⟩
      · obtain ⟨k1, k2⟩ := h4 i a ha hl
        exact ⟨k1.imp (.tail _) (·.mono _), fun g' hg => (k2 g' hg).mono _⟩
      · cases hl
  case fin g hc =>
    obtain ⟨h1, h2, h3, h4⟩ := h
    obtain ⟨-, -, hw, hr⟩ := hc
    simp only [XmSt.emit, XmSt.to]
    refine ⟨fun i a ha hl g' hg => ?_, fun i a x w p ha ho => ?_, fun i a ha hl => ?_, fun i a ha hl => ?_⟩ <;> simp only [] at *
    · rcases getElem?_snoc ha with ha | ⟨-, rfl⟩
      · rcases getElem?_snoc ha with ha | ⟨-, rfl⟩
        · exact ((h1 i a ha hl g' hg).mono _).mono _
        · cases hl
      · cases hl
    · rcases getElem?_snoc ha with ha | ⟨-, rfl⟩
      · rcases getElem?_snoc ha with ha | ⟨-, rfl⟩
        · exact h2 i a x w p ha ho
        · cases ho
      · cases ho
    · rcases getElem?_snoc ha with ha | ⟨-, rfl⟩
      · rcases getElem?_snoc ha with ha | ⟨-, rfl⟩
        · obtain ⟨k1, -⟩ := h3 i a ha hl
          rw [hw] at k1
          have k1 : KnowsO s.tr .w i := by rcases k1 with k1 | k1; cases k1; exact k1
          refine ⟨.inr ((k1.mono _).mono _), fun g' hg => ?_⟩
          rw [hr] at hg
          rcases hg with hg | hg
          · cases hg
          · cases hg
            exact (k1.acq (e := ⟨g, .acq .w, 97⟩) rfl).mono _
        · cases hl
      · cases hl
    · rcases getElem?_snoc ha with ha | ⟨-, rfl⟩
      · rcases getElem?_snoc ha with ha | ⟨-, rfl⟩
        · obtain ⟨k1, -⟩ := h4 i a ha hl
          rw [hr] at k1
          have k1 : KnowsO s.tr .r i := by rcases k1 with k1 | k1; cases k1; exact k1
          refine ⟨.inr ((k1.mono _).mono _), fun g' hg => ?_⟩
          cases hg
          exact (k1.mono _).acq (e := ⟨g, .acq .r, 97⟩) rfl
        · cases hl
      · cases hl
  case go g b hp =>
    obtain ⟨t1, t2, t3, t4⟩ := @go_tr (s.emit g (s.pc g).op.1 (s.pc g).op.2) g b (s.pc g)
    generalize hs' : (s.emit g (s.pc g).op.1 (s.pc g).op.2).next g b (s.pc g) = s' at *
    cases ho : (s.pc g).acc with
    | some xwl =>
      obtain ⟨x, w, l⟩ := xwl
      obtain ⟨l1, l2, l3, l4, l5⟩ := acc_line ho
      have hne1 : s.pc g ≠ .sout := by rintro e; rw [e] at ho; cases ho
      have hne2 : s.pc g ≠ .eout := by rintro e; rw [e] at ho; cases ho
      rw [if_neg hne1] at t3
      rw [if_neg hne2] at t4
      simp only [XmSt.emit, op_acc ho] at t1 t2 t3 t4
      obtain ⟨-, c2, c3⟩ := c.at_ g
      have hl : ∀ (k : Nat) (a : XmEv), (s.tr ++ [⟨g, .acc x w false, l⟩])[k]? = some a → s.tr[k]? = some a ∨ (a = ⟨g, .acc x w false, l⟩ ∧ k = s.tr.length) :=
        fun k a ha => (getElem?_snoc ha).imp id fun ⟨e1, e2⟩ => ⟨e2, e1⟩
      refine ⟨fun i a ha hl' g' hg => ?_, fun i a x' w' p' ha ho' => ?_, fun i a ha hl' => ?_, fun i a ha hl' => ?_⟩
      all_goals rw [t1] at ha
      · rw [t2] at hg; rw [t1]
        rcases hl i a ha with ha | ⟨rfl, -⟩
        · exact (h.ini i a ha hl' g' hg).mono _
        · exact absurd hl' l4
      · rcases hl i a ha with ha | ⟨rfl, -⟩
        · exact h.shape i a x' w' p' ha ho'
        · cases ho'; exact .inr ⟨_, ho⟩
      · rw [t1, t3, t4]
        rcases hl i a ha with ha' | ⟨rfl, rfl⟩
        · obtain ⟨k1, k2⟩ := h.ex i a ha' hl'
          exact ⟨k1.imp id (·.mono _), fun g' hg => (k2 g' hg).mono _⟩
        · have hw := c3.1 (l2.symm.trans hl')
          refine ⟨.inl hw, fun g' hg => ?_⟩
          rw [c.excl (by rw [hw]; simp), hw] at hg
          rcases hg with hg | hg
          · cases hg
          · cases hg; exact Knows.own ha
      · rw [t1, t3, t4]
        rcases hl i a ha with ha' | ⟨rfl, rfl⟩
        · obtain ⟨k1, k2⟩ := h.sh i a ha' hl'
          exact ⟨k1.imp id (·.mono _), fun g' hg => (k2 g' hg).mono _⟩
        · have hr := c2.1 (l1.symm.trans hl')
          refine ⟨.inl hr, fun g' hg => ?_⟩
          have := c.excl (by rw [hg]; simp)
          rw [this] at hr; cases hr
    | none =>
      have hq : s.pc g = .sout ∨ s.pc g = .eout := by
        cases hq : s.pc g <;> rw [hq] at ho hp <;> simp_all [XmPc.acc]
      obtain ⟨h1, h2, h3, h4⟩ := h
      rcases hq with hq | hq
      · have hr : g ∈ s.rd := (c.at_ g).2.1.1 (by rw [hq]; rfl)
        have hw : s.wr = none := by
          cases hw : s.wr with
          | none => rfl
          | some _ => rw [c.excl (by rw [hw]; simp)] at hr; cases hr
        rw [hq] at t1 t2 t3 t4
        simp only [XmSt.emit, XmPc.op, XmPc.acc, if_true, reduceCtorEq, if_false] at t1 t2 t3 t4
        refine ⟨fun i a ha hl g' hg => ?_, fun i a x w p ha ho => ?_, fun i a ha hl => ?_, fun i a ha hl => ?_⟩
        all_goals rw [t1] at ha
        all_goals rcases getElem?_snoc ha with ha | ⟨-, rfl⟩
        all_goals try cases hl
        · rw [t2] at hg; rw [t1]
          exact (h1 i a ha hl g' hg).mono _
        · exact h2 i a x w p ha ho
        · cases ho
        · obtain ⟨k1, k2⟩ := h3 i a ha hl
          rw [t1, t3, t4]
          refine ⟨k1.imp id (·.mono _), fun g' hg => (k2 g' (hg.imp (fun h => (List.mem_filter.1 h).1) id)).mono _⟩
        · obtain ⟨k1, k2⟩ := h4 i a ha hl
          rw [t1, t3, t4]
          refine ⟨?_, fun g' hg => (k2 g' hg).mono _⟩
          rcases k1 with k1 | k1
          · by_cases e : a.g = g
            · exact .inr (Knows.rel (e := ⟨g, .rel .r, 73⟩) (Knows.own' ha e) rfl)
            · exact .inl (List.mem_filter.2 ⟨k1, by simpa using e⟩)
          · exact .inr (k1.mono _)
      · have hw : s.wr = some g := (c.at_ g).2.2.1 (by rw [hq]; rfl)
        have hr : s.rd = [] := c.excl (by rw [hw]; simp)
        rw [hq] at t1 t2 t3 t4
        simp only [XmSt.emit, XmPc.op, XmPc.acc, if_true, reduceCtorEq, if_false] at t1 t2 t3 t4
        refine ⟨fun i a ha hl g' hg => ?_, fun i a x w p ha ho => ?_, fun i a ha hl => ?_, fun i a ha hl => ?_⟩
        all_goals rw [t1] at ha
        all_goals rcases getElem?_snoc ha with ha | ⟨-, rfl⟩
        all_goals try cases hl
        · rw [t2] at hg; rw [t1]
          exact (h1 i a ha hl g' hg).mono _
        · exact h2 i a x w p ha ho
        · cases ho
        · obtain ⟨k1, k2⟩ := h3 i a ha hl
          rw [t1, t3, t4, hr]
          refine ⟨.inr ?_, fun g' hg => ?_⟩
          · rcases k1 with k1 | k1
            · rw [hw] at k1
              exact Knows.rel (e := ⟨g, .rel .w, 98⟩) (Knows.own' ha (by injection k1 with k1; exact k1.symm)) rfl
            · exact k1.mono _
          · rcases hg with hg | hg <;> cases hg
        · obtain ⟨k1, k2⟩ := h4 i a ha hl
          rw [t1, t3, t4]
          exact ⟨k1.imp id (·.mono _), fun g' hg => by cases hg⟩

/-- The event of a step, if it is an access. -/
theorem xm_acc {s s' : XmSt} {a : XmAct} (hs : xmStep s a = some s') : (∃ evs, s'.tr = s.tr ++ evs ∧ ∀ e ∈ evs, ∀ x w p, e.op ≠ .acc x w p) ∨
    ∃ g b x w l, a = .go g b ∧ (s.pc g).acc = some (x, w, l) ∧ s'.tr = s.tr ++ [⟨g, .acc x w false, l⟩] := by
  cases a <;> simp only [xmStep] at hs <;> split at hs <;> cases hs
  case go g b hp =>
    cases ho : (s.pc g).acc with
    | some xwl =>
      obtain ⟨x, w, l⟩ := xwl
      exact .inr ⟨g, b, x, w, l, rfl, ho, by rw [go_tr.1, XmSt.emit, op_acc ho]⟩
    | none =>
      refine .inl ⟨_, go_tr.1, ?_⟩
      intro e he x w p hc
      simp only [List.mem_singleton] at he
      subst he
      simp only [XmPc.op, ho] at hc
      split at hc <;> cases hc
  case recv => exact .inl ⟨[], by simp [XmSt.to], by simp⟩
  case fin g hc => exact .inl ⟨[⟨g, .acq .w, 97⟩, ⟨g, .acq .r, 97⟩], by simp [XmSt.to, XmSt.emit], by simp⟩
  all_goals exact .inl ⟨_, rfl, by simp⟩

theorem no_new_race {tr evs : List XmEv} {x : XmX} (h : RaceFree tr x) (he : ∀ e ∈ evs, ∀ x w p, e.op ≠ .acc x w p) : RaceFree (tr ++ evs) x := by
  induction evs generalizing tr with
  | nil => simpa using h
  | cons e es ih =>
    rw [List.append_cons]
    refine ih ?_ fun e' h' => he e' (.tail _ h')
    intro i j hr
    rcases new_race hr with hr | ⟨-, a, -, ⟨w, v, p, q, -, h2, -⟩, -⟩
    · exact h i j hr
    · exact he e (.head _) _ _ _ h2

/-- A variable is used without races if every access is made by somebody who knows the conflicting ones. -/
theorem free_step {s s' : XmSt} {a : XmAct} {x : XmX} (hf : RaceFree s.tr x) (hs : xmStep s a = some s')
    (hk : ∀ g w l, (s.pc g).acc = some (x, w, l) → ∀ (i : Nat) (e : XmEv) (v p : Bool), s.tr[i]? = some e → e.op = .acc x v p → (w = true ∨ v = true) →
      Knows s.tr g i) : RaceFree s'.tr x := by
  rcases xm_acc hs with ⟨evs, h1, h2⟩ | ⟨g, b, y, w, l, -, h2, h3⟩
  · rw [h1]; exact no_new_race hf h2
  · rw [h3]
    intro i j hr
    rcases new_race hr with hr | ⟨-, e, he, ⟨v, v', p, q, o1, o2, o3, -⟩, hn⟩
    · exact hf i j hr
    · injection o2 with e1 e2 e3
      subst e1 e2
      exact hn (hk g w l h2 i e v p he o1 o3.symm)

/-- Whoever has the lock for writing knows all that `Send` and `End` did, whoever has it for reading what `End` did, and everybody what `Pipe` did. -/
theorem lock_knows {s : XmSt} (c : XmCtl s) (h : XmMem s) {g : Nat} {i : Nat} {e : XmEv} (he : s.tr[i]? = some e)
    (hl : (e.line = 45 ∧ s.pc g ≠ .idle) ∨ (exL e.line = true ∧ ((s.pc g).sh = true ∨ (s.pc g).ex = true)) ∨ (shL e.line = true ∧ (s.pc g).ex = true)) :
    Knows s.tr g i := by
  obtain ⟨c1, c2, c3⟩ := c.at_ g
  rcases hl with ⟨h1, h2⟩ | ⟨h1, h2⟩ | ⟨h1, h2⟩
  · exact h.ini i e he h1 g (c1 h2)
  · exact (h.ex i e he h1).2 g (h2.imp c2.1 c3.1)
  · exact (h.sh i e he h1).2 g (c3.1 h2)

structure XmBase (s : XmSt) : Prop where
  ctl : XmCtl s
  mem : XmMem s
  closed : RaceFree s.tr .closed

theorem init_free (x : XmX) : RaceFree xmInit x := by
  intro i j h
  obtain ⟨h1, ⟨a, b, ha, hb, -⟩, hn⟩ := h
  refine hn (.program h1 ha hb ?_)
  have ha := List.mem_of_getElem? ha
  have hb := List.mem_of_getElem? hb
  simp only [xmInit] at ha hb
  simp at ha hb
  rcases ha with rfl | rfl | rfl | rfl <;> rcases hb with rfl | rfl | rfl | rfl <;> rfl

theorem acc_closed {q : XmPc} {w : Bool} {l : Nat} (h : q.acc = some (.closed, w, l)) : (q.sh = true ∧ w = false) ∨ q.ex = true := by
  cases q <;> simp_all [XmPc.acc, XmPc.sh, XmPc.ex]

theorem acc_not_idle {q : XmPc} {v : XmX × Bool × Nat} (h : q.acc = some v) : q ≠ .idle := by rintro rfl; cases h

theorem XmBase.step {s s' : XmSt} {a : XmAct} (h : XmBase s) (hs : xmStep s a = some s') : XmBase s' := by
  refine ⟨h.ctl.step hs, h.mem.step h.ctl hs, free_step h.closed hs fun g w l hg i e v p he ho hw => ?_⟩
  refine lock_knows h.ctl h.mem he ?_
  rcases h.mem.shape i e _ _ _ he ho with h45 | ⟨q, hq⟩
  · exact .inl ⟨h45, acc_not_idle hg⟩
  · obtain ⟨l1, l2, -⟩ := acc_line hq
    rw [l1, l2]
    rcases acc_closed hq with ⟨q1, q2⟩ | q1 <;> rcases acc_closed hg with ⟨g1, g2⟩ | g1
    · subst q2 g2; simp at hw
    · exact .inr (.inr ⟨q1, g1⟩)
    · exact .inr (.inl ⟨q1, .inl g1⟩)
    · exact .inr (.inl ⟨q1, .inr g1⟩)

theorem XmBase.init : XmBase XmSt.init := ⟨.init, .init, init_free _⟩

/-! ## One goroutine that sends -/

structure XmWho (a : Nat) (s : XmSt) : Prop where
  pc : ∀ g, (s.pc g).sh = true → g = a
  ev : ∀ (i : Nat) (e : XmEv), s.tr[i]? = some e → shL e.line = true → e.g = a
  writer : RaceFree s.tr .writer
  buf : RaceFree s.tr .buf

theorem acc_writer {q : XmPc} {x : XmX} {w : Bool} {l : Nat} (hx : x = .writer ∨ x = .buf) (h : q.acc = some (x, w, l)) : q.sh = true ∨ q.ex = true := by
  rcases hx with rfl | rfl <;> cases q <;> simp_all [XmPc.acc, XmPc.sh, XmPc.ex]

/-- What a step does to where the goroutines are. -/
theorem xm_pc {s s' : XmSt} {act : XmAct} (hs : xmStep s act = some s') (g : Nat) :
    s'.pc g = s.pc g ∨ (act = .send g ∧ s'.pc g = .s1) ∨ (act = .fin g ∧ s'.pc g = .e1) ∨ (act = .recv g ∧ s'.pc g = .r1) ∨
    ((∃ b, act = .go g b) ∧ ((s'.pc g).sh = true → (s.pc g).sh = true) ∧ ((s'.pc g).rc = true → (s.pc g).rc = true)) := by
  cases act <;> simp only [xmStep] at hs <;> split at hs <;> cases hs
  case go g' b hp =>
    by_cases e : g = g'
    · subst e
      right; right; right; right
      refine ⟨⟨b, rfl⟩, ?_⟩
      cases hq : s.pc g <;> simp only [XmSt.next, XmSt.emit, XmSt.to, setC_self]
      all_goals grind [XmPc.sh, XmPc.rc]
    · left
      cases hq : s.pc g' <;> simp only [XmSt.next, XmSt.emit, XmSt.to, setC_ne _ _ e]
  case send g' hc =>
    by_cases e : g = g'
    · subst e; right; left; exact ⟨rfl, by simp [XmSt.to, setC_self]⟩
    · left; simp only [XmSt.emit, XmSt.to, setC_ne _ _ e]
  case fin g' hc =>
    by_cases e : g = g'
    · subst e; right; right; left; exact ⟨rfl, by simp [XmSt.to, setC_self]⟩
    · left; simp only [XmSt.emit, XmSt.to, setC_ne _ _ e]
  case recv g' hc =>
    by_cases e : g = g'
    · subst e; right; right; right; left; exact ⟨rfl, by simp [XmSt.to, setC_self]⟩
    · left; simp only [XmSt.to, setC_ne _ _ e]
  all_goals exact .inl rfl

/-- A new event in the lines of `Send`, or of `Receive`, is by a goroutine that is there. -/
theorem xm_ev {s s' : XmSt} {act : XmAct} (hs : xmStep s act = some s') {i : Nat} {e : XmEv} (he : s'.tr[i]? = some e) :
    s.tr[i]? = some e ∨ ((shL e.line = true → (s.pc e.g).sh = true) ∧ (rcL e.line = true → (s.pc e.g).rc = true)) := by
  cases act <;> simp only [xmStep] at hs <;> split at hs <;> cases hs
  case go g b hp =>
    rw [go_tr.1, XmSt.emit] at he
    rcases getElem?_snoc he with he | ⟨-, rfl⟩
    · exact .inl he
    · right
      cases ho : (s.pc g).acc with
      | some xwl =>
        obtain ⟨x, w, l⟩ := xwl
        obtain ⟨l1, l2, l3, -⟩ := acc_line ho
        rw [op_acc ho]
        exact ⟨fun h => l1.symm.trans h, fun h => l3.symm.trans h⟩
      | none =>
        simp only [XmPc.op, ho]
        split <;> simp [shL, rcL]
  case recv => exact .inl he
  case fin g hc =>
    simp only [XmSt.emit, XmSt.to] at he
    rcases getElem?_snoc he with he | ⟨-, rfl⟩
    · rcases getElem?_snoc he with he | ⟨-, rfl⟩
      · exact .inl he
      · exact .inr ⟨fun h => (by cases h), fun h => (by cases h)⟩
    · exact .inr ⟨fun h => (by cases h), fun h => (by cases h)⟩
  all_goals
    simp only [XmSt.emit, XmSt.to] at he
    rcases getElem?_snoc he with he | ⟨-, rfl⟩
    · exact .inl he
    · exact .inr ⟨fun h => (by cases h), fun h => (by cases h)⟩

theorem XmWho.step {a : Nat} {s s' : XmSt} {act : XmAct} (b : XmBase s) (h : XmWho a s) (ha : ∀ g, act = .send g → g = a)
    (hs : xmStep s act = some s') : XmWho a s' := by
  have key : ∀ x, x = XmX.writer ∨ x = XmX.buf → ∀ g w l, (s.pc g).acc = some (x, w, l) → ∀ (i : Nat) (e : XmEv) (v p : Bool),
      s.tr[i]? = some e → e.op = .acc x v p → (w = true ∨ v = true) → Knows s.tr g i := by
    intro x hx g w l hg i e v p he ho _
    rcases b.mem.shape i e _ _ _ he ho with h45 | ⟨q, hq⟩
    · exact lock_knows b.ctl b.mem he (.inl ⟨h45, acc_not_idle hg⟩)
    · obtain ⟨l1, l2, -⟩ := acc_line hq
      rcases acc_writer hx hq with q1 | q1
      · rcases acc_writer hx hg with g1 | g1
        · exact Knows.own' he ((h.ev i e he (l1.trans q1)).trans (h.pc g g1).symm)
        · exact lock_knows b.ctl b.mem he (.inr (.inr ⟨l1.trans q1, g1⟩))
      · exact lock_knows b.ctl b.mem he (.inr (.inl ⟨l2.trans q1, acc_writer hx hg⟩))
  refine ⟨fun g hg => ?_, fun i e he hl => ?_, free_step h.writer hs (key _ (.inl rfl)), free_step h.buf hs (key _ (.inr rfl))⟩
  · rcases xm_pc hs g with h1 | ⟨h1, -⟩ | ⟨-, h1⟩ | ⟨-, h1⟩ | ⟨-, h1, -⟩
    · rw [h1] at hg; exact h.pc g hg
    · exact ha g h1
    · rw [h1] at hg; cases hg
    · rw [h1] at hg; cases hg
    · exact h.pc g (h1 hg)
  · rcases xm_ev hs he with he | ⟨h1, -⟩
    · exact h.ev i e he hl
    · exact h.pc _ (h1 hl)

theorem init_line {i : Nat} {e : XmEv} (he : XmSt.init.tr[i]? = some e) : e.line = 45 ∧ e.g = 0 := by
  have := List.mem_of_getElem? he
  simp only [XmSt.init, xmInit] at this
  simp at this
  rcases this with rfl | rfl | rfl | rfl <;> exact ⟨rfl, rfl⟩

theorem XmWho.init (a : Nat) : XmWho a XmSt.init :=
  ⟨fun g hg => (by cases hg), fun i e he hl => (by rw [(init_line he).1] at hl; cases hl), init_free _, init_free _⟩

/-! ## One goroutine that receives -/

structure XmRcv (b : Nat) (s : XmSt) : Prop where
  pc : ∀ g, (s.pc g).rc = true → g = b
  ev : ∀ (i : Nat) (e : XmEv), s.tr[i]? = some e → rcL e.line = true → e.g = b
  first : RaceFree s.tr .first

theorem acc_first {q : XmPc} {w : Bool} {l : Nat} (h : q.acc = some (.first, w, l)) : q.rc = true := by
  cases q <;> simp_all [XmPc.acc, XmPc.rc]

theorem XmRcv.step {r : Nat} {s s' : XmSt} {act : XmAct} (b : XmBase s) (h : XmRcv r s) (ha : ∀ g, act = .recv g → g = r)
    (hs : xmStep s act = some s') : XmRcv r s' := by
  refine ⟨fun g hg => ?_, fun i e he hl => ?_, free_step h.first hs fun g w l hg i e v p he ho _ => ?_⟩
  · rcases xm_pc hs g with h1 | ⟨-, h1⟩ | ⟨-, h1⟩ | ⟨h1, -⟩ | ⟨-, -, h1⟩
    · rw [h1] at hg; exact h.pc g hg
    · rw [h1] at hg; cases hg
    · rw [h1] at hg; cases hg
    · exact ha g h1
    · exact h.pc g (h1 hg)
  · rcases xm_ev hs he with he | ⟨-, h1⟩
    · exact h.ev i e he hl
    · exact h.pc _ (h1 hl)
  · rcases b.mem.shape i e _ _ _ he ho with h45 | ⟨q, hq⟩
    · exact lock_knows b.ctl b.mem he (.inl ⟨h45, acc_not_idle hg⟩)
    · exact Knows.own' he ((h.ev i e he ((acc_line hq).2.2.1.trans (acc_first hq))).trans (h.pc g (acc_first hg)).symm)

theorem XmRcv.init (b : Nat) : XmRcv b XmSt.init :=
  ⟨fun g hg => (by cases hg), fun i e he hl => (by rw [(init_line he).1] at hl; cases hl), init_free _⟩

/-! ## Receiving after the stream was opened -/

structure Sealed (s : XmSt) : Prop where
  wset : s.wset = true
  rset : s.rset = true
  pc : ∀ g, (s.pc g).opening = false

theorem Sealed.step {s s' : XmSt} {act : XmAct} (h : Sealed s) (hs : xmStep s act = some s') : Sealed s' := by
  obtain ⟨h1, h2, h3⟩ := h
  cases act <;> simp only [xmStep] at hs <;> split at hs <;> cases hs
  case go g b hp =>
    have hg := h3 g
    cases hq : s.pc g <;> rw [hq] at hg <;> try cases hg
    all_goals simp only [XmSt.next, XmSt.emit, XmSt.to]
    all_goals refine ⟨h1, h2, fun g' => ?_⟩
    all_goals have hg' := h3 g'
    all_goals by_cases e : g' = g
    all_goals simp only [setC, e, if_true, if_false]
    all_goals grind [XmPc.opening]
  case send g hc =>
    refine ⟨h1, h2, fun g' => ?_⟩
    have hg' := h3 g'
    simp only [XmSt.emit, XmSt.to, setC]
    split
    · rfl
    · exact hg'
  case fin g hc =>
    refine ⟨h1, h2, fun g' => ?_⟩
    have hg' := h3 g'
    simp only [XmSt.emit, XmSt.to, setC]
    split
    · rfl
    · exact hg'
  case recv g hc =>
    refine ⟨h1, h2, fun g' => ?_⟩
    have hg' := h3 g'
    simp only [XmSt.to, setC]
    split
    · rfl
    · exact hg'
  all_goals exact ⟨h1, h2, h3⟩

theorem opening_sh {p : XmPc} (h : p.opening = true) : p.sh = true := by cases p <;> first | rfl | cases h

/-- The goroutine is told by a step: it opened the stream itself, was started by one that knew, or took what one that knew had left. -/
theorem told_step {s s' : XmSt} {act : XmAct} (hs : xmStep s act = some s') {g : Nat} (ht : s'.told g = true) :
    s.told g = true ∨ (s.pc g = .s4 true ∧ ∃ b, act = .go g b) ∨ (∃ g0, s.told g0 = true ∧ act = .share g0 g) ∨ (∃ k, s.toldK k = true ∧ act = .take g k) := by
  cases act <;> simp only [xmStep] at hs <;> split at hs <;> cases hs
  case go g' b hp =>
    cases hq : s.pc g' <;> simp only [hq, XmSt.next, XmSt.emit, XmSt.to] at ht
    all_goals try exact .inl ht
    rename_i ok
    by_cases e : g = g'
    · subst e
      rw [setC_self] at ht
      cases ok
      · left; simpa using ht
      · exact .inr (.inl ⟨hq, b, rfl⟩)
    · rw [setC_ne _ _ e] at ht; exact .inl ht
  case share g0 j hc =>
    by_cases e : g = j
    · subst e
      simp only [setC_self] at ht
      exact .inr (.inr (.inl ⟨g0, ht, rfl⟩))
    · simp only [setC_ne _ _ e] at ht; exact .inl ht
  case take g' k hc =>
    by_cases e : g = g'
    · subst e
      simp only [setC_self, Bool.or_eq_true] at ht
      rcases ht with ht | ht
      · exact .inl ht
      · exact .inr (.inr (.inr ⟨k, ht, rfl⟩))
    · simp only [setC_ne _ _ e] at ht; exact .inl ht
  all_goals exact .inl ht

theorem toldK_step {s s' : XmSt} {act : XmAct} (hs : xmStep s act = some s') {k : Nat} (ht : s'.toldK k = true) :
    s.toldK k = true ∨ ∃ g, s.told g = true ∧ act = .hand g k := by
  cases act <;> simp only [xmStep] at hs <;> split at hs <;> cases hs
  case go g' b hp =>
    left
    cases hq : s.pc g' <;> simp only [hq, XmSt.next, XmSt.emit, XmSt.to] at ht <;> exact ht
  case hand g k' hc =>
    by_cases e : k = k'
    · subst e
      simp only [setC_self, Bool.or_eq_true] at ht
      exact ht.imp id fun h => ⟨g, h, rfl⟩
    · simp only [setC_ne _ _ e] at ht; exact .inl ht
  all_goals exact .inl ht

/-- Once told, always told. -/
theorem told_keep {s s' : XmSt} {act : XmAct} (hs : xmStep s act = some s') {g : Nat} (hu : g ∈ s.us) (ht : s.told g = true) : s'.told g = true := by
  cases act <;> simp only [xmStep] at hs <;> split at hs <;> cases hs
  case go g' b hp =>
    cases hq : s.pc g' <;> simp only [XmSt.next, XmSt.emit, XmSt.to]
    all_goals try exact ht
    simp only [setC]; split
    · next e => subst e; simp [ht]
    · exact ht
  case share g0 j hc =>
    have : g ≠ j := by rintro rfl; exact hc.2.2 hu
    simp only [setC_ne _ _ this]; exact ht
  case take g' k hc =>
    simp only [setC]; split
    · next e => subst e; simp [ht]
    · exact ht
  all_goals exact ht

structure XmTold (a : Nat) (s : XmSt) : Prop where
  w3 : ∀ g ok, s.pc g = .sreq ∨ s.pc g = .s3 ok → s.wset = false
  w4 : ∀ g ok, s.pc g = .s4 ok → s.wset = ok
  sealT : ∀ g, s.told g = true → Sealed s
  sealK : ∀ k, s.toldK k = true → Sealed s
  sealR : ∀ (i : Nat) (e : XmEv) (p : Bool), s.tr[i]? = some e → e.op = .acc .resp false p → e.g ≠ a → Sealed s
  kn : ∀ g, s.told g = true → ∀ (i : Nat) (e : XmEv) (p : Bool), s.tr[i]? = some e → e.op = .acc .resp true p → e.line ≠ 45 → Knows s.tr g i
  knK : ∀ k, s.toldK k = true → ∀ (i : Nat) (e : XmEv) (p : Bool), s.tr[i]? = some e → e.op = .acc .resp true p → e.line ≠ 45 → KnowsO s.tr (.hand k) i
  rc : ∀ g, (s.pc g).rc = true → g = a ∨ s.told g = true
  resp : RaceFree s.tr .resp

theorem acc_resp {q : XmPc} {w : Bool} {l : Nat} (h : q.acc = some (.resp, w, l)) : (w = true ∧ q.opening = true ∧ q.sh = true) ∨ (w = false ∧ q.rc = true) := by
  cases q <;> simp_all [XmPc.acc, XmPc.rc, XmPc.sh, XmPc.opening]

/-- With one sender: `streamWriter` while it is being assigned. -/
theorem w_step {a : Nat} {s s' : XmSt} {act : XmAct} (hw : ∀ g, (s.pc g).sh = true → g = a)
    (h3 : ∀ g ok, s.pc g = .sreq ∨ s.pc g = .s3 ok → s.wset = false) (h4 : ∀ g ok, s.pc g = .s4 ok → s.wset = ok)
    (hs : xmStep s act = some s') : (∀ g ok, s'.pc g = .sreq ∨ s'.pc g = .s3 ok → s'.wset = false) ∧ (∀ g ok, s'.pc g = .s4 ok → s'.wset = ok) := by
  cases act <;> simp only [xmStep] at hs <;> split at hs <;> cases hs
  case go g b hp =>
    have hg := hw g
    have g3 := h3 g
    have g4 := h4 g
    refine ⟨fun g' ok => ?_, fun g' ok => ?_⟩
    · have j := hw g'
      have j3 := h3 g' ok
      by_cases e : g' = g
      · subst e
        cases hq : s.pc g' <;> simp only [XmSt.next, XmSt.emit, XmSt.to, setC_self]
        all_goals grind [XmPc.sh]
      · cases hq : s.pc g <;> simp only [XmSt.next, XmSt.emit, XmSt.to, setC_ne _ _ e]
        all_goals grind [XmPc.sh]
    · have j := hw g'
      have j4 := h4 g' ok
      by_cases e : g' = g
      · subst e
        cases hq : s.pc g' <;> simp only [XmSt.next, XmSt.emit, XmSt.to, setC_self]
        all_goals grind [XmPc.sh]
      · cases hq : s.pc g <;> simp only [XmSt.next, XmSt.emit, XmSt.to, setC_ne _ _ e]
        all_goals grind [XmPc.sh]
  case send g hc =>
    refine ⟨fun g' ok => ?_, fun g' ok => ?_⟩ <;> simp only [XmSt.emit, XmSt.to, setC] <;> split
    · simp
    · exact h3 g' ok
    · simp
    · exact h4 g' ok
  case fin g hc =>
    refine ⟨fun g' ok => ?_, fun g' ok => ?_⟩ <;> simp only [XmSt.emit, XmSt.to, setC] <;> split
    · simp
    · exact h3 g' ok
    · simp
    · exact h4 g' ok
  case recv g hc =>
    refine ⟨fun g' ok => ?_, fun g' ok => ?_⟩ <;> simp only [XmSt.to, setC] <;> split
    · simp
    · exact h3 g' ok
    · simp
    · exact h4 g' ok
  all_goals exact ⟨h3, h4⟩

theorem XmTold.step {a : Nat} {s s' : XmSt} {act : XmAct} (b : XmBase s) (h0 : XmWho a s) (h : XmTold a s)
    (ha : ∀ g, act = .recv g → g = a ∨ s.told g = true) (hs : xmStep s act = some s') : XmTold a s' := by
  obtain ⟨w3, w4, sealT, sealK, sealR, kn, knK, rc, resp⟩ := h
  obtain ⟨n3, n4⟩ := w_step h0.pc w3 w4 hs
  -- opening the stream seals it
  have opened : ∀ g b', act = .go g b' → s.pc g = .s4 true → Sealed s' ∧ s'.tr = s.tr ++ [⟨g, .acc .resp true false, 85⟩] := by
    intro g b' e hq
    subst e
    have hga : g = a := h0.pc g (by rw [hq]; rfl)
    have hw := w4 g true hq
    simp only [xmStep, hq, reduceCtorEq, if_false, Option.some.injEq] at hs
    subst hs
    refine ⟨⟨hw, rfl, fun g' => ?_⟩, rfl⟩
    simp only [XmSt.next, XmSt.emit, XmSt.to, setC]
    split
    · rfl
    · next hne =>
      cases ho : (s.pc g').opening
      · rfl
      · exact absurd ((h0.pc g' (opening_sh ho)).trans hga.symm) hne
  -- a sealed state has no new assignment of resp
  have noNew : Sealed s → ∀ (i : Nat) (e : XmEv) (p : Bool), s'.tr[i]? = some e → e.op = .acc .resp true p → s.tr[i]? = some e := by
    intro hS i e p he ho
    rcases xm_acc hs with ⟨evs, e1, e2⟩ | ⟨g, b', x, w, l, -, e2, e3⟩
    · rw [e1] at he
      rcases snocs he with he | he
      · exact he
      · exact absurd ho (e2 e he _ _ _)
    · rw [e3] at he
      rcases getElem?_snoc he with he | ⟨-, rfl⟩
      · exact he
      · injection ho with o1 o2 o3
        subst o1 o2
        rcases acc_resp e2 with ⟨-, q, -⟩ | ⟨q, -⟩
        · rw [hS.pc g] at q; cases q
        · cases q
  have grow : ∃ evs, s'.tr = s.tr ++ evs := by
    rcases xm_acc hs with ⟨evs, e1, -⟩ | ⟨_, _, _, _, _, -, -, e3⟩
    · exact ⟨evs, e1⟩
    · exact ⟨_, e3⟩
  obtain ⟨evs, hgrow⟩ := grow
  refine ⟨n3, n4, fun g hg => ?_, fun k hk => ?_, fun i e p he ho hne => ?_, fun g hg i e p he ho hl => ?_, fun k hk i e p he ho hl => ?_, fun g hg => ?_, ?_⟩
  · rcases told_step hs hg with h1 | ⟨h1, b', h2⟩ | ⟨g0, h1, -⟩ | ⟨k, h1, -⟩
    · exact (sealT g h1).step hs
    · exact (opened g b' h2 h1).1
    · exact (sealT g0 h1).step hs
    · exact (sealK k h1).step hs
  · rcases toldK_step hs hk with h1 | ⟨g, h1, -⟩
    · exact (sealK k h1).step hs
    · exact (sealT g h1).step hs
  · rcases xm_acc hs with ⟨evs, e1, e2⟩ | ⟨g, b', x, w, l, -, e2, e3⟩
    · rw [e1] at he
      rcases snocs he with he | he
      · exact (sealR i e p he ho hne).step hs
      · exact absurd ho (e2 e he _ _ _)
    · rw [e3] at he
      rcases getElem?_snoc he with he | ⟨-, rfl⟩
      · exact (sealR i e p he ho hne).step hs
      · injection ho with o1 o2 o3
        subst o1 o2
        rcases acc_resp e2 with ⟨q, -⟩ | ⟨-, q⟩
        · cases q
        · rcases rc g q with h1 | h1
          · exact absurd h1 hne
          · exact (sealT g h1).step hs
  · rcases told_step hs hg with h1 | ⟨h1, b', h2⟩ | ⟨g0, h1, h2⟩ | ⟨k, h1, h2⟩
    · rw [hgrow]; exact (kn g h1 i e p (noNew (sealT g h1) i e p he ho) ho hl).mono _
    · have ht := (opened g b' h2 h1).2
      have hga : g = a := h0.pc g (by rw [h1]; rfl)
      have hea : e.g = g := by
        rw [ht] at he
        rcases getElem?_snoc he with he | ⟨-, rfl⟩
        · rcases b.mem.shape i e _ _ _ he ho with h45 | ⟨q, hq⟩
          · exact absurd h45 hl
          · rcases acc_resp hq with ⟨-, -, q1⟩ | ⟨q1, -⟩
            · exact (h0.ev i e he ((acc_line hq).1.trans q1)).trans hga.symm
            · cases q1
        · rfl
      exact Knows.own' he hea
    · have hold := noNew (sealT g0 h1) i e p he ho
      subst h2
      simp only [xmStep] at hs
      split at hs <;> cases hs
      exact Knows.go (e := ⟨g0, .go g, 0⟩) (kn g0 h1 i e p hold ho hl) rfl
    · have hold := noNew (sealK k h1) i e p he ho
      subst h2
      simp only [xmStep] at hs
      split at hs <;> cases hs
      exact KnowsO.acq (e := ⟨g, .acq (.hand k), 0⟩) (knK k h1 i e p hold ho hl) rfl
  · rcases toldK_step hs hk with h1 | ⟨g, h1, h2⟩
    · rw [hgrow]; exact (knK k h1 i e p (noNew (sealK k h1) i e p he ho) ho hl).mono _
    · have hold := noNew (sealT g h1) i e p he ho
      subst h2
      simp only [xmStep] at hs
      split at hs <;> cases hs
      exact Knows.rel (e := ⟨g, .rel (.hand k), 0⟩) (kn g h1 i e p hold ho hl) rfl
  · have hkeep : (s.pc g).rc = true → g = a ∨ s'.told g = true := by
      intro hq
      refine (rc g hq).imp id fun h1 => told_keep hs ((b.ctl.at_ g).1 ?_) h1
      intro e; rw [e] at hq; cases hq
    rcases xm_pc hs g with h1 | ⟨-, h1⟩ | ⟨-, h1⟩ | ⟨h1, -⟩ | ⟨-, -, h1⟩
    · rw [h1] at hg; exact hkeep hg
    · rw [h1] at hg; cases hg
    · rw [h1] at hg; cases hg
    · refine (ha g h1).imp id fun h2 => ?_
      subst h1
      simp only [xmStep] at hs
      split at hs <;> cases hs
      exact h2
    · exact hkeep (h1 hg)
  · refine free_step resp hs fun g w l hg i e v p he ho hwv => ?_
    rcases b.mem.shape i e _ _ _ he ho with h45 | ⟨q, hq⟩
    · exact lock_knows b.ctl b.mem he (.inl ⟨h45, acc_not_idle hg⟩)
    · obtain ⟨l1, -, l3, l4, -⟩ := acc_line hq
      rcases acc_resp hg with ⟨g0, g1, g2⟩ | ⟨g0, g1⟩
      · have hga := h0.pc g g2
        by_cases hea : e.g = a
        · exact Knows.own' he (hea.trans hga.symm)
        · exfalso
          rcases acc_resp hq with ⟨q0, q1, q2⟩ | ⟨q0, q1⟩
          · exact hea (h0.ev i e he (l1.trans q2))
          · subst q0
            have := (sealR i e p he ho hea).pc g
            rw [g1] at this; cases this
      · rcases acc_resp hq with ⟨q0, q1, q2⟩ | ⟨q0, q1⟩
        · rcases rc g g1 with h1 | h1
          · exact Knows.own' he ((h0.ev i e he (l1.trans q2)).trans h1.symm)
          · subst q0; exact kn g h1 i e p he ho l4
        · subst g0 q0; simp at hwv

theorem XmTold.init (a : Nat) : XmTold a XmSt.init := by
  refine ⟨fun _ _ h => ?_, fun _ _ h => ?_, fun _ h => ?_, fun _ h => ?_, fun i e p he ho => ?_, fun _ h => ?_, fun _ h => ?_, fun _ h => ?_, init_free _⟩
  · rcases h with h | h <;> cases h
  all_goals try cases h
  have := List.mem_of_getElem? he
  simp only [XmSt.init, xmInit] at this
  simp at this
  rcases this with rfl | rfl | rfl | rfl <;> cases ho

/-! ## The theorems -/

/-- **C136, `closed`.** Whoever calls what and when, `closed` is used without races. -/
theorem C136_closed {acts : List XmAct} {s : XmSt} (h : xmRun acts = some s) : RaceFree s.tr .closed :=
  (runActs_inv (P := XmBase) (fun _ _ _ h hs => h.step hs) .init h).closed

/-- **C136, partial.** Only if one goroutine `a` sends, one goroutine `b` receives, and `b` (unless it is `a`) receives only after it has learnt that a `Send`
has opened the stream. `End` may be called by anybody at any moment. Then no field is used with a race, and no `Receive` fails with ErrNoResp unless
it is `a`'s own. Without any one of these conditions there are races (`C136_refuted_send`, `C136_refuted_receive`, `C136_refuted_resp`). -/
theorem C136_partial {a b : Nat} {acts : List XmAct} {s : XmSt} (h : xmRun acts = some s)
    (hsend : ∀ g, .send g ∈ acts → g = a) (hrecv : ∀ g, .recv g ∈ acts → g = b)
    (htold : ∀ pre g post u, acts = pre ++ .recv g :: post → xmRun pre = some u → g = a ∨ u.told g = true) :
    (∀ x, RaceFree s.tr x) ∧ ∀ g, s.pc g = .r1 → g = a ∨ s.rset = true := by
  have gen : ∀ (acts : List XmAct) (u v : XmSt), runActs xmStep u acts = some v → (∀ g, .send g ∈ acts → g = a) → (∀ g, .recv g ∈ acts → g = b) →
      (∀ pre g post w, acts = pre ++ .recv g :: post → runActs xmStep u pre = some w → g = a ∨ w.told g = true) →
      XmBase u → XmWho a u → XmRcv b u → XmTold a u → XmBase v ∧ XmWho a v ∧ XmRcv b v ∧ XmTold a v := by
    intro acts
    induction acts with
    | nil => intro u v hr _ _ _ h1 h2 h3 h4; simp only [runActs, Option.some.injEq] at hr; subst hr; exact ⟨h1, h2, h3, h4⟩
    | cons act acts ih =>
      intro u v hr k1 k2 k3 h1 h2 h3 h4
      rw [runActs] at hr
      cases hs : xmStep u act with
      | none => rw [hs] at hr; cases hr
      | some u' =>
        rw [hs] at hr
        refine ih u' v hr (fun g hg => k1 g (.tail _ hg)) (fun g hg => k2 g (.tail _ hg)) (fun pre g post w he hw => ?_) (h1.step hs)
          (h2.step h1 (fun g e => k1 g (e ▸ .head _)) hs) (h3.step h1 (fun g e => k2 g (e ▸ .head _)) hs)
          (h4.step h1 h2 (fun g e => k3 [] g acts u (by rw [e]; rfl) rfl) hs)
        refine k3 (act :: pre) g post w (by rw [he]; rfl) ?_
        rw [runActs, hs]; exact hw
  obtain ⟨h1, h2, h3, h4⟩ := gen acts _ s h hsend hrecv htold .init (.init a) (.init b) (.init a)
  refine ⟨fun x => ?_, fun g hg => (h4.rc g (by rw [hg]; rfl)).imp id fun ht => (h4.sealT g ht).rset⟩
  cases x
  · exact h2.writer
  · exact h2.buf
  · exact h4.resp
  · exact h3.first
  · exact h1.closed

/-! ## Races, and an execution without -/

def raceAt (acts : List XmAct) (x : XmX) (i j : Nat) (S : List Nat) : Bool := match xmRun acts with
  | some s => decide (i < j) && (match s.tr[i]?, s.tr[j]? with
    | some ⟨_, .acc y w p, _⟩, some ⟨_, .acc z v q, _⟩ => y == x && z == x && (w || v) && !(p && q)
    | _, _ => false) && closedSet s.tr i S && !S.contains j
  | none => false

theorem race_of {acts : List XmAct} {x : XmX} {i j : Nat} {S : List Nat} (h : raceAt acts x i j S = true) :
    ∃ s, xmRun acts = some s ∧ Race s.tr x i j := by
  unfold raceAt at h
  cases hr : xmRun acts with
  | none => rw [hr] at h; cases h
  | some s =>
    rw [hr] at h
    simp only [Bool.and_eq_true, decide_eq_true_eq, Bool.not_eq_true'] at h
    obtain ⟨⟨⟨h1, h2⟩, h3⟩, h4⟩ := h
    refine ⟨s, rfl, h1, ?_, not_HB_of_closed S h3 h4⟩
    split at h2
    · next e1 e2 =>
      simp only [Bool.and_eq_true, beq_iff_eq, Bool.or_eq_true, Bool.not_eq_true'] at h2
      obtain ⟨⟨⟨rfl, rfl⟩, h5⟩, h6⟩ := h2
      exact ⟨_, _, e1, e2, _, _, _, _, rfl, rfl, h5, by rintro ⟨rfl, rfl⟩; cases h6⟩
    · cases h2

/-- **C136 fails with two goroutines that send**: both find streamWriter nil, both assign it (85), with the lock for reading. -/
theorem C136_refuted_send : ∃ s, xmRun [.share 0 1, .send 0, .send 1, .go 0 true, .go 1 true, .go 0 true, .go 1 true, .go 0 true, .go 1 true,
    .go 0 true, .go 1 true] = some s ∧ Race s.tr .writer 13 14 := race_of (S := []) (by decide +kernel)

/-- **C136 fails with one goroutine that sends and one that receives**: `Receive` reads `resp` (116) without a lock while `Send` assigns it (85). -/
theorem C136_refuted_resp : ∃ s, xmRun [.share 0 1, .send 0, .go 0 true, .go 0 true, .go 0 true, .go 0 true, .recv 1, .go 0 true, .go 1 true] = some s ∧
    Race s.tr .resp 10 11 := race_of (S := []) (by decide +kernel)

def exOpen : List XmAct := [.send 0, .go 0 true, .go 0 true, .go 0 true, .go 0 true, .go 0 true, .go 0 true]

/-- **C136 fails with two goroutines that receive**, even if both know that the stream is open: both assign firstFrame (123). -/
theorem C136_refuted_receive : ∃ s, xmRun (exOpen ++ [.share 0 1, .recv 0, .recv 1, .go 0 true, .go 1 true, .go 0 true, .go 1 true, .go 0 true, .go 1 true,
    .go 0 true, .go 1 true]) = some s ∧ Race s.tr .first 18 19 := race_of (S := []) (by decide +kernel)

/-- The hypotheses of `C136_partial`: 0 sends, 1 is told and receives twice while 0 sends again, 2 ends the stream. -/
example : (xmRun ([.share 0 1, .share 0 2] ++ exOpen ++ [.hand 0 5, .take 1 5])).map (fun s => (s.told 1, s.wset, s.rset)) = some (true, true, true) ∧
    (xmRun ([.share 0 1, .share 0 2] ++ exOpen ++ [.hand 0 5, .take 1 5, .recv 1, .send 0, .go 1 true, .go 1 true, .go 0 true, .go 1 true, .go 1 true, .recv 1,
      .go 0 true, .go 1 true, .go 0 true, .go 1 true, .go 0 true, .fin 2, .go 1 true, .go 2 true, .go 2 true, .go 2 true, .go 2 true, .go 2 true])).map
      (fun s => (s.pc 0, s.pc 1, s.pc 2, s.fset, s.closed, s.tr.length)) = some (.idle, .idle, .idle, true, true, 34) := by decide +kernel

/-! ## End does not use a stream writer that is not there -/

structure XmEnd (s : XmSt) : Prop where
  ctl : XmCtl s
  set_ : ∀ g, s.pc g = .ebuf → s.wset = true

theorem XmEnd.step {s s' : XmSt} {a : XmAct} (h : XmEnd s) (hs : xmStep s a = some s') : XmEnd s' := by
  refine ⟨h.ctl.step hs, ?_⟩
  obtain ⟨⟨h1, h4⟩, h2⟩ := h
  cases a <;> simp only [xmStep] at hs <;> split at hs <;> cases hs
  case go g b hp =>
    intro g'
    have j := h1 g
    have j' := h1 g'
    have k' := h2 g'
    by_cases e : g' = g
    · subst e
      cases hq : s.pc g' <;> simp only [XmSt.next, XmSt.emit, XmSt.to, setC_self]
      all_goals grind [XmPc.sh, XmPc.ex]
    · cases hq : s.pc g <;> simp only [XmSt.next, XmSt.emit, XmSt.to, setC_ne _ _ e]
      all_goals grind [XmPc.sh, XmPc.ex]
  all_goals
    intro g' hg'
    simp only [XmSt.emit, XmSt.to, setC] at hg' ⊢
    grind

/-- **C136, End.** Whoever calls what and when: where `End` is about to use the stream writer (110), there is one. -/
theorem C136_end {acts : List XmAct} {s : XmSt} (h : xmRun acts = some s) {g : Nat} (hg : s.pc g = .ebuf) : s.wset = true :=
  (runActs_inv (P := XmEnd) (fun _ _ _ h hs => h.step hs) ⟨.init, by simp [XmSt.init]⟩ h).set_ g hg

/-- An `End` after the stream was opened gets there; one before does not. -/
example : (xmRun (exOpen ++ [.fin 0, .go 0 true, .go 0 true, .go 0 true])).map (fun s => s.pc 0) = some .ebuf ∧
    (xmRun [.fin 0, .go 0 true, .go 0 true, .go 0 true]).map (fun s => s.pc 0) = some .eout := by decide +kernel

/-! ## The first frame is waited for once -/

structure XmFst (b : Nat) (s : XmSt) : Prop where
  pc : ∀ g, (s.pc g).rc = true → g = b
  unset : ∀ g ok, s.pc g = .rget ∨ s.pc g = .r3 ok → s.fset = false

theorem XmFst.step {b : Nat} {s s' : XmSt} {act : XmAct} (h : XmFst b s) (ha : ∀ g, act = .recv g → g = b)
    (hs : xmStep s act = some s') : XmFst b s' := by
  obtain ⟨h1, h2⟩ := h
  cases act <;> simp only [xmStep] at hs <;> split at hs <;> cases hs
  case go g c hp =>
    have j := h1 g
    have k := h2 g
    refine ⟨fun g' => ?_, fun g' ok => ?_⟩
    all_goals
      have j' := h1 g'
      have k' := h2 g'
      by_cases e : g' = g
      · subst e
        cases hq : s.pc g' <;> simp only [XmSt.next, XmSt.emit, XmSt.to, setC_self]
        all_goals grind [XmPc.rc]
      · cases hq : s.pc g <;> simp only [XmSt.next, XmSt.emit, XmSt.to, setC_ne _ _ e]
        all_goals grind [XmPc.rc]
  all_goals
    refine ⟨fun g' => ?_, fun g' ok => ?_⟩
    all_goals
      have j' := h1 g'
      have k' := h2 g'
      simp only [XmSt.emit, XmSt.to, setC]
      grind [XmPc.rc]

/-- **C136, first frame.** If one goroutine receives, a `Receive` waits for the first frame (122) only while there is none; so once it has
come, every later `Receive` takes the next frame. -/
theorem C136_first_partial {b : Nat} {acts : List XmAct} {s : XmSt} (h : xmRun acts = some s) (hrecv : ∀ g, .recv g ∈ acts → g = b) {g : Nat}
    (hg : s.pc g = .rget) : s.fset = false := by
  have gen : ∀ (acts : List XmAct) (u v : XmSt), runActs xmStep u acts = some v → (∀ g, .recv g ∈ acts → g = b) → XmFst b u → XmFst b v := by
    intro acts
    induction acts with
    | nil => intro u v hr _ h1; simp only [runActs, Option.some.injEq] at hr; subst hr; exact h1
    | cons act acts ih =>
      intro u v hr k h1
      rw [runActs] at hr
      cases hs : xmStep u act with
      | none => rw [hs] at hr; cases hr
      | some u' => rw [hs] at hr; exact ih u' v hr (fun g hg => k g (.tail _ hg)) (h1.step (fun g e => k g (e ▸ .head _)) hs)
  exact (gen acts _ s h hrecv ⟨fun g hg => (by cases hg), fun g ok hg => rfl⟩).unset g true (.inl hg)

/-- The first `Receive` gets there, the second one goes on to the next frame. -/
example : (xmRun (exOpen ++ [.recv 0, .go 0 true, .go 0 true])).map (fun s => (s.pc 0, s.fset)) = some (.rget, false) ∧
    (xmRun (exOpen ++ [.recv 0, .go 0 true, .go 0 true, .go 0 true, .go 0 true, .recv 0, .go 0 true, .go 0 true])).map (fun s => (s.pc 0, s.fset)) =
      some (.r4, true) := by decide +kernel

end Qrpc
