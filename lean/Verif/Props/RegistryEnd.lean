import Verif.Props.Registry
import Verif.Lemmas.Measure
/-! # C33, C35: every Close and every SetID returns -/
namespace Qrpc

/-- Connections that the SetID of `c` has displaced so far. -/
def disps (s : QSt) (c : Nat) : Nat := (s.log.filterMap (dispOf c)).length

/-- Steps that the SetID of `c` takes at most when it tries to store `c`. -/
def bindRank (s : QSt) (c : Nat) : Nat := 2 + 14 * (s.n - disps s c)

def QK.rank (s : QSt) : QK → Nat
  | .close => 0
  | .kick c _ => bindRank s c + 1

/-- How many steps a goroutine inside Close, SetID or NotifyWhenClose takes at most, callbacks not counted. -/
def QPc.rank (s : QSt) : QPc → Nat
  | .idle => 0
  | .callNow _ => 0
  | .notifyLock _ => 2
  | .setLock _ _ => 3 + 14 * s.n
  | .bind c _ _ => bindRank s c
  | .loadKo _ _ _ => 1
  | .addKick c _ => bindRank s c + 1
  | .utCas _ k => k.rank s + 9
  | .utGetId _ k => k.rank s + 8
  | .utDel _ k _ => k.rank s + 7
  | .utActive _ k => k.rank s + 6
  | .utKick _ k => k.rank s + 5
  | .utCloseCh _ k => k.rank s + 4
  | .utWait _ k => k.rank s + 4
  | .cuLock _ k => k.rank s + 3
  | .cuCancel _ k _ => k.rank s + 2
  | .cuNotify _ k _ => k.rank s + 1

theorem QInv.disps_le {s : QSt} (h : QInv s) (hl : s.late = false) (c : Nat) : disps s c ≤ s.n := by
  have := ((h.l hl).disp_nd c).length_le_of_subset (l₂ := List.range s.n) (by
    intro v hv
    obtain ⟨e, he, h1⟩ := List.mem_filterMap.mp hv
    cases e <;> simp [dispOf] at h1
    exact List.mem_range.mpr (h1.2 ▸ (h.c.disp_id _ _ _ he).2))
  simpa [disps] using this

theorem QInv.called_le {s : QSt} (h : QInv s) : s.called.length ≤ s.nextT := by
  have := h.b.nd_c.length_le_of_subset (l₂ := List.range s.nextT) (by
    intro t ht
    exact List.mem_range.mpr (h.b.called_lt t ht).1)
  simpa using this

theorem disps_snoc (l : List QEv) (c : Nat) (e : QEv) :
    ((l ++ [e]).filterMap (dispOf c)).length = (l.filterMap (dispOf c)).length + (if (dispOf c e).isSome then 1 else 0) := by
  rw [List.filterMap_append, List.length_append]
  congr 1
  cases h : dispOf c e <;> simp [h]

theorem late_mono {s s' : QSt} {a : QAct} (hs : qStep s a = some s') (hl : s'.late = false) : s.late = false := by
  qstep_cases hs a
  all_goals simp_all

theorem late_mono_run : ∀ (as : List QAct) (s s' : QSt), runActs qStep s as = some s' → s'.late = false → s.late = false := by
  intro as
  induction as with
  | nil => intro s s' h hl; simp only [runActs, Option.some.injEq] at h; subst h; exact hl
  | cons a as ih =>
    intro s s' h hl
    rw [runActs] at h
    cases h1 : qStep s a with
    | none => rw [h1] at h; simp at h
    | some s1 => rw [h1] at h; exact late_mono h1 (ih s1 s' h hl)

/-- Callbacks still to be called. -/
def QSt.uncalled (s : QSt) : Nat := s.nextT - s.called.length

set_option maxHeartbeats 8000000 in
theorem qRank_step {s s' : QSt} {i : Nat} (hI : QInv s) (hI' : QInv s') (hl : s'.late = false) (hs : qStep s (.go i) = some s') :
    s.pc i ≠ .idle ∧ (∀ j, j ≠ i → s'.pc j = s.pc j ∧ (s'.pc j).rank s' ≤ (s.pc j).rank s) ∧
    (s'.pc i).rank s' + s'.uncalled < (s.pc i).rank s + s.uncalled := by
  have hd := hI'.disps_le hl
  have hc := hI'.called_le
  have hc0 := hI.called_le
  have mono : ∀ c, disps s c ≤ disps s' c := by
    intro c
    clear hd hc hc0 hI hI' hl
    unfold disps
    simp only [qStep] at hs
    repeat' (split at hs)
    all_goals try simp only [Option.some.injEq, reduceCtorEq] at hs
    all_goals try contradiction
    all_goals subst hs
    all_goals simp only [disps_snoc]
    all_goals first
      | exact Nat.le_refl _
      | exact Nat.le_add_right _ _
  have hn : s'.n = s.n := by
    clear hd hc hc0 hI hI' hl mono
    simp only [qStep] at hs
    repeat' (split at hs)
    all_goals try simp only [Option.some.injEq, reduceCtorEq] at hs
    all_goals try contradiction
    all_goals subst hs
    all_goals rfl
  have hb : ∀ c, bindRank s' c ≤ bindRank s c := by
    intro c
    have := mono c
    unfold bindRank
    rw [hn]
    omega
  have hk : ∀ k : QK, k.rank s' ≤ k.rank s := by
    intro k
    cases k with
    | close => exact Nat.le_refl _
    | kick c id => have := hb c; simp only [QK.rank]; omega
  have hmono : ∀ p : QPc, p.rank s' ≤ p.rank s := by
    intro p
    cases p with
    | bind c id k => exact hb c
    | addKick c id => have := hb c; simp only [QPc.rank]; omega
    | utCas v k => have := hk k; simp only [QPc.rank]; omega
    | utGetId v k => have := hk k; simp only [QPc.rank]; omega
    | utDel v k => have := hk k; simp only [QPc.rank]; omega
    | utActive v k => have := hk k; simp only [QPc.rank]; omega
    | utKick v k => have := hk k; simp only [QPc.rank]; omega
    | utCloseCh v k => have := hk k; simp only [QPc.rank]; omega
    | utWait v k => have := hk k; simp only [QPc.rank]; omega
    | cuLock v k => have := hk k; simp only [QPc.rank]; omega
    | cuCancel v k => have := hk k; simp only [QPc.rank]; omega
    | cuNotify v k => have := hk k; simp only [QPc.rank]; omega
    | _ => simp only [QPc.rank, hn, Nat.le_refl]
  have hpc : ∀ j, j ≠ i → s'.pc j = s.pc j := by
    intro j hj
    clear hd hc hc0 hI hI' hl mono hn hb hk hmono
    simp only [qStep] at hs
    repeat' (split at hs)
    all_goals try simp only [Option.some.injEq, reduceCtorEq] at hs
    all_goals try contradiction
    all_goals subst hs
    all_goals simp [setAt, hj]
  refine ⟨?_, fun j hj => ?_, ?_⟩
  · intro hp; simp [qStep, hp] at hs
  · rw [hpc j hj]; exact ⟨rfl, hmono _⟩
  · clear hI hI' hmono hb hk hpc hn
    unfold QSt.uncalled
    unfold disps at hd mono
    simp only [qStep] at hs
    repeat' (split at hs)
    all_goals try simp only [Option.some.injEq, reduceCtorEq] at hs
    all_goals try contradiction
    all_goals subst hs
    all_goals simp only [setAt, if_true, disps_snoc, dispOf] at hd mono hc ⊢
    all_goals simp_all only []
    all_goals simp only [QPc.rank, QK.rank, bindRank, disps, disps_snoc, dispOf, List.length_append, List.length_cons, List.length_nil] at *
    all_goals try omega
    rename_i c _ _ _ _ _ _ _
    have h1 := hd c
    simp only [if_true, Option.isSome_some] at h1 ⊢
    omega

/-- What the goroutine has been called for. -/
inductive QTask where
  | close (v : Nat) | set (c id : Nat)
deriving DecidableEq

def QK.task (v : Nat) : QK → QTask
  | .close => .close v
  | .kick c id => .set c id

def QPc.task : QPc → Option QTask
  | .setLock c id | .bind c id _ | .loadKo c id _ | .addKick c id => some (.set c id)
  | .utCas v k | .utWait v k | .utGetId v k | .utDel v k _ | .utActive v k | .utKick v k | .utCloseCh v k
  | .cuLock v k | .cuCancel v k _ | .cuNotify v k _ => some (k.task v)
  | _ => none

/-- The call has returned. -/
def QTask.doneIn : QTask → List QEv → Prop
  | .close v, l => .closeRet v ∈ l
  | .set c id, l => (∃ k x, .setRet c id k x ∈ l) ∨ .setPanic c ∈ l

set_option maxHeartbeats 8000000 in
theorem task_step {s s' : QSt} {i j : Nat} {t : QTask} (hs : qStep s (.go j) = some s') (h : (s.pc i).task = some t ∨ t.doneIn s.log) :
    (s'.pc i).task = some t ∨ t.doneIn s'.log := by
  simp only [qStep] at hs
  repeat' (split at hs)
  all_goals try simp only [Option.some.injEq, reduceCtorEq] at hs
  all_goals try contradiction
  all_goals subst hs
  all_goals cases t
  all_goals simp only [QTask.doneIn, List.mem_append, List.mem_singleton] at h ⊢
  all_goals try grind [setAt, QPc.task, QK.task]
  all_goals
    by_cases hij : i = j
    · subst hij
      rcases h with h | ⟨k, x, h⟩ | h
      · refine .inr (.inl ?_)
        simp_all only [QPc.task, Option.some.injEq, QTask.set.injEq]
        exact ⟨_, _, .inr rfl⟩
      · exact .inr (.inl ⟨k, x, .inl h⟩)
      · exact .inr (.inr (.inl h))
    · rcases h with h | ⟨k, x, h⟩ | h
      · exact .inl (by simpa [setAt, hij] using h)
      · exact .inr (.inl ⟨k, x, .inl h⟩)
      · exact .inr (.inr (.inl h))

/-- No goroutine can take a step. -/
def QSt.AtRest (s : QSt) : Prop := ∀ i, qStep s (.go i) = none

/-- **C33, C35: every call returns.** Let goroutines call Close, SetID and NotifyWhenClose in any way, up to a state `s` in
which all those inside a call are among the first `N`; from there on let them run in any order without new calls, and assume
that up to the end no connection is closed before or during its SetID (otherwise: `C35_refuted_loop`). Then the number of
their steps, callbacks included, is bounded, so they do come to rest; and at rest every one of them has returned. -/
theorem C35_all_return_partial {acts : List QAct} {s s' : QSt} {sched : List Nat} {N : Nat} (h : qRun acts = some s)
    (hN : ∀ i, N ≤ i → s.pc i = .idle) (hm : runActs qStep s (sched.map .go) = some s') (hl : s'.late = false) :
    sched.length ≤ sumTo N (fun i => (s.pc i).rank s) + s.uncalled ∧
    (s'.AtRest → ∀ i, s'.pc i = .idle ∧ ∀ t, (s.pc i).task = some t → t.doneIn s'.log) := by
  have hI := QInv.reach h
  have h' : qRun (acts ++ sched.map .go) = some s' := by
    unfold qRun at h ⊢; rw [runActs_append, h]; exact hm
  constructor
  · have key : ∀ (sched : List Nat) (s : QSt), QInv s → (∀ i, N ≤ i → s.pc i = .idle) → runActs qStep s (sched.map .go) = some s' →
        sched.length + (sumTo N (fun i => (s'.pc i).rank s') + s'.uncalled) ≤ sumTo N (fun i => (s.pc i).rank s) + s.uncalled := by
      intro sched
      induction sched with
      | nil => intro s _ _ h; simp only [List.map_nil, runActs, Option.some.injEq] at h; subst h; simp
      | cons a as ih =>
        intro s hI hN h
        rw [List.map_cons, runActs] at h
        cases h1 : qStep s (.go a) with
        | none => rw [h1] at h; simp at h
        | some s1 =>
          rw [h1] at h
          have hl1 := late_mono_run _ _ _ h hl
          obtain ⟨h2, h3, h4⟩ := qRank_step hI (hI.step h1) hl1 h1
          have hlt : a < N := by
            rcases Nat.lt_or_ge a N with h | h
            · exact h
            · exact absurd (hN _ h) h2
          have := ih s1 (hI.step h1) (fun j hj => by rw [(h3 j (by omega)).1]; exact hN j hj) h
          have h5 := sumTo_change (n := N) (f := fun i => if i = a then (s.pc i).rank s else (s1.pc i).rank s1)
            (g := fun i => (s1.pc i).rank s1) hlt (fun i hi => by simp [hi])
          have h6 : sumTo N (fun i => if i = a then (s.pc i).rank s else (s1.pc i).rank s1) ≤ sumTo N (fun i => (s.pc i).rank s) := by
            refine sumTo_le fun j _ => ?_
            by_cases hj : j = a
            · simp [hj]
            · simp only [hj, if_false]; exact (h3 j hj).2
          simp only [if_true] at h5
          simp only [List.length_cons]
          omega
    have := key sched s hI hN hm
    omega
  · intro hq i
    have hidle : s'.pc i = .idle := by
      cases hd : decide (s'.pc i = .idle) with
      | true => exact of_decide_eq_true hd
      | false =>
        rcases C33_progress h' i (of_decide_eq_false hd) with ⟨s2, h2⟩ | ⟨_, j, _, _, s2, h2⟩
        · rw [hq i] at h2; simp at h2
        · rw [hq j] at h2; simp at h2
    refine ⟨hidle, fun t ht => ?_⟩
    have hk : ∀ (sched : List Nat) (s : QSt), runActs qStep s (sched.map .go) = some s' → ((s.pc i).task = some t ∨ t.doneIn s.log) →
        ((s'.pc i).task = some t ∨ t.doneIn s'.log) := by
      intro sched
      induction sched with
      | nil => intro s h ht; simp only [List.map_nil, runActs, Option.some.injEq] at h; subst h; exact ht
      | cons a as ih =>
        intro s h ht
        rw [List.map_cons, runActs] at h
        cases h1 : qStep s (.go a) with
        | none => rw [h1] at h; simp at h
        | some s1 => rw [h1] at h; exact ih s1 h (task_step h1 ht)
    rcases hk sched s hm (.inl ht) with h1 | h1
    · simp [hidle, QPc.task] at h1
    · exact h1

/-- Its hypotheses: in `exKick` connection 1 is displacing connection 0 while two goroutines close connection 0. -/
example : (qRun (exKick.take 14)).map (fun s => (s.pc 0, s.pc 1, s.pc 2, s.late)) =
    some (.utGetId 0 (.kick 1 7), .utWait 0 .close, .utWait 0 .close, false) := by rfl
example : (qRun exKick).map (fun s => (s.pc 0, s.pc 1, s.pc 2, s.late)) = some (.idle, .idle, .idle, false) := by rfl

/-! ## Close alone, in every execution -/

/-- Steps left of a Close call, if at most `T` callbacks are registered. -/
def QPc.closeRank (T : Nat) : QPc → Nat
  | .utCas _ _ => T + 9
  | .utGetId _ _ => T + 8
  | .utDel _ _ _ => T + 7
  | .utActive _ _ => T + 6
  | .utKick _ _ => T + 5
  | .utCloseCh _ _ => T + 4
  | .utWait _ _ => T + 4
  | .cuLock _ _ => T + 3
  | .cuCancel _ _ l => l.length + 2
  | .cuNotify _ _ l => l.length + 1
  | _ => 0

def QK.isClose : QK → Bool
  | .close => true
  | .kick _ _ => false

/-- Inside a Close call, or idle. -/
def QPc.closing : QPc → Bool
  | .idle => true
  | .utCas _ k | .utGetId _ k | .utDel _ k _ | .utActive _ k | .utKick _ k | .utCloseCh _ k | .utWait _ k | .cuLock _ k
  | .cuCancel _ k _ | .cuNotify _ k _ => k.isClose
  | _ => false

/-- Goroutine `i` makes no new call. -/
def QAct.noCall (i : Nat) : QAct → Bool
  | .setID j _ _ | .close j _ | .notify j _ => j != i
  | _ => true

theorem nextT_mono {s s' : QSt} {a : QAct} (hs : qStep s a = some s') : s.nextT ≤ s'.nextT := by
  qstep_cases hs a
  all_goals simp

theorem nextT_mono_run {as : List QAct} {s s' : QSt} (h : runActs qStep s as = some s') : s.nextT ≤ s'.nextT := by
  refine runActs_inv (P := fun x => s.nextT ≤ x.nextT) ?_ (Nat.le_refl _) h
  intro x a x' hx hs
  exact Nat.le_trans hx (nextT_mono hs)

theorem QInv.notify_le {s : QSt} (h : QInv s) (v : Nat) : (s.notify v).length ≤ s.nextT := by
  have := (h.b.nd_n v).length_le_of_subset (l₂ := List.range s.nextT) (by
    intro t ht
    exact List.mem_range.mpr (h.b.reg v t ht).1)
  simpa using this

set_option maxHeartbeats 8000000 in
theorem closeRank_step {s s' : QSt} {a : QAct} {i T : Nat} (hI : QInv s) (hT : s.nextT ≤ T) (hc : (s.pc i).closing = true)
    (ha : a.noCall i = true) (hs : qStep s a = some s') :
    (s'.pc i).closing = true ∧ (s'.pc i).closeRank T + (if a = .go i then 1 else 0) ≤ (s.pc i).closeRank T := by
  have hn := hI.notify_le
  clear hI
  qstep_cases hs a
  all_goals simp only [QAct.noCall, bne_iff_ne, ne_eq] at ha
  all_goals simp only [QAct.go.injEq, reduceCtorEq, if_false]
  all_goals try first
    | grind [setAt, QPc.closing, QPc.closeRank, QK.isClose]

/-- **C33, Close takes a bounded number of steps** of its own in every execution, whatever the others do (also when a SetID
loops for ever): from any point inside a Close call until the end of the execution, at most ten plus the number of callbacks
registered. With `C33_progress` (it can go on, or waits for a goroutine that can) it returns. -/
theorem C33_close_bounded {acts more : List QAct} {s s' : QSt} {i : Nat} (h : qRun acts = some s) (hc : (s.pc i).closing = true)
    (ha : ∀ a ∈ more, a.noCall i = true) (hm : runActs qStep s more = some s') :
    more.countP (· = .go i) ≤ 9 + s'.nextT + (s.pc i).hold.length := by
  have hI := QInv.reach h
  have key : ∀ (more : List QAct) (s : QSt), QInv s → (s.pc i).closing = true → (∀ a ∈ more, a.noCall i = true) →
      runActs qStep s more = some s' → more.countP (· = .go i) ≤ (s.pc i).closeRank s'.nextT := by
    intro more
    induction more with
    | nil => simp
    | cons a as ih =>
      intro s hI hc ha h
      have hT := nextT_mono_run h
      rw [runActs] at h
      cases h1 : qStep s a with
      | none => rw [h1] at h; simp at h
      | some s1 =>
        rw [h1] at h
        obtain ⟨h2, h3⟩ := closeRank_step hI hT hc (ha a (by simp)) h1
        have := ih s1 (hI.step h1) h2 (fun b hb => ha b (by simp [hb])) h
        rw [List.countP_cons]
        simp only [decide_eq_true_eq]
        omega
  have := key more s hI hc ha hm
  have h2 : (s.pc i).closeRank s'.nextT ≤ 9 + s'.nextT + (s.pc i).hold.length := by
    cases hp : s.pc i with
    | cuCancel v k l => simp [QPc.closeRank, QPc.hold] <;> omega
    | cuNotify v k l => simp [QPc.closeRank, QPc.hold] <;> omega
    | utCas v k => simp [QPc.closeRank, QPc.hold] <;> omega
    | utGetId v k => simp [QPc.closeRank, QPc.hold] <;> omega
    | utDel v k => simp [QPc.closeRank, QPc.hold] <;> omega
    | utActive v k => simp [QPc.closeRank, QPc.hold] <;> omega
    | utKick v k => simp [QPc.closeRank, QPc.hold] <;> omega
    | utCloseCh v k => simp [QPc.closeRank, QPc.hold] <;> omega
    | utWait v k => simp [QPc.closeRank, QPc.hold] <;> omega
    | cuLock v k => simp [QPc.closeRank, QPc.hold] <;> omega
    | _ => simp [QPc.closeRank]
  omega

/-- Its hypotheses: goroutine 1 of `exKick` is inside Close and takes its last steps while goroutine 0 kicks. -/
example : (qRun (exKick.take 14)).map (fun s => ((s.pc 1).closing, s.pc 1)) = some (true, .utWait 0 .close) := by rfl
example : ((exKick.drop 14).all (·.noCall 1), (exKick.drop 14).countP (· = .go 1)) = (true, 2) := by rfl

end Qrpc
