import Verif.Model.Throttle
/-! # C41: throttling -/
namespace Qrpc

macro "thstep_cases" hs:ident a:ident : tactic => `(tactic|
  (cases $a:ident <;>
   simp only [thStep] at $hs:ident <;>
   (repeat' (split at $hs:ident)) <;>
   (try simp only [Option.some.injEq, reduceCtorEq] at $hs:ident) <;>
   (try contradiction) <;>
   (try subst $hs:ident)))

/-- The controller that calls. -/
def ThAct.ctl : ThAct → Option Nat
  | .set i | .clear i => some i
  | _ => none

def ThPc.clr : ThPc → Option Nat
  | .clrClose ch => some ch
  | _ => none

/-- One controller (number 0). -/
structure ThInv (s : ThSt) : Prop where
  only : ∀ i, i ≠ 0 → s.pc i = .idle
  lt : ∀ ch, s.next ≤ ch → s.closed ch = false
  curLt : ∀ on ch, s.cur = some (on, ch) → ch < s.next
  cur : ∀ on ch, s.cur = some (on, ch) → s.closed ch = true → s.pc 0 = .clrStore
  clr : ∀ ch, s.pc 0 = .clrClose ch → (∃ on, s.cur = some (on, ch)) ∧ s.closed ch = false
  store : s.pc 0 = .setStore → ∀ ch, s.cur ≠ some (true, ch)
  clrStore : s.pc 0 = .clrStore → ∀ on ch, s.cur = some (on, ch) → s.closed ch = true
  wait : ∀ j ch, s.w j = .wait ch → s.closed ch = true ∨ s.cur = some (true, ch)

theorem ThInv.step {s s' : ThSt} {a : ThAct} (h : ThInv s) (ha : a.ctl = none ∨ a.ctl = some 0) (hs : thStep s a = some s') :
    ThInv s' := by
  obtain ⟨h1, h2, h3, h4, h5, h6, h7, h8⟩ := h
  thstep_cases hs a
  all_goals constructor
  all_goals try simp only []
  all_goals try first
    | assumption
    | grind [setAt, ThAct.ctl]

theorem ThInv.reach {acts s} (h : thRun acts = some s) (ha : ∀ a ∈ acts, a.ctl = none ∨ a.ctl = some 0) : ThInv s := by
  have gen : ∀ acts s, ThInv s → (∀ a ∈ acts, a.ctl = none ∨ a.ctl = some 0) → ∀ s', runActs thStep s acts = some s' → ThInv s' := by
    intro acts
    induction acts with
    | nil => intro s h _ s' hr; simp only [runActs, Option.some.injEq] at hr; exact hr ▸ h
    | cons a as ih =>
      intro s h hall s' hr
      simp only [runActs] at hr
      split at hr
      · cases hr
      · next s1 hs =>
        exact ih s1 (h.step (hall a (List.mem_cons_self ..)) hs) (fun b hb => hall b (List.mem_cons_of_mem _ hb)) s' hr
  refine gen acts _ ?_ ha s h
  constructor <;> simp [ThSt.init]

/-- **C41 for one controller.** If all calls of SetThrottle and ClearThrottle are made by one goroutine, in any order and any
number, then it never panics, and whenever the throttle is off, every waiter can go on.
Missing: several controllers, see the refutations. -/
theorem C41_partial {acts : List ThAct} {s : ThSt} (hrun : thRun acts = some s) (h1 : ∀ a ∈ acts, a.ctl = none ∨ a.ctl = some 0)
    (hoff : ∀ ch, s.cur ≠ some (true, ch)) {j : Nat} (hj : s.w j ≠ .idle) :
    ∃ s', thStep s (.wGo j) = some s' ∧ s'.w j = .idle := by
  have h := ThInv.reach hrun h1
  cases hw : s.w j with
  | idle => exact absurd hw hj
  | load =>
    simp only [thStep, hw]
    exact ⟨_, rfl, by simp [setAt]⟩
  | wait ch =>
    have := (h.wait j ch hw).resolve_right (hoff ch)
    simp [thStep, hw, this, setAt]

/-- A single controller never closes a channel twice. -/
theorem C41_no_panic_partial {acts : List ThAct} {s : ThSt} (hrun : thRun acts = some s)
    (h1 : ∀ a ∈ acts, a.ctl = none ∨ a.ctl = some 0) (i : Nat) : s.pc i ≠ .crashed := by
  have key : ThInv s ∧ ∀ i, s.pc i ≠ .crashed := by
    have gen : ∀ acts s, ThInv s ∧ (∀ i, s.pc i ≠ .crashed) → (∀ a ∈ acts, a.ctl = none ∨ a.ctl = some 0) →
        ∀ s', runActs thStep s acts = some s' → ThInv s' ∧ ∀ i, s'.pc i ≠ .crashed := by
      intro acts
      induction acts with
      | nil => intro s h _ s' hr; simp only [runActs, Option.some.injEq] at hr; exact hr ▸ h
      | cons a as ih =>
        intro s h hall s' hr
        simp only [runActs] at hr
        split at hr
        · cases hr
        · next s1 hs =>
          refine ih s1 ⟨h.1.step (hall a (List.mem_cons_self ..)) hs, ?_⟩ (fun b hb => hall b (List.mem_cons_of_mem _ hb)) s' hr
          have h1 := h.1.only
          have h2 := h.1.clr
          have h3 := h.2
          clear h ih hall hr
          thstep_cases hs a <;> grind [setAt]
    refine gen acts _ ⟨?_, by simp [ThSt.init]⟩ h1 s hrun
    constructor <;> simp [ThSt.init]
  exact key.2 i

/-- While throttled (and no call in progress), a loop that calls waitThrottle waits. -/
theorem C41_waits {s : ThSt} {ch j : Nat} (hc : s.cur = some (true, ch)) (hcl : s.closed ch = false) (hw : s.w j = .load) :
    ∃ s', thStep s (.wGo j) = some s' ∧ s'.w j = .wait ch ∧ thStep s' (.wGo j) = none := by
  refine ⟨_, by simp only [thStep, hw, hc]; rfl, by simp [setAt], by simp [thStep, setAt, hcl]⟩

/-- Set, two waiters, Clear, Clear, Set, a waiter, Clear: all released. -/
def exThrottle : List ThAct :=
  [.set 0, .go 0, .go 0, .wait 1, .wGo 1, .wait 2, .wGo 2, .clear 0, .go 0, .go 0, .go 0, .clear 0, .go 0, .go 0, .go 0,
   .wGo 1, .set 0, .go 0, .go 0, .wait 1, .wGo 1, .clear 0, .go 0, .go 0, .go 0]
example : (thRun exThrottle).map (fun s => (s.pc 0, s.cur, s.w 1, s.w 2, s.closed 0)) =
    some (.idle, some (false, 4), .wait 3, .wait 0, true) := by rfl
/-- The hypotheses of C41_waits hold before the first loop looks, and it waits until ClearThrottle. -/
example : (thRun (exThrottle.take 4)).map (fun s => (s.cur, s.closed 0, s.w 1)) = some (some (true, 0), false, .load) ∧
    thRun (exThrottle.take 5 ++ [.wGo 1]) = none ∧ (thRun (exThrottle.take 9 ++ [.wGo 1])).isNone = true ∧
    (thRun (exThrottle.take 11 ++ [.wGo 1])).isSome = true := by
  refine ⟨by rfl, by rfl, by rfl, by rfl⟩

/-- **C41 is false of the code**, first: two controllers that call ClearThrottle at the same time crash the process. -/
theorem C41_refuted_panic :
    (thRun [.set 0, .go 0, .go 0, .clear 0, .clear 1, .go 0, .go 1, .go 0, .go 1]).map (fun s => s.pc 1) = some .crashed := by rfl

/-- A waiter on a channel that is not current and that no controller is about to close. -/
structure ThStranded (j ch : Nat) (s : ThSt) : Prop where
  w : s.w j = .wait ch
  open_ : s.closed ch = false
  old : ch < s.next
  cur : ∀ on, s.cur ≠ some (on, ch)
  pc : ∀ i, s.pc i ≠ .clrClose ch

/-- **C41 is false of the code**, second: such a waiter is never released, whatever anybody calls afterwards. -/
theorem C41_refuted_stranded {j ch : Nat} {s s' : ThSt} {more : List ThAct} (h : ThStranded j ch s)
    (hr : runActs thStep s more = some s') : s'.w j = .wait ch ∧ thStep s' (.wGo j) = none := by
  have := runActs_inv (P := ThStranded j ch) (step := thStep) (by
    rintro s a s' ⟨h1, h2, h3, h4, h5⟩ hs
    thstep_cases hs a
    all_goals constructor
    all_goals try simp only []
    all_goals try first
      | assumption
      | grind [setAt]) h hr
  exact ⟨this.w, by simp [thStep, this.w, this.open_]⟩

/-- Two controllers that call SetThrottle at the same time strand a waiter. -/
theorem C41_refuted : ∃ s, thRun [.set 0, .set 1, .go 0, .go 1, .go 0, .wait 7, .wGo 7, .go 1] = some s ∧ ThStranded 7 0 s := by
  refine ⟨_, rfl, ⟨rfl, rfl, by decide, ?_, ?_⟩⟩
  · intro on h; cases h
  · intro i
    by_cases h0 : i = 0
    · subst h0; decide
    by_cases h1 : i = 1
    · subst h1; decide
    · simp [ThSt.init, setAt, h0, h1]

end Qrpc
