import Verif.Model.ApiAll
import Verif.Props.Api
/-! # Property C88: a call goes to an endpoint of the list -/
namespace Qrpc

theorem idxMapFrom_some (xs : List Nat) : ∀ (k : Nat) (m : Nat → Option Nat) (e i : Nat), idxMapFrom k m xs e = some i →
    (m e = some i ∧ e ∉ xs) ∨ ∃ j, i = k + j ∧ xs[j]? = some e ∧ ∀ j', j < j' → xs[j']? ≠ some e := by
  induction xs with
  | nil => intro k m e i h; exact .inl ⟨h, by simp⟩
  | cons x xs ih =>
    intro k m e i h
    simp only [idxMapFrom] at h
    rcases ih _ _ _ _ h with ⟨h1, h2⟩ | ⟨j, h1, h2, h3⟩
    · split at h1
      · next hx =>
        refine .inr ⟨0, by simpa using h1.symm, by simp [hx], ?_⟩
        intro j' hj' hm
        obtain ⟨j'', rfl⟩ : ∃ j'', j' = j'' + 1 := ⟨j' - 1, by omega⟩
        simp only [List.getElem?_cons_succ] at hm
        exact h2 (List.mem_of_getElem? hm)
      · next hx => exact .inl ⟨h1, by simp [h2]; exact hx⟩
    · refine .inr ⟨j + 1, by omega, by simpa using h2, ?_⟩
      intro j' hj' hm
      obtain ⟨j'', rfl⟩ : ∃ j'', j' = j'' + 1 := ⟨j' - 1, by omega⟩
      exact h3 j'' (by omega) (by simpa using hm)

theorem idxMapFrom_none (xs : List Nat) : ∀ (k : Nat) (m : Nat → Option Nat) (e : Nat),
    idxMapFrom k m xs e = none ↔ m e = none ∧ e ∉ xs := by
  induction xs with
  | nil => intro k m e; simp [idxMapFrom]
  | cons x xs ih =>
    intro k m e
    simp only [idxMapFrom, ih, List.mem_cons, not_or]
    by_cases hx : e = x <;> simp [hx]

/-- **C88, CallOne's endpoint.** The index used for an endpoint is the last one in the list with that endpoint; an endpoint that
is not in the list is refused. -/
theorem C88_one (c : ApiConf) (e : Nat) :
    (c.idxMap e = none ↔ e ∉ c.eps) ∧
    (∀ i, c.idxMap e = some i → c.eps[i]? = some e ∧ ∀ j, i < j → c.eps[j]? ≠ some e) := by
  refine ⟨by simp [ApiConf.idxMap, idxMapFrom_none], fun i h => ?_⟩
  rcases idxMapFrom_some _ _ _ _ _ h with h1 | ⟨j, h1, h2, h3⟩
  · simp at h1
  · have : i = j := by omega
    subst this
    exact ⟨h2, h3⟩

example : (⟨[10, 20, 10], none⟩ : ApiConf).idxMap 10 = some 2 ∧ (⟨[10, 20, 10], none⟩ : ApiConf).idxMap 20 = some 1 ∧
    (⟨[10, 20, 10], none⟩ : ApiConf).idxMap 30 = none := by decide

/-- All indices the goroutines work with. -/
def APc.idx : APc → Option Nat
  | .load _ i | .req _ i _ _ | .cls _ i _ _ | .delLock _ i _ _ | .del1 _ i _ _ | .del2 _ i _ _ | .delUn _ i _ | .ncLock _ i
  | .ncLoad _ i | .ncCheck _ i | .ncDial _ i | .ncErr _ i | .ncSt1 _ i _ | .ncSt2 _ i _ | .ncUn _ i _ | .wait _ i _ => some i
  | _ => none

/-- All indices are in range. -/
structure AIdx (n : Nat) (s : ASt) : Prop where
  pc : ∀ i k, (s.pc i).idx = some k → k < n
  act : ∀ c k, s.active c = some k → k < n

theorem AIdx.step {n : Nat} {s s' : ASt} {a : AAct} (h : AIdx n s) (hs : aStep s a = some s')
    (hc : ∀ i k, a = .call i k ∨ a = .callOne i k → k < n) : AIdx n s' := by
  obtain ⟨h1, h2⟩ := h
  astep_cases hs a
  all_goals refine ⟨?_, ?_⟩
  all_goals try simp only []
  all_goals try first
    | assumption
    | grind [setAt, APc.idx, ASt.fail]

theorem getIdx_lt {c : ApiConf} (hw : c.weights.length ≤ c.eps.length) {t : Nat} (ht : (t : Int) < c.total) :
    (getIdx c.weights t).1 < c.eps.length := Nat.lt_of_lt_of_le (C48_no_fallback ht).2 hw

/-- **C88, in range.** When there are no more weights than endpoints (or none given): in every execution all indices of
endpoints are in range, the execution is one of `Model/Api.lean` - so C49 and C50 hold for it -, and nobody panics. Missing: with
more weights than endpoints see `C88_refuted`. -/
theorem C88_partial {c : ApiConf} (hw : c.weights.length ≤ c.eps.length) {ok : Nat → Bool} {acts : List EpAct} {s : ASt}
    (hrun : epRun c ok acts = some s) :
    (∃ as, aRun c.eps.length ok as = some s) ∧ (∀ i k, (s.pc i).idx = some k → k < c.eps.length) ∧ ∀ i, s.pc i ≠ .panicked := by
  have key : (∃ as, aRun c.eps.length ok as = some s) ∧ AIdx c.eps.length s := by
    refine runActs_inv (P := fun s => (∃ as, aRun c.eps.length ok as = some s) ∧ AIdx c.eps.length s) ?_ ⟨⟨[], rfl⟩, ?_⟩ hrun
    · intro s a s' ⟨⟨as, h⟩, hI⟩ hs
      have one : ∀ b, aStep s b = some s' → (∀ i k, b = .call i k ∨ b = .callOne i k → k < c.eps.length) →
          (∃ as, aRun c.eps.length ok as = some s') ∧ AIdx c.eps.length s' := by
        intro b hb hc
        refine ⟨⟨as ++ [b], ?_⟩, hI.step hb hc⟩
        rw [aRun, runActs_append, show runActs aStep (ASt.init c.eps.length ok) as = some s from h]
        simp [runActs, hb]
      cases a with
      | call i t =>
        simp only [epStep] at hs
        split at hs
        · next ht =>
          refine one _ hs ?_
          intro j k hk
          have h1 := hk.resolve_right (by simp)
          simp only [AAct.call.injEq] at h1
          rw [← h1.2]; exact getIdx_lt hw ht
        · simp at hs
      | callOne i ep =>
        simp only [epStep] at hs
        split at hs
        · next idx hi =>
          refine one _ hs ?_
          intro j k hk
          have h1 := hk.resolve_left (by simp)
          simp only [AAct.callOne.injEq] at h1
          have := ((C88_one c ep).2 idx hi).1
          rw [← h1.2]; exact (List.getElem?_eq_some_iff.1 this).1
        · split at hs
          · simp only [Option.some.injEq] at hs; subst hs; exact ⟨⟨as, h⟩, hI⟩
          · simp at hs
      | other a =>
        simp only [epStep] at hs
        split at hs
        · simp at hs
        · next hc =>
          have hc' : ∀ i k, a = .call i k ∨ a = .callOne i k → k < c.eps.length := by
            intro i k hk; rcases hk with rfl | rfl <;> simp [AAct.isCall] at hc
          cases a with
          | res i ok' =>
            simp only [] at hs
            split at hs
            · next ho =>
              exfalso
              cases hp : s.pc i <;> rw [hp] at ho <;> simp [APc.outOfRange] at ho
              next m idx =>
              have := hI.pc i idx (by rw [hp]; rfl)
              omega
            · exact one _ hs hc'
          | _ => exact one _ hs hc'
    · refine ⟨by intro i k; simp [ASt.init, APc.idx], ?_⟩
      intro cc k
      simp only [ASt.init]
      split
      · next hh => simp only [Bool.and_eq_true, decide_eq_true_eq] at hh; intro he; simp only [Option.some.injEq] at he; omega
      · simp
  obtain ⟨⟨as, h1⟩, h2⟩ := key
  exact ⟨⟨as, h1⟩, h2.pc, fun i => C49_no_panic h1 i⟩

/-- Goroutine `i` has panicked inside the mutex. -/
structure EStuck (i : Nat) (s : ASt) : Prop where
  pc : s.pc i = .panicked
  mu : s.mu = some i
  only : ∀ j, (s.pc j).holds = true → j = i

/-- Waiting for the mutex. -/
def APc.locking : APc → Bool
  | .ncLock .. | .delLock .. | .clLock => true
  | _ => false

theorem EStuck.aStep {i : Nat} {s s' : ASt} {a : AAct} (h : EStuck i s) (hs : aStep s a = some s') :
    EStuck i s' ∧ ∀ j, (s.pc j).locking = true → s'.pc j = s.pc j := by
  obtain ⟨h1, h2, h3⟩ := h
  astep_cases hs a
  all_goals refine ⟨⟨?_, ?_, ?_⟩, ?_⟩
  all_goals try simp only []
  all_goals try first
    | assumption
    | grind [setAt, APc.holds, APc.locking]

theorem EStuck.step {c : ApiConf} {i : Nat} {s s' : ASt} {a : EpAct} (h : EStuck i s) (hs : epStep c s a = some s') :
    EStuck i s' ∧ ∀ j, (s.pc j).locking = true → s'.pc j = s.pc j := by
  cases a with
  | call k t =>
    simp only [epStep] at hs
    split at hs
    · exact h.aStep hs
    · simp at hs
  | callOne k ep =>
    simp only [epStep] at hs
    split at hs
    · exact h.aStep hs
    · split at hs
      · simp only [Option.some.injEq] at hs; subst hs; exact ⟨h, fun _ _ => rfl⟩
      · simp at hs
  | other a =>
    simp only [epStep] at hs
    split at hs
    · simp at hs
    · cases a with
      | res k ok' =>
        simp only [] at hs
        split at hs
        · next ho =>
          exfalso
          have hk : k = i := h.only k (by cases hp : s.pc k <;> rw [hp] at ho <;> simp_all [APc.outOfRange, APc.holds])
          subst hk
          rw [h.pc] at ho
          simp [APc.outOfRange] at ho
        · exact h.aStep hs
      | _ => exact h.aStep hs

/-- **C88 is false** when there are more weights than endpoints: a draw may give an index outside the list. The call panics with
the mutex locked (api.go:152, 209). If the program survives - the caller recovers -, then in every continuation the mutex stays
locked: whoever waits for it - calls that have to dial, calls whose connection failed, Close - waits forever. -/
theorem C88_refuted {c : ApiConf} {i : Nat} {s s' : ASt} {more : List EpAct} (h : EStuck i s)
    (hmore : runActs (epStep c) s more = some s') :
    EStuck i s' ∧ ∀ j, (s.pc j).locking = true → s'.pc j = s.pc j := by
  induction more generalizing s with
  | nil => simp only [runActs, Option.some.injEq] at hmore; subst hmore; exact ⟨h, fun _ _ => rfl⟩
  | cons a as ih =>
    simp only [runActs] at hmore
    split at hmore
    · simp at hmore
    · next s1 hs =>
      have h1 := h.step hs
      have h2 := ih h1.1 hmore
      refine ⟨h2.1, fun j hj => ?_⟩
      have h3 := h1.2 j hj
      rw [h2.2 j (by rw [h3]; exact hj), h3]

/-- One endpoint, weights 1 and 1. -/
def exTwoW : ApiConf := ⟨[10], some [1, 1]⟩

/-- Goroutine 0 draws 1; it panics; then goroutine 1, whose connection has failed, and goroutine 2, which closes the API, wait. -/
def exOut : List EpAct := [.callOne 1 10, .other (.go 1), .other (.res 1 false), .other (.go 1), .call 0 1, .other (.go 0), .other (.go 0),
  .other (.go 0), .other (.go 0), .other (.res 0 true), .other (.close 2)]

theorem C88_refuted_example : ∃ s, epRun exTwoW (fun _ => true) exOut = some s ∧ EStuck 0 s ∧ s.pc 1 = .delLock .one 0 0 true ∧
    s.pc 2 = .clLock := by
  refine ⟨_, rfl, ⟨rfl, rfl, ?_⟩, rfl, rfl⟩
  intro j hj
  by_cases h0 : j = 0
  · exact h0
  · by_cases h1 : j = 1
    · subst h1; simp [setAt, APc.holds] at hj
    · by_cases h2 : j = 2
      · subst h2; simp [setAt, APc.holds] at hj
      · simp [setAt, h0, h1, h2, APc.holds, ASt.init] at hj

/-- No endpoints: there is no draw; `rand.Intn(0)` panics in every Call. -/
example : (⟨[], none⟩ : ApiConf).total = 0 := by rfl

/-- A run with two endpoints and weights 2 and 3: the hypothesis of `C88_partial` holds. -/
example : (epRun ⟨[10, 20], some [2, 3]⟩ (fun _ => true) [.call 0 4, .other (.go 0), .other (.res 0 true), .callOne 1 10,
    .other (.go 1)]).map (fun s => (s.pc 0, s.pc 1)) = some (.wait .first 1 1, .req .one 0 0 true) ∧
    (⟨[10, 20], some [2, 3]⟩ : ApiConf).weights.length ≤ (⟨[10, 20], some [2, 3]⟩ : ApiConf).eps.length := by
  decide +kernel

/-! ## CallAll -/

theorem callAll_snoc {R : Type} (eps : List Nat) (res : Nat → R) (order : List Nat) (i e : Nat) (he : eps[i]? = some e) :
    callAll eps res (order ++ [i]) = mapPut (callAll eps res order) e (res i) := by
  simp [callAll, List.foldl_append, he]

theorem nodup_getElem_inj {l : List Nat} (hn : l.Nodup) {i j : Nat} (hi : i < l.length) (hj : j < l.length) (h : l[i] = l[j]) :
    i = j := by
  rw [List.nodup_iff_pairwise_ne, List.pairwise_iff_getElem] at hn
  rcases Nat.lt_trichotomy i j with hlt | he | hgt
  · exact absurd h (hn i j hi hj hlt)
  · exact he
  · exact absurd h.symm (hn j i hj hi hgt)

/-- **C88, CallAll.** In whatever order the calls finish: the result has an entry for every endpoint of the list and for nothing
else; each entry is the result of a call of that endpoint; if no endpoint is listed twice, the entry of `eps[i]` is the result of
call `i`. -/
theorem C88_all {R : Type} (eps : List Nat) (res : Nat → R) {order : List Nat} (hp : order.Perm (List.range eps.length)) :
    (∀ e, (callAll eps res order e).isSome ↔ e ∈ eps) ∧
    (∀ e r, callAll eps res order e = some r → ∃ i, eps[i]? = some e ∧ r = res i) ∧
    (eps.Nodup → ∀ i e, eps[i]? = some e → callAll eps res order e = some (res i)) := by
  have gen : ∀ l : List Nat, (∀ e r, callAll eps res l e = some r → ∃ i, eps[i]? = some e ∧ r = res i) ∧
      (∀ i e, i ∈ l → eps[i]? = some e → (callAll eps res l e).isSome) := by
    have hrev : ∀ l : List Nat, (∀ e r, callAll eps res l.reverse e = some r → ∃ i, eps[i]? = some e ∧ r = res i) ∧
      (∀ i e, i ∈ l.reverse → eps[i]? = some e → (callAll eps res l.reverse e).isSome) := by
      intro l
      induction l with
      | nil => simp [callAll]
      | cons i l ih =>
        rw [List.reverse_cons]
        cases hi : eps[i]? with
        | none =>
          have : callAll eps res (l.reverse ++ [i]) = callAll eps res l.reverse := by simp [callAll, List.foldl_append, hi]
          rw [this]
          refine ⟨ih.1, fun j e hj he => ?_⟩
          rcases List.mem_append.1 hj with hj | hj
          · exact ih.2 j e hj he
          · rw [List.mem_singleton.1 hj, hi] at he; simp at he
        | some e' =>
          rw [callAll_snoc _ _ _ _ _ hi]
          constructor
          · intro e r h
            simp only [mapPut] at h
            split at h
            · next hee => simp only [Option.some.injEq] at h; exact ⟨i, hee ▸ hi, h.symm⟩
            · exact ih.1 e r h
          · intro j e hj he
            simp only [mapPut]
            split
            · rfl
            · next hne =>
              rcases List.mem_append.1 hj with hj | hj
              · exact ih.2 j e hj he
              · rw [List.mem_singleton.1 hj, hi] at he; simp at he; exact absurd he.symm hne
    intro l
    have := hrev l.reverse
    rwa [List.reverse_reverse] at this
  have hmem : ∀ i e, eps[i]? = some e → i ∈ order := by
    intro i e he
    rw [hp.mem_iff, List.mem_range]
    exact (List.getElem?_eq_some_iff.1 he).1
  refine ⟨fun e => ⟨fun h => ?_, fun h => ?_⟩, (gen order).1, fun hn i e he => ?_⟩
  · obtain ⟨r, hr⟩ := Option.isSome_iff_exists.1 h
    obtain ⟨i, hi, _⟩ := (gen order).1 e r hr
    exact List.mem_of_getElem? hi
  · obtain ⟨i, hi⟩ := List.getElem?_of_mem h
    exact (gen order).2 i e (hmem i e hi) hi
  · obtain ⟨r, hr⟩ := Option.isSome_iff_exists.1 ((gen order).2 i e (hmem i e he) he)
    obtain ⟨j, hj, hrj⟩ := (gen order).1 e r hr
    obtain ⟨hi1, hi2⟩ := List.getElem?_eq_some_iff.1 he
    obtain ⟨hj1, hj2⟩ := List.getElem?_eq_some_iff.1 hj
    have : j = i := nodup_getElem_inj hn hj1 hi1 (hj2.trans hi2.symm)
    rw [hr, hrj, this]

/-- Three calls that finish in the order 2, 0, 1. -/
example : let m := callAll [10, 20, 30] (fun i => i * 100) [2, 0, 1]
    ([2, 0, 1] : List Nat).Perm (List.range 3) ∧ [m 10, m 20, m 30, m 40] = [some 0, some 100, some 200, none] := by
  decide

end Qrpc
