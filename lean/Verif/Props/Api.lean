import Verif.Lemmas.ApiG
/-! # C48, C49, C50: the API -/
namespace Qrpc

/-! ## C48 Weighted endpoint selection -/

/-- Sum of the first `i` weights. -/
def Spec.prefixSum (ws : List Int) (i : Nat) : Int := (ws.take i).sum

theorem getIdxLoop_iff (t : Int) (ws : List Int) (hw : ∀ w ∈ ws, 0 ≤ w) : ∀ (sum : Int) (k j : Nat), sum ≤ t →
    (getIdxLoop t sum k ws = some j ↔ ∃ i, j = k + i ∧ i < ws.length ∧ sum + (ws.take i).sum ≤ t ∧ t < sum + (ws.take (i + 1)).sum) := by
  induction ws with
  | nil => intro sum k j _; simp [getIdxLoop]
  | cons w ws ih =>
    intro sum k j hs
    have hw0 := hw w (by simp)
    have hpos : ∀ i, 0 ≤ (ws.take i).sum := by
      intro i
      have : ∀ l : List Int, (∀ w ∈ l, 0 ≤ w) → 0 ≤ l.sum := by
        intro l hl
        induction l with
        | nil => simp
        | cons a l ihl => simp only [List.sum_cons]; have := hl a (by simp); have := ihl fun w hw => hl w (by simp [hw]); omega
      exact this _ fun w hm => hw w (by simp [List.mem_of_mem_take hm])
    simp only [getIdxLoop]
    split
    · next hgt =>
      constructor
      · intro h
        simp only [Option.some.injEq] at h
        exact ⟨0, by omega, by simp, by simpa using hs, by simpa using hgt⟩
      · rintro ⟨i, rfl, hi, h1, h2⟩
        cases i with
        | zero => rfl
        | succ i => simp only [List.take_succ_cons, List.sum_cons] at h1; have := hpos i; omega
    · next hle =>
      rw [ih (fun w hm => hw w (by simp [hm])) _ _ _ (by omega)]
      constructor
      · rintro ⟨i, rfl, hi, h1, h2⟩
        refine ⟨i + 1, by omega, by simpa using hi, ?_, ?_⟩
        · simp only [List.take_succ_cons, List.sum_cons]; omega
        · rw [List.take_succ_cons, List.sum_cons]; omega
      · rintro ⟨i, rfl, hi, h1, h2⟩
        cases i with
        | zero => simp at h2; omega
        | succ i =>
          simp only [List.take_succ_cons, List.sum_cons] at h1 h2
          exact ⟨i, by omega, by simpa using hi, by omega, by omega⟩

theorem countP_interval (a b n : Nat) (h : b ≤ n) :
    (List.range n).countP (fun t => decide (a ≤ t ∧ t < b)) = b - a := by
  induction n generalizing b with
  | zero => have : b = 0 := by omega
            subst this; simp
  | succ n ih =>
    rw [List.range_succ, List.countP_append]
    by_cases hb : b = n + 1
    · subst hb
      have h1 : (List.range n).countP (fun t => decide (a ≤ t ∧ t < n + 1)) = (List.range n).countP (fun t => decide (a ≤ t ∧ t < n)) := by
        apply List.countP_congr
        intro x hx
        have := List.mem_range.mp hx
        simp only [decide_eq_true_eq]; omega
      rw [h1, ih n (Nat.le_refl _)]
      by_cases ha : a ≤ n <;> simp [ha] <;> omega
    · rw [ih b (by omega)]
      have : ¬ (a ≤ n ∧ n < b) := by omega
      simp [this]

theorem sum_take_nonneg {ws : List Int} (hw : ∀ w ∈ ws, 0 ≤ w) (i : Nat) : 0 ≤ (ws.take i).sum := by
  have : ∀ l : List Int, (∀ w ∈ l, 0 ≤ w) → 0 ≤ l.sum := by
    intro l hl
    induction l with
    | nil => simp
    | cons a l ihl => simp only [List.sum_cons]; have := hl a (by simp); have := ihl fun w hw => hl w (by simp [hw]); omega
  exact this _ fun w hm => hw w (List.mem_of_mem_take hm)

theorem sum_split (ws : List Int) (i : Nat) : (ws.take i).sum + (ws.drop i).sum = ws.sum := by
  induction ws generalizing i with
  | nil => simp
  | cons w ws ih =>
    cases i with
    | zero => simp
    | succ i => simp only [List.take_succ_cons, List.drop_succ_cons, List.sum_cons]; have := ih i; omega

theorem sum_take_succ (ws : List Int) (i : Nat) (h : i < ws.length) : (ws.take (i + 1)).sum = (ws.take i).sum + ws[i] := by
  induction ws generalizing i with
  | nil => simp at h
  | cons w ws ih =>
    cases i with
    | zero => simp
    | succ i =>
      have := ih i (by simpa using h)
      simp only [List.take_succ_cons, List.sum_cons, List.getElem_cons_succ]
      omega

/-- **C48.** For all lists of non-negative weights and all draws in `[0, total)`: endpoint `i` is picked for exactly `weight i` of
the draws, and the fallback branch is never taken. -/
theorem C48_weights {ws : List Int} (hw : ∀ w ∈ ws, 0 ≤ w) {i : Nat} (hi : i < ws.length) :
    (((List.range ws.sum.toNat).countP (fun (t : Nat) => decide (getIdx ws t = (i, false))) : Nat) : Int) = ws[i] := by
  have key : ∀ t : Nat, getIdx ws t = (i, false) ↔ (ws.take i).sum.toNat ≤ t ∧ t < (ws.take (i + 1)).sum.toNat := by
    intro t
    have h0 := sum_take_nonneg hw i
    have h1 := sum_take_nonneg hw (i + 1)
    have h2 := getIdxLoop_iff (t : Int) ws hw 0 0 i (by omega)
    rw [show ((ws.take i).sum.toNat ≤ t ∧ t < (ws.take (i + 1)).sum.toNat) ↔
      (0 + (ws.take i).sum ≤ (t : Int) ∧ (t : Int) < 0 + (ws.take (i + 1)).sum) by omega]
    simp only [getIdx]
    constructor
    · intro h
      have h3 : getIdxLoop (t : Int) 0 0 ws = some i := by
        split at h
        · next j hj => simp only [Prod.mk.injEq, and_true] at h; rw [hj, h]
        · simp at h
      obtain ⟨k, hk, _, h4, h5⟩ := h2.mp h3
      have : k = i := by omega
      subst this
      exact ⟨h4, h5⟩
    · rintro ⟨h4, h5⟩
      rw [h2.mpr ⟨i, by omega, hi, h4, h5⟩]
  rw [List.countP_congr (q := fun t => decide ((ws.take i).sum.toNat ≤ t ∧ t < (ws.take (i + 1)).sum.toNat))
    (fun t _ => by simp only [decide_eq_true_eq]; exact key t)]
  have h0 := sum_take_nonneg hw i
  have h1 := sum_take_nonneg hw (i + 1)
  have h3 := sum_take_succ ws i hi
  have h4 := sum_split ws (i + 1)
  have h5 : 0 ≤ (ws.drop (i + 1)).sum := by
    have := sum_take_nonneg (ws := ws.drop (i + 1)) (fun w hm => hw w (List.mem_of_mem_drop hm)) (ws.drop (i + 1)).length
    rwa [List.take_length] at this
  have h6 := hw ws[i] (List.getElem_mem hi)
  rw [countP_interval _ _ _ (by omega)]
  omega

/-- For all weights, even negative ones: the fallback branch is unreachable and the index is in range. -/
theorem C48_no_fallback {ws : List Int} {t : Nat} (ht : (t : Int) < ws.sum) :
    (getIdx ws t).2 = false ∧ (getIdx ws t).1 < ws.length := by
  have gen : ∀ (ws : List Int) (sum : Int) (k : Nat), sum ≤ t → (t : Int) < sum + ws.sum →
      ∃ j, getIdxLoop t sum k ws = some j ∧ j < k + ws.length := by
    intro ws
    induction ws with
    | nil => intro sum k h1 h2; simp at h2; omega
    | cons w ws ih =>
      intro sum k h1 h2
      simp only [getIdxLoop, List.sum_cons, List.length_cons] at *
      split
      · exact ⟨k, rfl, by omega⟩
      · obtain ⟨j, h3, h4⟩ := ih (sum + w) (k + 1) (by omega) (by omega)
        exact ⟨j, h3, by omega⟩
  obtain ⟨j, h1, h2⟩ := gen ws 0 0 (by omega) (by omega)
  simp only [getIdx, h1, true_and]; omega

/-- An endpoint with weight 0 is never picked. -/
theorem C48_zero {ws : List Int} (hw : ∀ w ∈ ws, 0 ≤ w) {i t : Nat} (hi : i < ws.length) (h0 : ws[i] = 0)
    (ht : (t : Int) < ws.sum) : (getIdx ws t).1 ≠ i := by
  intro h
  have h1 := C48_weights hw hi
  rw [h0] at h1
  have h2 : (List.range ws.sum.toNat).countP (fun (t : Nat) => decide (getIdx ws t = (i, false))) = 0 := by omega
  rw [List.countP_eq_zero] at h2
  refine h2 t (List.mem_range.mpr (by omega)) ?_
  have := (C48_no_fallback ht).1
  simp only [decide_eq_true_eq]
  exact Prod.ext h this

/-- Its hypotheses: four weights, the second one 0, a draw of 1. -/
example : (∀ w ∈ ([1, 0, 3, 2] : List Int), 0 ≤ w) ∧ ([1, 0, 3, 2] : List Int)[1] = 0 ∧ ((1 : Nat) : Int) < ([1, 0, 3, 2] : List Int).sum := by decide

/-- Without weights every endpoint is picked for exactly one draw out of as many as there are endpoints. -/
theorem C48_uniform {n i : Nat} (hi : i < n) : (apiWeights n none).sum = n ∧
    (List.range n).countP (fun (t : Nat) => decide (getIdx (apiWeights n none) t = (i, false))) = 1 := by
  have hs : (apiWeights n none).sum = n := by
    simp only [apiWeights]
    clear hi
    induction n with
    | zero => rfl
    | succ n ih => rw [List.replicate_succ, List.sum_cons, ih]; omega
  refine ⟨hs, ?_⟩
  have hl : i < (apiWeights n none).length := by simpa [apiWeights] using hi
  have := C48_weights (ws := apiWeights n none) (by simp only [apiWeights]; intro w hm; rw [List.eq_of_mem_replicate hm]; omega) hl
  rw [hs, Int.toNat_natCast] at this
  have h2 : (apiWeights n none)[i] = 1 := by simp [apiWeights]
  rw [h2] at this
  omega

example : (List.range 6).map (fun (t : Nat) => getIdx [1, 0, 3, 2] t) =
    [(0, false), (2, false), (2, false), (2, false), (3, false), (3, false)] := by decide

/-- **C48 is false for negative weights** (which NewAPI accepts): with weights 2, -1, 1 (sum 2) the third endpoint is never
picked and the first one always. -/
theorem C48_refuted_negative : ∀ t : Nat, (t : Int) < ([2, -1, 1] : List Int).sum → getIdx [2, -1, 1] t = (0, false) := by
  intro t ht
  have : t = 0 ∨ t = 1 := by
    have : ([2, -1, 1] : List Int).sum = 2 := by decide
    omega
  rcases this with rfl | rfl <;> decide

/-! ## C49 The connection cache -/

/-- **C49, one connection per endpoint.** In every execution at most one connection per endpoint is among the active ones, and the
connection cached for an endpoint was dialled for that endpoint. -/
theorem C49_one {n : Nat} {ok : Nat → Bool} {acts : List AAct} {s : ASt} (hrun : aRun n ok acts = some s) {i c d : Nat}
    (hc : s.active c = some i) (hd : s.active d = some i) : c = d ∧ s.home c = i := by
  have h := (AInv.reach hrun).t
  obtain ⟨_, h1, h2⟩ := h.act i c hc
  obtain ⟨_, _, h3⟩ := h.act i d hd
  refine ⟨?_, h1⟩
  rcases h2 with h2 | ⟨h2, h2'⟩ <;> rcases h3 with h3 | ⟨h3, h3'⟩
  · rw [h2] at h3; simpa using h3
  · rw [h2] at h3; simp at h3
  · rw [h2] at h3; simp at h3
  · rw [h2'] at h3'; simpa using h3'

/-- The two maps agree whenever nobody is inside the mutex. -/
theorem C49_maps_agree {n : Nat} {ok : Nat → Bool} {acts : List AAct} {s : ASt} (hrun : aRun n ok acts = some s)
    (hm : s.mu = none) (i c : Nat) : s.conns i = some c ↔ s.active c = some i := by
  have h := AInv.reach hrun
  constructor
  · intro hc
    rcases (h.t.conn i c hc).2.2 with h1 | h1
    · exact h1
    · have := h.m.holds _ (APc.fresh2_holds h1); simp [hm] at this
  · intro hc
    rcases (h.t.act i c hc).2.2 with h1 | ⟨_, h1⟩
    · exact h1
    · have := h.m.holds _ (APc.atDel2_holds h1); simp [hm] at this

/-- **C49, no panic.** -/
theorem C49_no_panic {n : Nat} {ok : Nat → Bool} {acts : List AAct} {s : ASt} (hrun : aRun n ok acts = some s) (i : Nat) :
    s.pc i ≠ .panicked := (AInv.reach hrun).t.nopan i

/-- **C49, Close.** In every execution, once a Close has returned nil, every connection the API ever made has been closed and none
has been made since. -/
theorem C49_close {n : Nat} {ok : Nat → Bool} {acts : List AAct} {s : ASt} (hrun : aRun n ok acts = some s) (hd : s.done = true) :
    (∀ c, s.made c = true → s.cClosed c = true) ∧ s.madeAfter = [] :=
  ⟨(AInv.reach hrun).g.done hd, (AInv.reach hrun).c.after⟩

/-- What `done` means. -/
theorem C49_done_iff {n : Nat} {ok : Nat → Bool} {acts : List AAct} {s : ASt} (hrun : aRun n ok acts = some s) :
    s.done = true ↔ ∃ i, .closeOk i ∈ s.log := by
  refine runActs_inv (P := fun s => s.done = true ↔ ∃ i, .closeOk i ∈ s.log) ?_ ?_ hrun
  · intro s a s' hi hs
    astep_cases hs a
    all_goals try simp only []
    all_goals simp_all
  · simp [ASt.init]

/-- In every execution, a connection that left the cache has been closed (unless it is just being stored). -/
theorem C49_no_leak {n : Nat} {ok : Nat → Bool} {acts : List AAct} {s : ASt} (hrun : aRun n ok acts = some s) {c : Nat}
    (hm : s.made c = true) (ha : s.active c = none) (hmu : s.mu = none) : s.cClosed c = true := by
  have h := AInv.reach hrun
  rcases h.g.gone c hm ha with h1 | h1
  · exact h1
  · have := h.m.holds _ (APc.fresh_holds h1); simp [hmu] at this

/-- The goroutine an action belongs to. -/
def AAct.who : AAct → Nat
  | .call i _ | .callOne i _ | .close i | .go i | .res i _ | .pick i _ => i

theorem aStep_unlocked {s : ASt} {i : Nat} (hi : s.pc i ≠ .idle) (hp : s.pc i ≠ .panicked)
    (hl : s.mu = none ∨ (s.pc i).holds = true) : ∃ a s', a.who = i ∧ aStep s a = some s' := by
  cases hpc : s.pc i with
  | idle => exact absurd hpc hi
  | panicked => exact absurd hpc hp
  | range => exact ⟨.pick i none, _, rfl, by simp only [aStep, hpc]; rfl⟩
  | req m x c nc => exact ⟨.res i true, _, rfl, by simp only [aStep, hpc]; rfl⟩
  | wait m x c => exact ⟨.res i true, _, rfl, by simp only [aStep, hpc]; rfl⟩
  | ncDial m x => exact ⟨.res i true, _, rfl, by simp only [aStep, hpc]; rfl⟩
  | delLock m x c nc | ncLock m x | clLock =>
    have : s.mu = none := by rw [hpc] at hl; simpa [APc.holds] using hl
    exact ⟨.go i, _, rfl, by simp only [aStep, hpc, this]; rfl⟩
  | load m x => cases hc : s.conns x <;> exact ⟨.go i, _, rfl, by simp only [aStep, hpc, hc]; rfl⟩
  | ncLoad m x => cases hc : s.conns x <;> exact ⟨.go i, _, rfl, by simp only [aStep, hpc, hc]; rfl⟩
  | ncSt1 m x c => cases hc : s.conns x <;> exact ⟨.go i, _, rfl, by simp only [aStep, hpc, hc]; rfl⟩
  | ncCheck m x => cases hc : s.closed <;> exact ⟨.go i, _, rfl, by simp only [aStep, hpc, hc]; rfl⟩
  | delUn m x nc => cases nc <;> exact ⟨.go i, _, rfl, by simp only [aStep, hpc]; rfl⟩
  | clLoop l => cases l <;> exact ⟨.go i, _, rfl, by simp only [aStep, hpc]; rfl⟩
  | del1 m x c nc => by_cases hc : s.conns x = some c <;> exact ⟨.go i, _, rfl, by simp only [aStep, hpc, hc]; rfl⟩
  | cls m x c nc | del2 m x c nc | ncErr m x | ncSt2 m x c | ncUn m x c | clRange | clUn =>
    exact ⟨.go i, _, rfl, by simp only [aStep, hpc]; rfl⟩

/-- **C49, no deadlock.** In every execution, a goroutine inside a call or Close can go on, or the holder of the mutex can (the
results of Request, NewConnection and GetFrameWithContext being steps). -/
theorem C49_progress {n : Nat} {ok : Nat → Bool} {acts : List AAct} {s : ASt} (hrun : aRun n ok acts = some s) {i : Nat}
    (hi : s.pc i ≠ .idle) : ∃ a s', (a.who = i ∨ s.mu = some a.who) ∧ aStep s a = some s' := by
  have h := AInv.reach hrun
  cases hmu : s.mu with
  | none =>
    obtain ⟨a, s', h1, h2⟩ := aStep_unlocked hi (h.t.nopan i) (.inl hmu)
    exact ⟨a, s', .inl h1, h2⟩
  | some j =>
    have hh := (h.m.held j hmu).1
    obtain ⟨a, s', h1, h2⟩ := aStep_unlocked (s := s) (i := j) (by intro he; rw [he] at hh; simp [APc.holds] at hh) (h.t.nopan j) (.inr hh)
    exact ⟨a, s', .inr (by rw [h1]), h2⟩

/-- Two endpoints, only the first one dialled; two callers find the connection broken and one of them dials again; Close. -/
def exApi : List AAct :=
  [.callOne 0 0, .callOne 1 0, .go 0, .go 1, .res 0 false, .res 1 false, .go 0, .go 1, .go 0, .go 0, .go 0, .go 0, .go 0, .go 0, .go 0,
   .res 0 true, .go 0, .go 0, .go 0, .go 1, .go 1, .go 1, .go 1, .res 0 true, .close 2, .go 1, .go 1, .go 1, .res 1 true,
   .res 0 true, .go 2, .go 2, .go 2, .go 2, .go 2, .res 1 false, .call 0 1, .go 0, .go 0, .go 0, .go 0, .go 0]
example : (aRun 2 (fun i => i == 0) exApi).map (fun s => (s.log, s.nextC, s.cClosed 0, s.cClosed 2, s.done, s.pc 0)) =
    some ([.result 0, .closeOk 2, .err 1], 3, true, true, true, .range) := by rfl

/-- In the middle of it: nobody holds the mutex, connection 2 has replaced connection 0 (made, not active, closed). -/
example : (aRun 2 (fun i => i == 0) (exApi.take 23)).map
    (fun s => (s.mu, [s.conns 0, s.conns 1], [s.active 0, s.active 2], [s.made 0, s.made 2], [s.cClosed 0, s.cClosed 2], s.home 2)) =
    some (none, [some 2, none], [none, some 0], [true, true], [true, false], 0) := by rfl

/-! ## C50 Retry bound -/

/-- Before the request has been handed to a connection, in this mode. -/
def APc.before : APc → Option AMode
  | .load m _ | .req m .. | .cls m .. | .delLock m .. | .del1 m .. | .del2 m .. | .delUn m .. | .ncLock m .. | .ncLoad m ..
  | .ncCheck m .. | .ncDial m .. | .ncErr m .. | .ncSt1 m .. | .ncSt2 m .. | .ncUn m .. => some m
  | .range => some .second
  | _ => none

def APc.waits : APc → Option AMode
  | .wait m .. => some m
  | _ => none

/-- What one goroutine may have done, depending on where it is. -/
structure ASends (p : APc) (isCall : Bool) (sends : Nat) (respErr : Bool) : Prop where
  mode : ∀ m, p.before = some m ∨ p.waits = some m → (m = .one ↔ isCall = false)
  b0 : ∀ m, p.before = some m → m ≠ .second → sends = 0 ∧ respErr = false
  b1 : p.before = some .second → sends = if respErr then 1 else 0
  w0 : ∀ m, p.waits = some m → m ≠ .second → sends = 1 ∧ respErr = false
  w1 : p.waits = some .second → sends = if respErr then 2 else 1
  all : sends ≤ if respErr then 2 else 1
  one : isCall = false → sends ≤ 1

def ASt.bounded (s : ASt) : Prop := ∀ i, ASends (s.pc i) (s.isCall i) (s.sends i) (s.respErr i)

set_option maxHeartbeats 1000000 in
theorem ASends.step {s s' : ASt} {a : AAct} (h : s.bounded) (hs : aStep s a = some s') : s'.bounded := by
  intro j
  have hj := h j
  by_cases hw : a.who = j
  · subst hw
    obtain ⟨h1, h2, h3, h4, h5, h6, h7⟩ := hj
    clear h
    astep_cases hs a
    all_goals simp only [AAct.who] at *
    all_goals constructor
    all_goals try simp only [setAt, if_true]
    all_goals first
      | assumption
      | grind [APc.before, APc.waits]
      | (rename_i m _ _ _ hq _; cases m <;> grind [APc.before, APc.waits])
  · clear h
    astep_cases hs a
    all_goals simp only [AAct.who] at *
    all_goals first | exact hj | (simp only [setAt, if_neg (Ne.symm hw)]; exact hj)

theorem ASends.reach {n ok acts s} (h : aRun n ok acts = some s) : s.bounded := by
  refine runActs_inv (P := ASt.bounded) (fun _ _ _ h hs => ASends.step h hs) ?_ h
  intro i
  constructor <;> simp [ASt.init, APc.before, APc.waits]

/-- **C50.** In every execution - whatever sends, dials and responses fail - a CallOne has handed its request to a connection
successfully at most once; a Call at most twice, and twice only if waiting for the response of the first one failed. (The counters
are those of the current call of goroutine `i`, or of the last one after it returned.) -/
theorem C50 {n : Nat} {ok : Nat → Bool} {acts : List AAct} {s : ASt} (hrun : aRun n ok acts = some s) (i : Nat) :
    (s.isCall i = false → s.sends i ≤ 1) ∧ s.sends i ≤ 2 ∧ (s.sends i = 2 → s.respErr i = true ∧ s.isCall i = true) := by
  have h := ASends.reach hrun i
  have h1 := h.all
  have h2 := h.one
  refine ⟨h2, by split at h1 <;> omega, fun h3 => ?_⟩
  cases hr : s.respErr i with
  | false => simp [hr] at h1; omega
  | true =>
    refine ⟨rfl, ?_⟩
    cases hc : s.isCall i with
    | true => rfl
    | false => have := h2 hc; omega

/-- A request is executed twice: it is sent, its response fails (for instance by a timeout), and Call sends it again. -/
theorem C50_twice : (aRun 1 (fun _ => true) [.call 0 0, .go 0, .res 0 true, .res 0 false, .pick 0 (some 0), .res 0 true, .res 0 true]).map
    (fun s => (s.sends 0, s.log)) = some (2, [.result 0]) := by rfl

/-- A result is returned only after a successful send. -/
theorem C50_result {n : Nat} {ok : Nat → Bool} {acts : List AAct} {s s' : ASt} (hrun : aRun n ok acts = some s) {a : AAct} {i : Nat}
    (hs : aStep s a = some s') (hl : s'.log = s.log ++ [.result i]) : 1 ≤ s'.sends i := by
  have h := ASends.reach hrun
  astep_cases hs a
  all_goals simp_all
  next m _ _ hq _ =>
    by_cases hm : m = .second
    · have := (h i).w1 (by rw [hq, hm]; rfl); rw [this]; split <;> omega
    · have := (h i).w0 m (by rw [hq]; rfl) hm; omega

/-- Its hypotheses: the last step of this call logs a result. -/
example : (aRun 1 (fun _ => true) [.call 0 0, .go 0, .res 0 true]).bind
    (fun s => (aStep s (.res 0 true)).map fun s' => (s.log, s'.log, s'.sends 0)) = some ([], [.result 0], 1) := by rfl

end Qrpc
