import Verif.Props.Api
import Verif.Lemmas.GroupInv
/-!
# C121 Calls of the API do not wait for each other
-/
namespace Qrpc

/-- Waiting for the mutex: safeCloseDeleteConn (api.go:186), callWithoutConn (152), Close (258). -/
def APc.queues : APc → Bool
  | .delLock .. | .ncLock .. | .clLock => true
  | _ => false

/-- **C121 (partial)**: a call that cannot go on by itself (its dial, Request or response being answered counts as going on) waits for the
mutex, which another goroutine has. -/
theorem C121_only_partial {n : Nat} {ok : Nat → Bool} {acts : List AAct} {s : ASt} (hrun : aRun n ok acts = some s) {i : Nat}
    (hi : s.pc i ≠ .idle) (hst : ∀ a s', a.who = i → aStep s a ≠ some s') :
    (s.pc i).queues = true ∧ ∃ j, j ≠ i ∧ s.mu = some j := by
  have inv := AInv.reach hrun
  have hp := inv.t.nopan i
  have hmu : s.mu ≠ none := fun h => by
    obtain ⟨a, s', h1, h2⟩ := aStep_unlocked hi hp (.inl h)
    exact hst a s' h1 h2
  have hh : (s.pc i).holds = false := by
    cases h : (s.pc i).holds with
    | false => rfl
    | true =>
      obtain ⟨a, s', h1, h2⟩ := aStep_unlocked hi hp (.inr h)
      exact absurd h2 (hst a s' h1)
  refine ⟨?_, ?_⟩
  · cases hpc : s.pc i with
    | idle => exact absurd hpc hi
    | panicked => exact absurd hpc hp
    | delLock | ncLock | clLock => rfl
    | range => exact absurd (by simp only [aStep, hpc]; rfl) (hst (.pick i none) _ rfl)
    | load m idx =>
      cases hc : s.conns idx with
      | none => exact absurd (by simp only [aStep, hpc, hc]; rfl) (hst (.go i) _ rfl)
      | some c => exact absurd (by simp only [aStep, hpc, hc]; rfl) (hst (.go i) _ rfl)
    | req => exact absurd (by simp only [aStep, hpc]; rfl) (hst (.res i true) _ rfl)
    | wait => exact absurd (by simp only [aStep, hpc]; rfl) (hst (.res i true) _ rfl)
    | cls => exact absurd (by simp only [aStep, hpc]; rfl) (hst (.go i) _ rfl)
    | _ => rw [hpc] at hh; cases hh
  · cases hm : s.mu with
    | none => exact absurd hm hmu
    | some j =>
      refine ⟨j, fun e => ?_, rfl⟩
      have := (inv.m.held j hm).1
      rw [e, hh] at this; cases this

/-- By its own steps alone, goroutine `j` gives the mutex back or comes to a dial. -/
def AGives (s : ASt) (j : Nat) : Prop :=
  ∃ k s', runActs aStep s (List.replicate k (.go j)) = some s' ∧ (s'.mu = none ∨ ∃ m idx, s'.pc j = .ncDial m idx)

theorem AGives.step {s s1 : ASt} {j : Nat} (h : AGives s1 j) (hs : aStep s (.go j) = some s1) : AGives s j := by
  obtain ⟨k, s', h1, h2⟩ := h
  exact ⟨k + 1, s', by rw [List.replicate_succ, runActs, hs]; exact h1, h2⟩

theorem AGives.zero {s : ASt} {j : Nat} (h : s.mu = none) : AGives s j := ⟨0, s, rfl, .inl h⟩

theorem AGives.ncErr {s : ASt} {j : Nat} {m : AMode} {idx : Nat} (h : s.pc j = .ncErr m idx) : AGives s j :=
  AGives.step (s1 := { s with mu := none }.fail j m) (.zero (by cases m <;> rfl)) (by simp only [aStep, h])

theorem AGives.ncUn {s : ASt} {j : Nat} {m : AMode} {idx c : Nat} (h : s.pc j = .ncUn m idx c) : AGives s j :=
  AGives.step (.zero rfl) (by simp only [aStep, h]; rfl)

theorem AGives.ncCheck {s : ASt} {j : Nat} {m : AMode} {idx : Nat} (h : s.pc j = .ncCheck m idx) : AGives s j := by
  cases hc : s.closed with
  | true => exact AGives.step (.ncErr (setAt_same ..)) (by simp only [aStep, h, hc]; rfl)
  | false =>
    exact AGives.step (s1 := { s with pc := setAt s.pc j (.ncDial m idx) }) ⟨0, _, rfl, .inr ⟨m, idx, setAt_same ..⟩⟩
      (by simp only [aStep, h, hc]; rfl)

theorem AGives.ncSt2 {s : ASt} {j : Nat} {m : AMode} {idx c : Nat} (h : s.pc j = .ncSt2 m idx c) : AGives s j :=
  AGives.step (.ncUn (setAt_same ..)) (by simp only [aStep, h]; rfl)

theorem AGives.delUn {s : ASt} {j : Nat} {m : AMode} {idx : Nat} {nc : Bool} (h : s.pc j = .delUn m idx nc) : AGives s j := by
  cases nc with
  | true => exact AGives.step (.zero rfl) (by simp only [aStep, h]; rfl)
  | false => exact AGives.step (s1 := { s with mu := none }.fail j m) (.zero (by cases m <;> rfl)) (by simp only [aStep, h]; rfl)

theorem AGives.del2 {s : ASt} {j : Nat} {m : AMode} {idx c : Nat} {nc : Bool} (h : s.pc j = .del2 m idx c nc) : AGives s j :=
  AGives.step (.delUn (setAt_same ..)) (by simp only [aStep, h]; rfl)

theorem AGives.clUn {s : ASt} {j : Nat} (h : s.pc j = .clUn) : AGives s j :=
  AGives.step (.zero rfl) (by simp only [aStep, h]; rfl)

theorem AGives.clLoop {j : Nat} : ∀ {l : List Nat} {s : ASt}, s.pc j = .clLoop l → AGives s j
  | [], _, h => AGives.step (.clUn (setAt_same ..)) (by simp only [aStep, h]; rfl)
  | _ :: _, _, h => AGives.step (.clLoop (setAt_same ..)) (by simp only [aStep, h]; rfl)

/-- **C121 (partial)**: the goroutine that has the mutex gives it back after finitely many steps of its own, which wait for nothing,
unless these bring it to a dial. -/
theorem C121_holder_partial {n : Nat} {ok : Nat → Bool} {acts : List AAct} {s : ASt} (hrun : aRun n ok acts = some s) {j : Nat}
    (hj : s.mu = some j) : ∃ k s', runActs aStep s (List.replicate k (.go j)) = some s' ∧
      (s'.mu = none ∨ ∃ m idx, s'.pc j = .ncDial m idx) := by
  show AGives s j
  have inv := AInv.reach hrun
  have hh := (inv.m.held j hj).1
  cases hpc : s.pc j with
  | ncDial m idx => exact ⟨0, s, rfl, .inr ⟨m, idx, hpc⟩⟩
  | ncUn => exact .ncUn hpc
  | ncErr => exact .ncErr hpc
  | ncCheck => exact .ncCheck hpc
  | ncSt2 => exact .ncSt2 hpc
  | delUn => exact .delUn hpc
  | del2 => exact .del2 hpc
  | clUn => exact .clUn hpc
  | clLoop => exact .clLoop hpc
  | clRange => exact AGives.step (.clLoop (setAt_same ..)) (by simp only [aStep, hpc]; rfl)
  | del1 m idx c nc =>
    by_cases hc : s.conns idx = some c <;> exact AGives.step (.del2 (setAt_same ..)) (by simp only [aStep, hpc, hc]; rfl)
  | ncLoad m idx =>
    cases hc : s.conns idx with
    | none => exact AGives.step (.ncCheck (setAt_same ..)) (by simp only [aStep, hpc, hc]; rfl)
    | some c => exact AGives.step (.ncUn (setAt_same ..)) (by simp only [aStep, hpc, hc]; rfl)
  | ncSt1 m idx c =>
    have hc := inv.t.miss j idx (by rw [hpc]; rfl)
    exact AGives.step (.ncSt2 (setAt_same ..)) (by simp only [aStep, hpc, hc]; rfl)
  | panicked => exact absurd hpc (inv.t.nopan j)
  | _ => rw [hpc] at hh; cases hh

/-- A step of another goroutine leaves this one where it is. -/
theorem aStep_other {s s' : ASt} {a : AAct} {i : Nat} (hs : aStep s a = some s') (hi : a.who ≠ i) : s'.pc i = s.pc i := by
  astep_cases hs a
  all_goals simp only [AAct.who] at hi
  all_goals first
    | rfl
    | exact setAt_other _ _ (fun e => hi e.symm)
    | grind [setAt, ASt.fail]

/-- With a connection in hand, or done. -/
def APc.lockFree : APc → Bool
  | .req .. | .wait .. | .idle => true
  | _ => false

/-- **C121 (partial)**: a call that has found a cached connection, whose Request and whose answer do not fail, never asks for the mutex:
whatever the other goroutines do meanwhile, and whoever holds the mutex, it is always at a step of its own or has returned. -/
theorem C121_cached_partial {s s' : ASt} {more : List AAct} {i : Nat} (hrun : runActs aStep s more = some s')
    (h0 : (s.pc i).lockFree = true) (hown : ∀ a ∈ more, a.who = i → a = .res i true) :
    (s'.pc i).lockFree = true ∧ (s'.pc i ≠ .idle → ∃ s'', aStep s' (.res i true) = some s'') := by
  have hl : (s'.pc i).lockFree = true := by
    induction more generalizing s with
    | nil => cases hrun; exact h0
    | cons a more ih =>
      simp only [runActs] at hrun
      split at hrun
      · cases hrun
      · rename_i s1 hs
        refine ih hrun ?_ (fun b hb => hown b (.tail _ hb))
        by_cases hw : a.who = i
        · have := hown a (.head _) hw; subst this
          cases hpc : s.pc i with
          | req m idx c nc => simp only [aStep, hpc] at hs; cases hs; simp [setAt, APc.lockFree]
          | wait m idx c => simp only [aStep, hpc] at hs; cases hs; simp [setAt, APc.lockFree]
          | idle => simp [aStep, hpc] at hs
          | _ => rw [hpc] at h0; cases h0
        · rw [aStep_other hs hw]; exact h0
  refine ⟨hl, fun hn => ?_⟩
  cases hpc : s'.pc i with
  | req m idx c nc => exact ⟨_, by simp only [aStep, hpc]; rfl⟩
  | wait m idx c => exact ⟨_, by simp only [aStep, hpc]; rfl⟩
  | idle => exact absurd hpc hn
  | _ => rw [hpc] at hl; cases hl

/-- **C121 refuted**: while one goroutine dials — it does so with the mutex, api.go:152-162 — every other call that needs the mutex stands
still, whatever endpoint it is for, and so does Close, however long the dial takes. -/
theorem C121_refuted {n : Nat} {ok : Nat → Bool} {acts more : List AAct} {s s' : ASt} (hrun : aRun n ok acts = some s) {i j idx : Nat}
    {m : AMode} (hj : s.pc j = .ncDial m idx) (hi : (s.pc i).queues = true) (hmore : runActs aStep s more = some s')
    (hd : ∀ r, .res j r ∉ more) : s'.pc i = s.pc i ∧ s'.mu = some j := by
  have hm : s.mu = some j := (AInv.reach hrun).m.holds j (by rw [hj]; rfl)
  have inv0 := (AInv.reach hrun).m
  clear hrun
  have : s'.pc i = s.pc i ∧ s'.pc j = .ncDial m idx ∧ s'.mu = some j := by
    induction more generalizing s with
    | nil => cases hmore; exact ⟨rfl, hj, hm⟩
    | cons a more ih =>
      simp only [runActs] at hmore
      split at hmore
      · cases hmore
      · rename_i s1 hs
        have key : s1.pc i = s.pc i ∧ s1.pc j = .ncDial m idx ∧ s1.mu = some j ∧ AInvM s1 := by
          have hj' : s1.pc j = s.pc j := by
            by_cases hw : a.who = j
            · cases a with
              | res k r => cases (show k = j from hw); exact absurd (.head _) (hd r)
              | _ => simp only [AAct.who] at hw; subst hw; simp [aStep, hj] at hs
            · exact aStep_other hs hw
          have hi' : s1.pc i = s.pc i := by
            by_cases hw : a.who = i
            · cases hpc : s.pc i with
              | delLock | ncLock | clLock =>
                cases a <;> simp only [AAct.who] at hw <;> subst hw <;> simp [aStep, hpc, hm] at hs
              | _ => rw [hpc] at hi; cases hi
            · exact aStep_other hs hw
          have inv1 := inv0.step hs
          exact ⟨hi', hj'.trans hj, inv1.holds j (by rw [hj', hj]; rfl), inv1⟩
        have := ih key.2.1 (by rw [key.1]; exact hi) hmore (fun r hr => hd r (.tail _ hr)) key.2.2.1 key.2.2.2
        exact ⟨this.1.trans key.1, this.2⟩
  exact ⟨this.1, this.2.2⟩

/-- Two endpoints, of which only the first was dialled by NewAPI: goroutine 0 dials the second endpoint; goroutine 1, whose connection to
the first has failed, and Close wait; goroutine 2 is answered over the cached connection meanwhile. -/
def exDial : List AAct :=
  [.callOne 0 1, .callOne 1 0, .callOne 2 0, .go 1, .go 2, .go 0, .go 0, .go 0, .go 0, .res 1 false, .go 1, .close 3]
def exMeanwhile : List AAct := [.res 2 true, .callOne 4 0, .go 4, .res 2 true, .res 4 true]

example : (aRun 2 (fun i => i == 0) exDial).map (fun s => (s.mu, [s.pc 0, s.pc 1, s.pc 2, s.pc 3])) =
    some (some 0, [.ncDial .one 1, .delLock .one 0 0 true, .req .one 0 0 true, .clLock]) := by rfl
example : (aRun 2 (fun i => i == 0) (exDial ++ exMeanwhile)).map (fun s => (s.mu, [s.pc 0, s.pc 1, s.pc 2, s.pc 3, s.pc 4], s.log)) =
    some (some 0, [.ncDial .one 1, .delLock .one 0 0 true, .idle, .clLock, .wait .one 0 0], [.result 2]) := by rfl
/-- The mutex is given back: deleting (3 steps), a Close of two connections (5 steps). -/
example : (aRun 2 (fun _ => true) ([.callOne 0 1, .go 0, .res 0 false, .go 0, .go 0] ++ List.replicate 3 (.go 0))).map (·.mu) =
    some none := by rfl
example : (aRun 2 (fun _ => true) ([.close 0, .go 0] ++ List.replicate 5 (.go 0))).map (·.mu) = some none := by rfl

end Qrpc
