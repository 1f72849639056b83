import Verif.Props.Api
import Verif.Lemmas.Measure
/-! # C49: every call of an API returns -/
namespace Qrpc

/-- A step of a goroutine inside a call (not the call itself). -/
def AAct.inner : AAct → Bool
  | .go _ | .res _ _ | .pick _ _ => true
  | _ => false

/-- What a call still has ahead of it after an error. -/
def AMode.tail : AMode → Nat
  | .first => 21
  | _ => 0

/-- How many steps a goroutine inside a call takes at most. -/
def APc.rank : APc → Nat
  | .idle => 0
  | .panicked => 0
  | .delUn m _ nc => m.tail + (if nc then 15 else 1)
  | .del2 m _ _ nc => m.tail + (if nc then 16 else 2)
  | .del1 m _ _ nc => m.tail + (if nc then 17 else 3)
  | .delLock m _ _ nc => m.tail + (if nc then 18 else 4)
  | .cls m _ _ nc => m.tail + (if nc then 19 else 5)
  | .req m _ _ nc => m.tail + (if nc then 20 else 6)
  | .wait m _ _ => m.tail + 1
  | .ncErr m _ => m.tail + 1
  | .ncUn m _ _ => m.tail + 7
  | .ncSt2 m _ _ => m.tail + 8
  | .ncSt1 m _ _ => m.tail + 9
  | .ncDial m _ => m.tail + 11
  | .ncCheck m _ => m.tail + 12
  | .ncLoad m _ => m.tail + 13
  | .ncLock m _ => m.tail + 14
  | .load m _ => m.tail + 21
  | .range => 21
  | .clUn => 1
  | .clLoop l => l.length + 2
  | .clRange => 2
  | .clLock => 3

/-- Close has not listed the connections yet. -/
def APc.unlisted : APc → Bool
  | .clLock | .clRange => true
  | _ => false

def ASt.extra (s : ASt) : Nat := if (s.pc s.closer).unlisted then s.nextC + 1 else 0

set_option maxHeartbeats 8000000 in
theorem aRank_step {s s' : ASt} {a : AAct} (hI : AInv s) (hi : a.inner = true) (hs : aStep s a = some s') :
    s.pc a.who ≠ .idle ∧ (∀ j, j ≠ a.who → s'.pc j = s.pc j) ∧ (s'.pc a.who).rank + s'.extra < (s.pc a.who).rank + s.extra := by
  have hc := hI.c.clo
  have hp := hI.t.miss
  have hfl : ∀ f : Nat → Bool, ((List.range s.nextC).filter f).length ≤ s.nextC := fun f => by
    have := List.length_filter_le f (List.range s.nextC)
    simpa using this
  clear hI
  unfold ASt.extra
  astep_cases hs a
  all_goals simp only [AAct.inner, Bool.false_eq_true] at hi
  all_goals simp only [AAct.who]
  all_goals refine ⟨by simp_all, fun j hj => by simp [setAt, hj], ?_⟩
  all_goals try simp only [setAt, if_true]
  all_goals try first
    | grind [APc.rank, APc.unlisted, AMode.tail, APc.closing, APc.miss]

/-- The calls of goroutine `i` that have returned. -/
def ARet.of (i : Nat) : ARet → Bool
  | .result j | .err j | .closeOk j | .closeErr j => j == i

def returned (i : Nat) (log : List ARet) : Nat := log.countP (ARet.of i)

def APc.busy : APc → Nat
  | .idle => 0
  | _ => 1

set_option maxHeartbeats 8000000 in
theorem returned_step {s s' : ASt} {a : AAct} (hi : a.inner = true) (hs : aStep s a = some s') (i : Nat) :
    returned i s'.log + (s'.pc i).busy = returned i s.log + (s.pc i).busy := by
  astep_cases hs a
  all_goals simp only [AAct.inner, Bool.false_eq_true] at hi
  all_goals simp only [returned, List.countP_append, List.countP_cons, List.countP_nil, ARet.of, setAt]
  all_goals grind [APc.busy]

/-- No goroutine inside a call can take a step, whatever the outcomes. -/
def ASt.AtRest (s : ASt) : Prop := ∀ a, a.inner = true → aStep s a = none

/-- **C49, every call returns.** Let goroutines use the API in any way, up to a state `s` in which all those inside a call are
among the first `N`; from there on let them run in any order and with any outcomes, without new calls. Then their number of
steps is bounded, so they do come to rest; and at rest every one of them has returned, exactly once, with no panic. -/
theorem C49_all_return {n : Nat} {ok : Nat → Bool} {acts more : List AAct} {s s' : ASt} {N : Nat} (h : aRun n ok acts = some s)
    (hN : ∀ i, N ≤ i → s.pc i = .idle) (hin : ∀ a ∈ more, a.inner = true) (hm : runActs aStep s more = some s') :
    more.length ≤ sumTo N (fun i => (s.pc i).rank) + s.nextC + 1 ∧
    (s'.AtRest → ∀ i, s'.pc i = .idle ∧ returned i s'.log = returned i s.log + (s.pc i).busy) := by
  have hI := AInv.reach h
  have h' : aRun n ok (acts ++ more) = some s' := by
    unfold aRun at h ⊢; rw [runActs_append, h]; exact hm
  constructor
  · have := run_bounded (fun s => AInv s ∧ ∀ i, N ≤ i → s.pc i = .idle) (fun s => sumTo N (fun i => (s.pc i).rank) + s.extra)
      (fun a => a.inner = true) (step := aStep) ?_ more s s' ⟨hI, hN⟩ hin hm
    · have h2 : s.extra ≤ s.nextC + 1 := by unfold ASt.extra; split <;> omega
      have := this.2
      omega
    · rintro s a s' ⟨hI, hN⟩ ha hs
      obtain ⟨h1, h2, h3⟩ := aRank_step hI ha hs
      have hlt : a.who < N := by
        rcases Nat.lt_or_ge a.who N with h | h
        · exact h
        · exact absurd (hN _ h) h1
      refine ⟨⟨hI.step hs, fun j hj => ?_⟩, ?_⟩
      · rw [h2 j (by omega)]; exact hN j hj
      · have := sumTo_change (f := fun i => (s.pc i).rank) (g := fun i => (s'.pc i).rank) hlt (fun i hi => by rw [h2 i hi])
        omega
  · intro hq i
    have hidle : s'.pc i = .idle := by
      cases hd : decide (s'.pc i = .idle) with
      | true => exact of_decide_eq_true hd
      | false =>
        have hne := of_decide_eq_false hd
        obtain ⟨a, s2, hw, hs2⟩ := C49_progress h' hne
        have hb : s'.pc a.who ≠ .idle := by
          rcases hw with hw | hw
          · rw [hw]; exact hne
          · intro he
            have := ((AInv.reach h').m.held _ hw).1
            simp [he, APc.holds] at this
        have : a.inner = true := by
          cases a <;> first | rfl | (simp only [aStep] at hs2; split at hs2 <;> simp_all [AAct.who])
        rw [hq a this] at hs2
        simp at hs2
    refine ⟨hidle, ?_⟩
    have hk : ∀ (more : List AAct) (s : ASt), (∀ a ∈ more, a.inner = true) → runActs aStep s more = some s' →
        returned i s'.log + (s'.pc i).busy = returned i s.log + (s.pc i).busy := by
      intro more
      induction more with
      | nil => intro s _ h; simp only [runActs, Option.some.injEq] at h; subst h; rfl
      | cons a as ih =>
        intro s hin h
        rw [runActs] at h
        cases h1 : aStep s a with
        | none => rw [h1] at h; simp at h
        | some s1 =>
          rw [h1] at h
          rw [ih s1 (fun b hb => hin b (by simp [hb])) h, returned_step (hin a (by simp)) h1 i]
    have := hk more s hin hm
    simpa [hidle, APc.busy] using this

/-- Its hypotheses: in the middle of `exApi` two calls and Close are going on; eleven steps later all three have returned. -/
example : (aRun 2 (fun i => i == 0) (exApi.take 25)).map (fun s => (s.pc 0, s.pc 1, s.pc 2)) =
    some (.wait .one 0 2, .ncLock .one 0, .clLock) := by rfl
example : ((exApi.drop 25).take 11).all (fun a => a.inner) = true := by rfl
example : (aRun 2 (fun i => i == 0) (exApi.take 36)).map (fun s => (s.log, s.pc 0, s.pc 1, s.pc 2)) =
    some ([.result 0, .closeOk 2, .err 1], .idle, .idle, .idle) := by rfl

end Qrpc
