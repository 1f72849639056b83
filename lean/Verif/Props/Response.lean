import Verif.Model.Response
/-! # C78: waiting for a response -/
namespace Qrpc

structure RspInv (acts : List RspAct) (s : RspSt) : Prop where
  ev : s.event = true ↔ (∃ f, RspAct.set f ∈ acts) ∨ RspAct.close ∈ acts
  cl : s.closed = true ↔ RspAct.close ∈ acts
  one : RspAct.close ∈ acts → ∀ f, RspAct.set f ∉ acts
  buf : ∀ f, s.buf = some f → RspAct.set f ∈ acts ∧ ∀ (i : Nat) g, s.calls[i]? ≠ some (RspPc.frame g)
  got : ∀ (i : Nat) f, s.calls[i]? = some (RspPc.frame f) → RspAct.set f ∈ acts
  unique : ∀ (i j : Nat) f g, s.calls[i]? = some (RspPc.frame f) → s.calls[j]? = some (RspPc.frame g) → i = j
  taken : ∀ f, RspAct.set f ∈ acts → s.buf = some f ∨ ∃ i : Nat, s.calls[i]? = some (RspPc.frame f)
  str : ∀ i : Nat, s.calls[i]? = some RspPc.streamClosed → RspAct.close ∈ acts

theorem RspInv.reach {acts : List RspAct} {s : RspSt} (h : rspRun acts = some s) : RspInv acts s := by
  suffices H : ∀ (as pre : List RspAct) (s0 s1 : RspSt), RspInv pre s0 → runActs rspStep s0 as = some s1 → RspInv (pre ++ as) s1 by
    simpa using H acts [] RspSt.init s (by constructor <;> simp [RspSt.init]) h
  intro as
  induction as with
  | nil => intro pre s0 s1 h0 hr; simp only [runActs, Option.some.injEq] at hr; subst hr; simpa using h0
  | cons a as ih =>
    intro pre s0 s1 h0 hr
    simp only [runActs] at hr
    cases hs : rspStep s0 a with
    | none => rw [hs] at hr; simp at hr
    | some s' =>
      rw [hs] at hr
      have : RspInv (pre ++ [a]) s' := by
        obtain ⟨h1, h2, h3, h4, h5, h6, h7, h8⟩ := h0
        clear ih hr
        cases a <;> simp only [rspStep] at hs <;> (repeat' (split at hs)) <;>
          first
          | (simp at hs; done)
          | (simp only [Option.some.injEq] at hs; subst hs)
        all_goals constructor
        all_goals try first | assumption | grind
        · intro f hf
          rcases h7 f (by simpa using hf) with e | ⟨i, e⟩
          · exact .inl e
          · exact .inr ⟨i, by grind⟩
        · rename_i i0 _ w heq1 _ f0 heq2
          intro f hf
          rcases h7 f (by simpa using hf) with e | ⟨i, e⟩
          · exact .inr ⟨i0, by grind⟩
          · exact .inr ⟨i, by grind⟩
        · intro f hf
          rcases h7 f (by simpa using hf) with e | ⟨i, e⟩
          · exact .inl e
          · exact .inr ⟨i, by grind⟩
      have := ih _ _ _ this hr
      simpa using this

/-- **C78, what callers get.** In every execution: a frame returned is the response that was set, at most one caller gets it, and
ErrStreamClosed is returned only for a response that was closed (and never set). -/
theorem C78_results {acts : List RspAct} {s : RspSt} (h : rspRun acts = some s) :
    (∀ (i : Nat) f, s.calls[i]? = some (.frame f) → RspAct.set f ∈ acts) ∧
    (∀ (i j : Nat) f g, s.calls[i]? = some (.frame f) → s.calls[j]? = some (.frame g) → i = j) ∧
    (∀ i : Nat, s.calls[i]? = some .streamClosed → RspAct.close ∈ acts ∧ ∀ f, RspAct.set f ∉ acts) := by
  have hI := RspInv.reach h
  exact ⟨hI.got, hI.unique, fun i hi => ⟨hI.str i hi, hI.one (hI.str i hi)⟩⟩

/-- **C78, closed responses and contexts**: once the response is closed every waiting call can return ErrStreamClosed, and can do
nothing else but (with a context) return the context's error. A call with a context can always return once it is done. -/
theorem C78_closed {acts : List RspAct} {s : RspSt} (h : rspRun acts = some s) {i : Nat} {w : Bool}
    (hi : s.calls[i]? = some (.waiting w)) :
    (RspAct.close ∈ acts → ∃ s', rspStep s (.recv i) = some s' ∧ s'.calls[i]? = some .streamClosed) ∧
    (w = true → ∃ s', rspStep s (.ctxDone i) = some s' ∧ s'.calls[i]? = some .ctxErr) := by
  have hI := RspInv.reach h
  have hlt : i < s.calls.length := (List.getElem?_eq_some_iff.mp hi).1
  constructor
  · intro hc
    have hb : s.buf = none := by
      cases hb : s.buf with
      | none => rfl
      | some f => exact absurd (hI.buf f hb).1 (hI.one hc f)
    exact ⟨_, by simp only [rspStep, hi, hb, hI.cl.mpr hc, if_true]; rfl, by simp [hlt]⟩
  · intro hw; subst hw
    exact ⟨_, by simp only [rspStep, hi]; rfl, by simp [hlt]⟩

/-- **C78, partial**: once the response is set, the first call to receive gets it: a waiting call can return the frame unless
another call already has. So a single call always can. -/
theorem C78_set_partial {acts : List RspAct} {s : RspSt} (h : rspRun acts = some s) {f : Nat} (hf : RspAct.set f ∈ acts)
    {i : Nat} {w : Bool} (hi : s.calls[i]? = some (.waiting w)) :
    (∃ s', rspStep s (.recv i) = some s' ∧ s'.calls[i]? = some (.frame f)) ∨ ∃ j : Nat, j ≠ i ∧ s.calls[j]? = some (.frame f) := by
  have hI := RspInv.reach h
  have hlt : i < s.calls.length := (List.getElem?_eq_some_iff.mp hi).1
  rcases hI.taken f hf with hb | ⟨j, hj⟩
  · exact .inl ⟨_, by simp only [rspStep, hi, hb]; rfl, by simp [hlt]⟩
  · refine .inr ⟨j, ?_, hj⟩
    intro e; subst e; rw [hi] at hj; simp at hj

/-- The hypotheses of the two theorems before: callers that wait, one of them for a response that was closed, one for a response
that was answered. -/
example : (rspRun [.get false, .get true, .close]).map (·.calls) = some [.waiting false, .waiting true] ∧
    (rspRun [.get false, .get true, .set 9, .recv 1]).map (·.calls) = some [.waiting false, .frame 9] := by decide

/-- **C78 is false for a second call**: when one call has got the frame, a call of GetFrame without context that has not returned
never returns, in any continuation: neither the frame nor an error, even when the connection is closed. -/
theorem C78_refuted {acts : List RspAct} {s : RspSt} (h : rspRun acts = some s) {i j f : Nat}
    (hj : s.calls[j]? = some (.frame f)) (hi : s.calls[i]? = some (.waiting false)) {more : List RspAct} {s' : RspSt}
    (hr : runActs rspStep s more = some s') : s'.calls[i]? = some (.waiting false) := by
  have hI := RspInv.reach h
  have hset := hI.got j f hj
  have H := runActs_inv (step := rspStep) (P := fun t : RspSt => t.event = true ∧ t.buf = none ∧ t.closed = false ∧
      t.calls[i]? = some (.waiting false)) (by
    intro t a t' ⟨k1, k2, k3, k4⟩ hs
    cases a <;> simp only [rspStep] at hs <;> (repeat' (split at hs)) <;>
      first
      | (simp at hs; done)
      | (simp only [Option.some.injEq] at hs; subst hs)
    all_goals try first | (exfalso; simp_all; done) | grind) ?_ hr
  · exact H.2.2.2
  · refine ⟨hI.ev.mpr (.inl ⟨f, hset⟩), ?_, ?_, hi⟩
    · cases hb : s.buf with
      | none => rfl
      | some g => exact absurd hj ((hI.buf g hb).2 j f)
    · cases hc : s.closed with
      | false => rfl
      | true => exact absurd hset (hI.one (hI.cl.mp hc) f)

/-- Three calls, one with a context; the first gets the frame, the context of the second ends, the third waits for ever. -/
example : rspRun [.get false, .get true, .get false, .set 9, .recv 0, .ctxDone 1] =
    some { buf := none, closed := false, event := true, calls := [.frame 9, .ctxErr, .waiting false] } := by decide

example : (rspRun [.get false, .get true, .close, .recv 1, .recv 0]).map (·.calls) = some [.streamClosed, .streamClosed] := by decide

end Qrpc
