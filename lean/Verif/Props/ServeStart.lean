import Verif.Model.ServeStart
import Verif.Props.ServeWrite
import Verif.Spec.Wire
/-! # Property C95: writing to a connection that was just accepted -/
namespace Qrpc
open Spec

/-- A goroutine that has not got past serveconn.go:480. -/
def TPc.early : TPc → Bool
  | .idle | .enq _ | .wait _ | .locked _ | .infl _ | .inflUndo | .stuck => true
  | _ => false

def TPc.holds0 : TPc → Bool
  | .locked _ | .infl _ | .inflUndo | .stuck => true
  | _ => false

def TPc.jams : TPc → Bool
  | .inflUndo | .stuck => true
  | _ => false

/-- The write lock is kept, for ever, by a call that took the connection for one whose reader has gone. -/
def Jam (g : GSt) : Prop := (∃ i, (g.pc i).jams = true ∧ g.lock = .held i) ∨ g.lock = .dead

/-- Nothing has been written and nobody has got a result. -/
structure Nothing (g : GSt) : Prop where
  wire : g.wire = []
  sent : g.sent = []
  rets : g.rets = []
  slot : ∀ t, g.slot t = none
  early : ∀ j, (g.pc j).early = true
  lock : ∀ j, (g.pc j).holds0 = true → g.lock = .held j

theorem Nothing.not_infl {g : GSt} (h : Nothing g) (hj : Jam g) {i : Nat} (hi : (g.pc i).holds0 = true) : (g.pc i).jams = true := by
  have h6 := h.lock i hi
  rcases hj with ⟨k, hk, hl⟩ | hl
  · rw [h6] at hl
    injection hl with e
    rw [e]
    exact hk
  · rw [h6] at hl
    cases hl

set_option maxHeartbeats 4000000 in
theorem Nothing.step {cap : Nat} {g g' : GSt} {a : GAct} (h : Nothing g) (hj : Jam g ∨ g.inflight = 0)
    (hs : gStep cap g a = some g') : Nothing g' := by
  have hne : ∀ i t, g.pc i = .infl t → g.inflight = 0 := by
    intro i t hi
    rcases hj with hj | hj
    · have := h.not_infl hj (i := i) (by rw [hi]; rfl)
      rw [hi] at this
      cases this
    · exact hj
  obtain ⟨h1, h2, h3, h4, h5, h6⟩ := h
  clear hj
  gstep_cases hs a
  all_goals constructor
  all_goals try simp only []
  all_goals try first
    | assumption
    | grind [setAt, TPc.early, TPc.holds0]

set_option maxHeartbeats 4000000 in
/-- A jam stays. -/
theorem Jam.step {cap : Nat} {g g' : GSt} {a : GAct} (h : Nothing g) (hj : Jam g) (hs : gStep cap g a = some g') : Jam g' := by
  have hn := fun i => h.not_infl hj (i := i)
  obtain ⟨h1, h2, h3, h4, h5, h6⟩ := h
  unfold Jam at *
  gstep_cases hs a
  all_goals try simp only []
  all_goals try first
    | assumption
    | grind [setAt, TPc.early, TPc.holds0, TPc.jams]

set_option maxHeartbeats 4000000 in
/-- Before the start, a step does what it would do after the start, or jams the connection. -/
theorem early_step {cap : Nat} {g g' : GSt} {a : GAct} (h : Nothing g) (h0 : g.inflight = 0) (hr : a.ofReader = false)
    (hs : gStep cap g a = some g') :
    Jam g' ∨ (g'.inflight = 0 ∧ gStep cap { g with inflight := 1 } a = some { g' with inflight := 1 }) := by
  obtain ⟨h1, h2, h3, h4, h5, h6⟩ := h
  unfold Jam
  gstep_cases hs a
  all_goals try simp only []
  all_goals try first
    | exact .inr ⟨h0, rfl⟩
    | (right; refine ⟨h0, ?_⟩; simp only [gStep, goStep]; grind [GSt.frame, GSt.bufs])
    | grind [setAt, TPc.early, TPc.holds0, TPc.jams, GAct.ofReader]

set_option maxHeartbeats 4000000 in
/-- Nobody leaves a jammed connection before its context is cancelled. -/
theorem jam_wait {cap : Nat} {g g' : GSt} {a : GAct} (h : Nothing g) (hj : Jam g) (hs : gStep cap g a = some g') (hc : g'.ctx = false) :
    g.ctx = false ∧ ∀ j, g.pc j ≠ .idle → g'.pc j ≠ .idle := by
  have hn := fun i => h.not_infl hj (i := i)
  obtain ⟨h1, h2, h3, h4, h5, h6⟩ := h
  gstep_cases hs a
  all_goals try simp only []
  all_goals try first
    | exact ⟨hc, fun _ h => h⟩
    | grind [setAt, TPc.early, TPc.holds0, TPc.jams]

structure G0Inv (cap : Nat) (s : G0St) : Prop where
  cases' : (Nothing s.g ∧ Jam s.g) ∨ (s.started = true ∧ ∃ acts, gRun cap acts = some s.g) ∨
    (s.started = false ∧ Nothing s.g ∧ s.g.inflight = 0 ∧ ∃ acts, gRun cap acts = some { s.g with inflight := 1 })

theorem gRun_snoc {cap : Nat} {acts : List GAct} {g g' : GSt} {a : GAct} (h : gRun cap acts = some g) (hs : gStep cap g a = some g') :
    gRun cap (acts ++ [a]) = some g' := by
  rw [gRun, runActs_append, show runActs (gStep cap) GSt.init acts = some g from h]
  simp [runActs, hs]

theorem G0Inv.step {cap : Nat} {s s' : G0St} {a : G0Act} (h : G0Inv cap s) (hs : g0Step cap s a = some s') : G0Inv cap s' := by
  refine ⟨?_⟩
  cases a with
  | start =>
    simp only [g0Step] at hs
    split at hs
    · cases hs
    · next hst =>
      simp only [Option.some.injEq] at hs
      subst hs
      rcases h.cases' with ⟨h1, h2⟩ | ⟨h1, _⟩ | ⟨_, _, _, h4⟩
      · exact .inl ⟨⟨h1.wire, h1.sent, h1.rets, h1.slot, h1.early, h1.lock⟩, h2⟩
      · exact absurd h1 hst
      · exact .inr (.inl ⟨rfl, h4⟩)
  | g a =>
    simp only [g0Step] at hs
    split at hs
    · cases hs
    · next hr =>
      split at hs
      · next g hg =>
        simp only [Option.some.injEq] at hs
        subst hs
        rcases h.cases' with ⟨h1, h2⟩ | ⟨h1, acts, h2⟩ | ⟨h1, h2, h3, acts, h4⟩
        · exact .inl ⟨h1.step (.inl h2) hg, h2.step h1 hg⟩
        · exact .inr (.inl ⟨h1, _, gRun_snoc h2 hg⟩)
        · have hra : a.ofReader = false := by
            cases hb : a.ofReader with
            | false => rfl
            | true => exact absurd ⟨hb, h1⟩ hr
          rcases early_step h2 h3 hra hg with h5 | ⟨h5, h6⟩
          · exact .inl ⟨h2.step (.inr h3) hg, h5⟩
          · exact .inr (.inr ⟨h1, h2.step (.inr h3) hg, h5, _, gRun_snoc h4 h6⟩)
      · cases hs

theorem G0Inv.init (cap : Nat) : G0Inv cap G0St.init :=
  ⟨.inr (.inr ⟨rfl, ⟨rfl, rfl, rfl, fun _ => rfl, fun _ => rfl, fun _ h => by cases h⟩, rfl, [], rfl⟩)⟩

theorem G0Inv.reach {cap : Nat} {acts : List G0Act} {s : G0St} (h : g0Run cap acts = some s) : G0Inv cap s :=
  runActs_inv (P := G0Inv cap) (fun _ _ _ hi hs => hi.step hs) (G0Inv.init cap) h

/-- **C95, what holds.** In every execution of a connection from the moment it can be found: once it is served, either its write
path is in a state of the executions of `Model/ServeWrite.lean` - so that all theorems about them apply -, or it is jammed: the write
lock is held for ever, and nothing has been written. (Missing: the second case must not exist.) -/
theorem C95_partial {cap : Nat} {acts : List G0Act} {s : G0St} (hrun : g0Run cap acts = some s) (hst : s.started = true) :
    (∃ as, gRun cap as = some s.g) ∨ (s.g.lock ≠ .free ∧ s.g.wire = [] ∧ s.g.rets = []) := by
  rcases (G0Inv.reach hrun).cases' with ⟨h1, h2⟩ | ⟨_, h⟩ | ⟨h, _⟩
  · refine .inr ⟨?_, h1.wire, h1.rets⟩
    rcases h2 with ⟨i, _, hl⟩ | hl <;> rw [hl] <;> simp
  · exact .inl h
  · rw [hst] at h; cases h

/-- No write before the start means no jam. -/
theorem C95_quiet_partial {cap : Nat} {acts : List GAct} {s : G0St} (hrun : g0Run cap (.start :: acts.map .g) = some s) :
    gRun cap acts = some s.g := by
  have : ∀ (acts : List GAct) (g : GSt) (s : G0St), runActs (g0Step cap) ⟨g, true⟩ (acts.map .g) = some s →
      runActs (gStep cap) g acts = some s.g := by
    intro acts
    induction acts with
    | nil =>
      intro g s h
      simp only [List.map_nil, runActs, Option.some.injEq] at h
      rw [← h]
      rfl
    | cons a as ih =>
      intro g s h
      simp only [List.map_cons, runActs, g0Step] at h
      rw [if_neg (by simp)] at h
      simp only [runActs]
      cases hg : gStep cap g a with
      | none => simp [hg] at h
      | some g2 =>
        simp only [hg] at h
        exact ih g2 s h
  exact this acts _ s hrun

/-- **C95 is false of the code.** A goroutine that writes to a connection before it is served (a push to all connections, by
WalkConn) takes it for one whose reader has gone, and waits for its end with the write lock in its hands. From then on, in every
continuation: nothing is ever written on the connection, no write on it ever gets a result, and - until the connection is
closed - no call returns. The connection is served all the while: requests are read and handled. -/
theorem C95_refuted {cap : Nat} {acts more : List G0Act} {s s' : G0St} (hrun : g0Run cap acts = some s)
    {i t : Nat} (hi : s.g.pc i = .infl t) (hst : s.started = false)
    (hmore : runActs (g0Step cap) s (.g (.go i) :: more) = some s') :
    s'.g.wire = [] ∧ s'.g.rets = [] ∧ (s'.g.ctx = false → s'.g.pc i ≠ .idle ∧ ∀ j, s.g.pc j ≠ .idle → s'.g.pc j ≠ .idle) := by
  have h0 : Nothing s.g ∧ s.g.inflight = 0 := by
    rcases (G0Inv.reach hrun).cases' with ⟨h1, h2⟩ | ⟨h1, _⟩ | ⟨_, h2, h3, _⟩
    · have := h1.not_infl h2 (i := i) (by rw [hi]; rfl)
      rw [hi] at this
      cases this
    · rw [hst] at h1; cases h1
    · exact ⟨h2, h3⟩
  simp only [runActs, g0Step, GAct.ofReader, Bool.false_eq_true, false_and, if_false, gStep, goStep, hi, h0.2, Int.zero_add,
    if_true] at hmore
  have hN : Nothing { s.g with pc := setAt s.g.pc i .inflUndo, inflight := 1 } :=
    h0.1.step (cap := cap) (a := .go i) (.inr h0.2) (by simp [gStep, goStep, hi, h0.2])
  have hJ : Jam { s.g with pc := setAt s.g.pc i .inflUndo, inflight := 1 } :=
    .inl ⟨i, by simp [setAt, TPc.jams], h0.1.lock i (by rw [hi]; rfl)⟩
  have := runActs_inv (P := fun u : G0St => Nothing u.g ∧ Jam u.g ∧
      (u.g.ctx = false → u.g.pc i ≠ .idle ∧ ∀ j, s.g.pc j ≠ .idle → u.g.pc j ≠ .idle)) ?_ ⟨hN, hJ, ?_⟩ hmore
  · exact ⟨this.1.wire, this.1.rets, this.2.2⟩
  · rintro u a u' ⟨k1, k2, k3⟩ hs
    cases a with
    | start =>
      simp only [g0Step] at hs
      split at hs
      · cases hs
      · simp only [Option.some.injEq] at hs
        subst hs
        exact ⟨⟨k1.wire, k1.sent, k1.rets, k1.slot, k1.early, k1.lock⟩, k2, k3⟩
    | g a =>
      simp only [g0Step] at hs
      split at hs
      · cases hs
      · split at hs
        · next g hg =>
          simp only [Option.some.injEq] at hs
          subst hs
          refine ⟨k1.step (.inl k2) hg, k2.step k1 hg, fun hc => ?_⟩
          obtain ⟨w1, w2⟩ := jam_wait k1 k2 hg hc
          obtain ⟨w3, w4⟩ := k3 w1
          exact ⟨w2 i w3, fun j hj => w2 j (w4 j hj)⟩
        · cases hs
  · intro _
    refine ⟨by simp [setAt], fun j hj => ?_⟩
    simp only [setAt]
    split
    · simp
    · exact hj

/-- A push to a connection that is about to be served; then it is served, and a handler tries to answer: -/
def exJam : List G0Act :=
  [.g (.call 0 ⟨layout 2 1 PushFlag [7], false, false, true, false⟩), .g (.enq 0), .g (.lock 0), .g (.go 0)]

def exJamMore : List G0Act :=
  [.start, .g (.go 0), .g (.call 1 ⟨layout 1 1 0 [8], false, false, false, false⟩), .g (.enq 1)]

/-- it is in C95_refuted's position, ... -/
example : (g0Run 2 exJam).map (fun s => (s.g.pc 0, s.started)) = some (.infl 0, false) := by rfl

/-- ... the pushing goroutine and the handler wait, with the lock taken. -/
theorem C95_refuted_example : (g0Run 2 (exJam ++ .g (.go 0) :: exJamMore)).map (fun s => (s.g.pc 0, s.g.pc 1, s.g.lock, s.g.ctx, s.g.wire)) =
    some (.stuck, .wait 1, .held 0, false, []) := by rfl

/-- If the connection is served a moment earlier, both frames are written. -/
example : (g0Run 2 (exJam.take 3 ++ [.start, .g (.go 0), .g (.go 0), .g (.call 1 ⟨layout 1 1 0 [8], false, false, false, false⟩), .g (.enq 1),
      .g (.deq 0 true true), .g (.deq 0 true true), .g (.go 0), .g (.go 0), .g (.write 0 34 true)])).map (fun s => (s.started, s.g.wire)) =
    some (true, layout 2 1 PushFlag [7] ++ layout 1 1 0 [8]) := by rfl

end Qrpc
