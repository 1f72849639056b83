import Verif.Props.Client
import Verif.Lemmas.Measure
/-! # C89: when a client connection that does not reconnect is closed or lost, everything ends -/
namespace Qrpc

/-- A step of one of the connection's goroutines or of a caller inside a call, other than `ReadFrame` returning a frame; a
handler or callback returning is one. -/
def CAct.inner : CAct → Bool
  | .go _ | .enq _ | .enqDone _ | .recv _ | .waitDone _ | .wDeq _ _ | .wDone | .wGo | .wWrite _ _ | .rErr | .rGo | .lGo | .dialOk
  | .dialFail | .handlerDone => true
  | _ => false

/-- A new call. -/
def CAct.isCall : CAct → Bool
  | .request _ _ _ | .send _ _ => true
  | _ => false

def CAct.isFrame : CAct → Bool
  | .rFrame _ => true
  | _ => false

def CPc.toEnd : CPc → Nat
  | .idle => 0 | .wait _ _ => 1 | .enq _ _ => 10 | .load _ => 11 | .genId _ _ => 12 | .check _ _ => 13

def CRd.toEnd : CRd → Nat
  | .off => 0 | .exit => 1 | .read => 2 | .opening => 3 | .check => 4 | .deliver _ _ => 3 | .lookup _ => 4

def CWr.toEnd (batch toSend : Nat) : CWr → Nat
  | .off => 0 | .exit => 1 | .first => 2 | .dist _ => 3 + toSend | .write => 4 + batch | .register => 5 + batch
  | .more _ => 6 + batch

def CLp.toEnd : CLp → Nat
  | .ended => 0 | .selfClose => 1 | .endLoop => 2 | .waitWG => 3 | .onDisconnect => 4 | .closeRwc => 5 | .waitDone => 6
  | .onConnect => 7 | .spawn => 14 | .dialing _ => 15 | .dialCheck _ => 15 | .connect => 16

/-- Steps the connection's own goroutines have left. -/
def CSt.toEnd (s : CSt) : Nat :=
  s.loop.toEnd + s.rd.toEnd + s.handlers + s.wr.toEnd s.batch.length s.toSend.length + 8 * (s.frames.length - s.deq)

def CAct.who : CAct → Option Nat
  | .go i | .enq i | .enqDone i | .recv i | .waitDone i | .request i _ _ | .send i _ => some i
  | _ => none

set_option maxHeartbeats 8000000 in
theorem cLeft_step {c : CConf} {s s' : CSt} {a : CAct} (hc : c.reconnect = false) (hI : CInv c s) (hJ : NoDial s) (hx : s.done = true)
    (hs : cStep c s a = some s') (ha : a.isCall = false) :
    s'.done = true ∧
    match a.who with
    | none => (∀ i, s'.pc i = s.pc i) ∧ s'.toEnd + (if a.inner then 1 else 0) ≤ s.toEnd + (if a.isFrame then 2 else 0)
    | some i => s.pc i ≠ .idle ∧ (∀ j, j ≠ i → s'.pc j = s.pc j) ∧ a.inner = true ∧ a.isFrame = false ∧
        (s'.pc i).toEnd + s'.toEnd < (s.pc i).toEnd + s.toEnd := by
  have hfl : ∀ (l : List Nat) (f : Nat → Bool), (l.filter f).length ≤ l.length := fun l f => List.length_filter_le f l
  have hz : ∀ k ok, (s.batch.zip ((batchResults ok (consume k (s.batch.map fun t => (cframeOf s.frames t).bytes))).map SRes.toC)).length ≤ s.batch.length := by
    intro k ok
    rw [List.length_zip]; omega
  have nd := hJ.nd
  have co := hJ.conn
  have nb := hI.a.noBatch
  have ns := hI.a.noSend
  have dq := hI.a.deq
  clear hI hJ
  unfold CSt.done at hx ⊢
  unfold CSt.toEnd
  cstep_cases hs a
  all_goals simp only [CAct.isCall, reduceCtorEq] at ha
  all_goals simp only [CAct.who, CAct.inner, CAct.isFrame, Bool.false_eq_true, if_true, if_false, List.length_append, List.length_cons, List.length_nil, List.length_map, setAt]
  all_goals try first
    | grind [CPc.toEnd, CRd.toEnd, CWr.toEnd, CLp.toEnd, CWr.collecting, CWr.distributing]

/-- No goroutine of the connection and no caller inside a call can take a step. -/
def CSt.AtRest (c : CConf) (s : CSt) : Prop := ∀ a, a.inner = true → cStep c s a = none

/-- **C89.** Take any execution of a connection made by NewConnection up to a state in which the connection has been closed or
lost (`done`) and all callers inside a call are among the first `N`; from there on let everybody run, in any order, with frames
still arriving, handlers closing the transport and further Close calls, but no new calls. Then the callers and the goroutines of
the connection take a bounded number of steps (two more for every frame `ReadFrame` still returns); and when none of them can
take a step any more, every caller has returned, the loop, the reader, the writer and all handlers have ended, the connection is
closed, and every response ever registered has been answered or closed. (`ReadFrame` returning an error on a closed connection,
handlers and callbacks returning are steps: see C31 for when `ReadFrame` does not return.) -/
theorem C89_all_end {c : CConf} (hc : c.reconnect = false) {acts more : List CAct} {s s' : CSt} {N : Nat}
    (hrun : cRun c true acts = some s) (hx : s.done = true) (hN : ∀ i, N ≤ i → s.pc i = .idle)
    (hcall : ∀ a ∈ more, a.isCall = false) (hm : runActs (cStep c) s more = some s') :
    more.countP CAct.inner ≤ sumTo N (fun i => (s.pc i).toEnd) + s.toEnd + 2 * more.countP CAct.isFrame ∧
    (s'.AtRest c → (∀ i, s'.pc i = .idle) ∧ s'.loop = .ended ∧ s'.rd = .off ∧ s'.wr = .off ∧ s'.handlers = 0 ∧ s'.closed = true ∧
      s'.rwc = false ∧ s'.respes = [] ∧ ∀ t ∈ s'.regd, s'.revs t ≠ []) := by
  have key : ∀ (more : List CAct) (s : CSt), CInv c s → NoDial s → s.done = true → (∀ i, N ≤ i → s.pc i = .idle) →
      (∀ a ∈ more, a.isCall = false) → runActs (cStep c) s more = some s' → s'.done = true ∧
      more.countP CAct.inner + (sumTo N (fun i => (s'.pc i).toEnd) + s'.toEnd) ≤
        sumTo N (fun i => (s.pc i).toEnd) + s.toEnd + 2 * more.countP CAct.isFrame := by
    intro more
    induction more with
    | nil => intro s _ _ hx _ _ h; simp only [runActs, Option.some.injEq] at h; subst h; simp [hx]
    | cons a as ih =>
      intro s hI hJ hx hN hcall h
      rw [runActs] at h
      cases h1 : cStep c s a with
      | none => rw [h1] at h; simp at h
      | some s1 =>
        rw [h1] at h
        obtain ⟨h2, h3⟩ := cLeft_step hc hI hJ hx h1 (hcall a (by simp))
        rw [List.countP_cons, List.countP_cons]
        cases hw : a.who with
        | none =>
          rw [hw] at h3
          simp only at h3
          obtain ⟨h4, h5⟩ := h3
          obtain ⟨h6, h7⟩ := ih s1 (hI.step h1) (hJ.step hc h1) h2 (fun i hi => by rw [h4]; exact hN i hi) (fun b hb => hcall b (by simp [hb])) h
          refine ⟨h6, ?_⟩
          have : (fun i => (s1.pc i).toEnd) = fun i => (s.pc i).toEnd := by funext i; rw [h4]
          rw [this] at h7
          cases hi : a.inner <;> cases hf : a.isFrame <;> simp only [hi, hf, if_true, if_false, Bool.false_eq_true] at h5 ⊢ <;> omega
        | some i =>
          rw [hw] at h3
          simp only at h3
          obtain ⟨h3, h4, hi, hf, h5⟩ := h3
          have hlt : i < N := by
            rcases Nat.lt_or_ge i N with h | h
            · exact h
            · exact absurd (hN _ h) h3
          obtain ⟨h6, h7⟩ := ih s1 (hI.step h1) (hJ.step hc h1) h2 (fun j hj => by rw [h4 j (by omega)]; exact hN j hj) (fun b hb => hcall b (by simp [hb])) h
          refine ⟨h6, ?_⟩
          have := sumTo_change (n := N) (f := fun i => (s.pc i).toEnd) (g := fun i => (s1.pc i).toEnd) hlt (fun j hj => by rw [h4 j hj])
          simp only [hi, hf, if_true, if_false, Bool.false_eq_true]
          omega
  obtain ⟨hx', hb⟩ := key more s (CInv.reach hrun) (NoDial.reach hc hrun) hx hN hcall hm
  refine ⟨by omega, fun hq => ?_⟩
  have hrun' : cRun c true (acts ++ more) = some s' := by
    unfold cRun at hrun ⊢; rw [runActs_append, hrun]; exact hm
  have hI := CInv.reach hrun'
  have hJ := NoDial.reach hc hrun'
  have hcallers : ∀ i, s'.pc i = .idle := by
    intro i
    cases hp : s'.pc i with
    | idle => rfl
    | check p b => have := hq (.go i) rfl; simp only [cStep, hp] at this; split at this <;> simp at this
    | genId p b => have := hq (.go i) rfl; simp [cStep, hp] at this
    | load f => have := hq (.go i) rfl; simp only [cStep, hp] at this; split at this <;> simp at this
    | enq f g => have := hq (.enqDone i) rfl; simp [cStep, hp, hx'] at this
    | wait t g => have := hq (.waitDone i) rfl; simp [cStep, hp, hx', hc] at this
  have hwr : s'.wr = .off := by
    cases hd : decide (s'.wr = .off) with
    | true => exact of_decide_eq_true hd
    | false =>
      by_cases hf : s'.wr = .first
      · have := hq .wDone rfl; simp [cStep, hf, hx'] at this
      · obtain ⟨a, s2, h2, ha⟩ := writer_not_stuck (c := c) hI.a (of_decide_eq_false hd) (fun h => absurd h hf)
        rw [hq a (by cases a <;> simp_all [CAct.writer, CAct.inner])] at h2
        simp at h2
  have hrd : s'.rd = .off := by
    have hg := hq .rGo rfl
    cases hp : s'.rd with
    | off => rfl
    | check => simp only [cStep, hp] at hg; split at hg <;> simp at hg
    | opening => simp only [cStep, hp] at hg; split at hg <;> simp at hg
    | read => have := hq .rErr rfl; simp [cStep, hp] at this
    | lookup f =>
      simp only [cStep, hp] at hg
      repeat' (split at hg)
      all_goals simp at hg
    | deliver t f => simp [cStep, hp] at hg
    | exit => simp [cStep, hp] at hg
  have hh : s'.handlers = 0 := by
    have hg := hq .handlerDone rfl
    simp only [cStep] at hg
    split at hg
    · simp at hg
    · omega
  have hl : s'.loop = .ended := by
    have hg := hq .lGo rfl
    cases hp : s'.loop with
    | ended => rfl
    | connect => simp only [cStep, hp] at hg; split at hg <;> simp at hg
    | dialing n => exact absurd hp (hJ.nd n).1
    | dialCheck n => exact absurd hp (hJ.nd n).2
    | spawn => simp [cStep, hp] at hg
    | onConnect => simp [cStep, hp] at hg
    | waitDone => simp [cStep, hp, hx'] at hg
    | closeRwc => simp only [cStep, hp] at hg; split at hg <;> simp at hg
    | onDisconnect => simp [cStep, hp] at hg
    | waitWG => simp [cStep, hp, hrd, hwr, hh] at hg
    | endLoop => simp [cStep, hp, hc] at hg
    | selfClose => simp only [cStep, hp] at hg; split at hg <;> simp at hg
  have hrwc := hI.l.noConn (by simp [hl]) (by simp [hl, CLp.connected])
  refine ⟨hcallers, hl, hrd, hwr, hh, hI.l.ended hl, hrwc, (C19_no_outstanding hrun' hrwc).1, fun t ht => ?_⟩
  rcases (C19_no_outstanding hrun' hrwc).2 t ht with h | ⟨f, hf⟩
  · exact h
  · rw [hrd] at hf; cases hf

/-- Its hypotheses: the peer hangs up while request 3 is outstanding and a third caller is about to submit a frame; eleven
steps later everything has ended and the response of request 3 is closed. -/
def exHangup : List CAct := exSwap.take 28 ++ [.request 2 false [3], .go 2, .go 2, .go 2, .rErr, .rGo]
example : (cRun cfg2 true exHangup).map (fun s => (s.loop, s.done, s.respes, s.pc 2, s.wr)) =
    some (.waitDone, true, [(3, 0)], .enq ⟨7, [3], true, false, false, false⟩ 1, .first) := by rfl
example : (cRun cfg2 true (exHangup ++ [.lGo, .enq 2, .wDeq true true, .lGo, .wDone, .waitDone 2, .wGo, .lGo, .lGo, .lGo, .lGo])).map
    (fun s => (s.loop, s.rd, s.wr, s.pc 2, s.closed, s.revs 0)) = some (.ended, .off, .off, .idle, true, [.closed]) := by rfl

end Qrpc
