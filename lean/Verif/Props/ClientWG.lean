import Verif.Props.Client
import Verif.Model.ClientWG
/-! # Property of a client connection with user code in its own goroutines: C79 -/
namespace Qrpc

theorem hStep_cStep {c : CConf} {o : Owned} {s s' : CSt} {a : CAct} (h : hStep c o s a = some s') : cStep c s a = some s' := by
  unfold hStep at h
  split at h
  · split at h
    · exact h
    · cases h
  · split at h
    · exact h
    · cases h
  · split at h
    · exact h
    · cases h
  · split at h
    · exact h
    · cases h
  · split at h
    · cases h
    · exact h
  · exact h

/-- Every execution with owned callers is an execution of the connection: what C17-C25, C44-C46, C60, C71 say of every execution
holds of it. -/
theorem hRun_cRun {c : CConf} {o : Owned} {d : Bool} {acts : List CAct} {s : CSt} (h : hRun c o d acts = some s) :
    cRun c d acts = some s := by
  unfold hRun at h
  unfold cRun
  generalize CSt.init d = s0 at h
  induction acts generalizing s0 with
  | nil => exact h
  | cons a as ih =>
    obtain ⟨s1, h1, h2⟩ := runActs_cons_some h
    simp only [runActs, hStep_cStep h1]
    exact ih _ h2

theorem busy_pos {s : CSt} {l : List Nat} {i : Nat} (h : i ∈ l) (hb : s.pc i ≠ .idle) : 0 < s.busy l := by
  unfold CSt.busy
  rw [List.countP_pos_iff]
  exact ⟨i, h, by simpa using hb⟩

/-! ## C79 A reconnecting connection reconnects -/

/-- Caller `i` waits for the result of a write in the queue, there is no writer goroutine, and the loop goroutine is held up. -/
structure HeldUp (i t g n : Nat) (s : CSt) : Prop where
  pc : s.pc i = .wait t g
  slot : s.slot t = none
  wr : s.wr = .off
  gen : s.gen = n

/-- A handler waits; it is the only one left. -/
structure HeldByHandler (i t g n : Nat) (s : CSt) : Prop extends HeldUp i t g n s where
  loop : s.loop = .waitWG
  rd : s.rd = .off
  handlers : s.handlers = 1

structure HeldBySubscriber (i t g n : Nat) (s : CSt) : Prop extends HeldUp i t g n s where
  loop : s.loop = .waitWG
  rd : s.rd ≠ .off

structure HeldByCallback (i t g n : Nat) (s : CSt) : Prop extends HeldUp i t g n s where
  loop : s.loop.inCallback = true

set_option maxHeartbeats 1000000 in
theorem HeldByHandler.step {c : CConf} {o : Owned} {i t g n : Nat} {s s' : CSt} {a : CAct} (hc : c.reconnect = true)
    (hi : i ∈ o.handler) (h : HeldByHandler i t g n s) (hs : hStep c o s a = some s') : HeldByHandler i t g n s' := by
  have hb := busy_pos hi (s := s) (by simp [h.pc])
  obtain ⟨⟨h1, h2, h3, h4⟩, h5, h6, h7⟩ := h
  have hna : a ≠ .handlerDone := by
    rintro rfl
    simp only [hStep] at hs
    split at hs
    · omega
    · cases hs
  have hs := hStep_cStep hs
  cstep_cases hs a
  all_goals refine ⟨⟨?_, ?_, ?_, ?_⟩, ?_, ?_, ?_⟩
  all_goals try simp only []
  all_goals try first
    | assumption
    | grind [setAt]

set_option maxHeartbeats 1000000 in
theorem HeldBySubscriber.step {c : CConf} {o : Owned} {i t g n : Nat} {s s' : CSt} {a : CAct} (hc : c.reconnect = true)
    (hi : i ∈ o.subscriber) (h : HeldBySubscriber i t g n s) (hs : hStep c o s a = some s') : HeldBySubscriber i t g n s' := by
  have hb := busy_pos hi (s := s) (by simp [h.pc])
  obtain ⟨⟨h1, h2, h3, h4⟩, h5, h6⟩ := h
  have hna : a ≠ .rGo ∧ a ≠ .rErr ∧ ∀ f, a ≠ .rFrame f := by
    refine ⟨?_, ?_, fun f => ?_⟩ <;> rintro rfl <;> simp only [hStep] at hs <;> split at hs <;> first | omega | cases hs
  have hs := hStep_cStep hs
  cstep_cases hs a
  all_goals refine ⟨⟨?_, ?_, ?_, ?_⟩, ?_, ?_⟩
  all_goals try simp only []
  all_goals try first
    | assumption
    | grind [setAt]

set_option maxHeartbeats 1000000 in
theorem HeldByCallback.step {c : CConf} {o : Owned} {i t g n : Nat} {s s' : CSt} {a : CAct} (hc : c.reconnect = true)
    (hi : i ∈ o.callback) (h : HeldByCallback i t g n s) (hs : hStep c o s a = some s') : HeldByCallback i t g n s' := by
  have hb := busy_pos hi (s := s) (by simp [h.pc])
  obtain ⟨⟨h1, h2, h3, h4⟩, h5⟩ := h
  have hna : a ≠ .lGo := by
    rintro rfl
    simp only [hStep] at hs
    split at hs
    · cases hs
    · next hn => exact hn ⟨h5, by omega⟩
  have hs := hStep_cStep hs
  cstep_cases hs a
  all_goals refine ⟨⟨?_, ?_, ?_, ?_⟩, ?_⟩
  all_goals try simp only []
  all_goals try first
    | assumption
    | grind [setAt, CLp.inCallback]

/-- **C79 is false, handlers**: the connection is lost, a handler - or the reset frame sent after it returned - has a write in the
queue, and the writer goroutine is gone. In *every* continuation the handler keeps waiting and no new transport connection is made,
whatever else happens, a `Close` included: the write waits for the writer of the next connection (clientconn.go:400-407), which is
made only after the handler returned (240). -/
theorem C79_refuted_handler {c : CConf} {o : Owned} {d : Bool} {acts more : List CAct} {s s' : CSt} (hrun : hRun c o d acts = some s)
    (hc : c.reconnect = true) (hl : s.loop = .waitWG) (hr : s.rd = .off) (hw : s.wr = .off) (hh : s.handlers = 1)
    {i t g : Nat} (hi : i ∈ o.handler) (hp : s.pc i = .wait t g) (ht : s.deq ≤ t)
    (hmore : runActs (hStep c o) s more = some s') : s'.pc i = .wait t g ∧ s'.loop = .waitWG ∧ s'.gen = s.gen := by
  have hq := (CInv.reach (hRun_cRun hrun)).a.queued t ht
  have := runActs_inv (P := HeldByHandler i t g s.gen) (fun _ _ _ hp hs => hp.step hc hi hs)
    ⟨⟨hp, hq, hw, rfl⟩, hl, hr, hh⟩ hmore
  exact ⟨this.pc, this.loop, this.gen⟩

/-- **C79 is false, subscribers**: likewise a subscriber that sends on the connection when it is lost. -/
theorem C79_refuted_subscriber {c : CConf} {o : Owned} {d : Bool} {acts more : List CAct} {s s' : CSt} (hrun : hRun c o d acts = some s)
    (hc : c.reconnect = true) (hl : s.loop = .waitWG) (hr : s.rd ≠ .off) (hw : s.wr = .off)
    {i t g : Nat} (hi : i ∈ o.subscriber) (hp : s.pc i = .wait t g) (ht : s.deq ≤ t)
    (hmore : runActs (hStep c o) s more = some s') : s'.pc i = .wait t g ∧ s'.loop = .waitWG ∧ s'.gen = s.gen := by
  have hq := (CInv.reach (hRun_cRun hrun)).a.queued t ht
  have := runActs_inv (P := HeldBySubscriber i t g s.gen) (fun _ _ _ hp hs => hp.step hc hi hs)
    ⟨⟨hp, hq, hw, rfl⟩, hl, hr⟩ hmore
  exact ⟨this.pc, this.loop, this.gen⟩

/-- **C79 is false, callbacks**: likewise an `OnConnect` or `OnDisconnect` callback that sends on the connection. -/
theorem C79_refuted_callback {c : CConf} {o : Owned} {d : Bool} {acts more : List CAct} {s s' : CSt} (hrun : hRun c o d acts = some s)
    (hc : c.reconnect = true) (hl : s.loop.inCallback = true) (hw : s.wr = .off)
    {i t g : Nat} (hi : i ∈ o.callback) (hp : s.pc i = .wait t g) (ht : s.deq ≤ t)
    (hmore : runActs (hStep c o) s more = some s') : s'.pc i = .wait t g ∧ s'.loop.inCallback = true ∧ s'.gen = s.gen := by
  have hq := (CInv.reach (hRun_cRun hrun)).a.queued t ht
  have := runActs_inv (P := HeldByCallback i t g s.gen) (fun _ _ _ hp hs => hp.step hc hi hs)
    ⟨⟨hp, hq, hw, rfl⟩, hl⟩ hmore
  exact ⟨this.pc, this.loop, this.gen⟩

/-- A handler is running when the connection is lost; it answers after the writer goroutine has ended (`select` in
writeFrameBytes may choose either of its two ready cases, 393-397). -/
def exHandlerHeld : List CAct :=
  [.lGo, .lGo, .lGo, .rGo, .rGo, .rFrame ⟨2, false, false, true⟩, .rGo, .rErr, .rGo, .wDone, .wGo,
   .lGo, .lGo, .lGo, .send 0 ⟨2, [1], false, true, false, false⟩, .go 0, .enq 0]

theorem C79_refuted_handler_example :
    (hRun ⟨1, true, 1, true⟩ ⟨[0], [], []⟩ true exHandlerHeld).map (fun s => (s.loop, s.rd, s.wr, s.handlers, s.pc 0, s.deq)) =
    some (.waitWG, .off, .off, 1, .wait 0 1, 0) := by rfl

/-- A pushed frame comes in, `Close` is called, the subscriber starts a request and submits it after the writer has ended. -/
def exSubscriberHeld : List CAct :=
  [.lGo, .lGo, .lGo, .rGo, .rGo, .rFrame ⟨2, true, false, false⟩, .request 0 false [1], .go 0, .go 0, .go 0, .close, .cancel,
   .wDone, .wGo, .enq 0, .lGo, .lGo, .lGo]

theorem C79_refuted_subscriber_example :
    (hRun ⟨1, true, 1, true⟩ ⟨[], [0], []⟩ true exSubscriberHeld).map (fun s => (s.loop, s.rd, s.wr, s.pc 0, s.deq)) =
    some (.waitWG, .read, .off, .wait 0 1, 0) := by rfl

/-- The connection is lost while `OnConnect` sends its first request. -/
def exCallbackHeld : List CAct :=
  [.lGo, .lGo, .request 0 false [1], .go 0, .go 0, .go 0, .rGo, .rGo, .rErr, .rGo, .wDone, .wGo, .enq 0]

theorem C79_refuted_callback_example :
    (hRun ⟨1, true, 1, true⟩ ⟨[], [], [0]⟩ true exCallbackHeld).map (fun s => (s.loop, s.wr, s.pc 0, s.deq)) =
    some (.onConnect, .off, .wait 0 1, 0) := by rfl

/-! ### What holds -/

/-- Taking down the current transport connection. -/
def CLp.tearing : CLp → Bool
  | .onConnect | .waitDone | .closeRwc | .onDisconnect | .waitWG | .endLoop => true
  | _ => false

/-- The steps of the connection's own goroutines while it is taken down; no frame arrives any more. -/
def CAct.teardown : CAct → Bool
  | .wDeq _ _ | .wDone | .wGo | .wWrite _ _ | .rErr | .rGo | .lGo | .handlerDone => true
  | _ => false

def CLp.left : CLp → Nat
  | .onConnect => 6
  | .waitDone => 5
  | .closeRwc => 4
  | .onDisconnect => 3
  | .waitWG => 2
  | .endLoop => 1
  | _ => 0

def CRd.left : CRd → Nat
  | .check => 4
  | .opening => 3
  | .lookup _ => 4
  | .deliver _ _ => 3
  | .read => 2
  | .exit => 1
  | .off => 0

def CWr.left : CWr → Nat
  | .more _ => 6
  | .register => 5
  | .write => 4
  | .dist _ => 3
  | .first => 2
  | .exit => 1
  | .off => 0

/-- Bounds the steps left until the loop goroutine goes on to `connect`. -/
def CSt.left (s : CSt) : Nat :=
  6 * (s.frames.length - s.deq) + s.batch.length + s.toSend.length + s.wr.left + s.rd.left + s.handlers + s.loop.left

theorem teardown_step {c : CConf} {s s' : CSt} {a : CAct} (hl : s.loop.tearing = true) (hd : s.done = true) (ha : a.teardown = true)
    (hA : CInvA s) (hs : cStep c s a = some s') :
    s'.left < s.left ∧ s'.done = true ∧
      (s'.loop.tearing = true ∨ s'.loop = if c.reconnect then CLp.connect else CLp.selfClose) := by
  have hz := fun (ok : Bool) (k : Nat) => Nat.le_trans (Nat.le_of_eq (List.length_zip (l₁ := s.batch)
    (l₂ := (batchResults ok (consume k (s.batch.map fun t => (cframeOf s.frames t).bytes))).map SRes.toC))) (Nat.min_le_left _ _)
  have hf := fun p : Nat → Bool => List.length_filter_le p s.batch
  have hB := hA.noBatch
  have hT := hA.noSend
  have hdq := hA.deq
  clear hA
  cstep_cases hs a
  all_goals try (simp only [CAct.teardown] at ha; cases ha; done)
  all_goals refine ⟨?_, ?_, ?_⟩
  all_goals try simp only [CSt.left, CSt.done] at *
  all_goals try first
    | assumption
    | grind [CLp.tearing, CLp.left, CRd.left, CWr.left, CWr.collecting, CWr.distributing]

/-- Where the loop goroutine goes when the connection was taken down. -/
def CLp.next (c : CConf) : CLp := if c.reconnect then .connect else .selfClose

/-- **C79, what holds (1)**: once the current transport connection is over, the connection's own goroutines make only finitely many
steps, however they interleave, before the loop goroutine goes on - to connect anew, or without reconnect to close itself. -/
theorem C79_terminates_partial {c : CConf} {o : Owned} {d : Bool} {acts more : List CAct} {s s' : CSt}
    (hrun : hRun c o d acts = some s) (hl : s.loop.tearing = true) (hd : s.done = true) (ht : ∀ a ∈ more, a.teardown = true)
    (hmore : runActs (hStep c o) s more = some s') (hlen : s.left ≤ more.length) :
    ∃ pre post mid, more = pre ++ post ∧ runActs (hStep c o) s pre = some mid ∧ mid.loop = CLp.next c := by
  have hI := CInv.reach (hRun_cRun hrun)
  clear hrun
  induction more generalizing s with
  | nil =>
    have : 0 < s.left := by
      unfold CSt.left
      have : 0 < s.loop.left := by cases h : s.loop <;> simp_all [CLp.tearing, CLp.left]
      omega
    simp at hlen; omega
  | cons a as ih =>
    obtain ⟨s1, h1, h2⟩ := runActs_cons_some hmore
    obtain ⟨hlt, hd1, hl1⟩ := teardown_step hl hd (ht a (by simp)) hI.a (hStep_cStep h1)
    rcases hl1 with hl1 | hl1
    · obtain ⟨pre, post, mid, e1, e2, e3⟩ := ih hl1 hd1 (fun b hb => ht b (List.mem_cons_of_mem _ hb)) h2
        (by simp at hlen; omega) (hI.step (hStep_cStep h1))
      exact ⟨a :: pre, post, mid, by simp [e1], by simp only [runActs, h1]; exact e2, e3⟩
    · exact ⟨[a], as, s1, rfl, by simp only [runActs, h1], by simp only [CLp.next, hl1]⟩

/-- The steps with which a call returns that has not submitted its write, or has the result. -/
def CAct.returning (o : Owned) : CAct → Bool
  | .go i | .enqDone i | .recv i | .waitDone i => decide (i ∈ o.handler ∨ i ∈ o.subscriber ∨ i ∈ o.callback)
  | _ => false

theorem owned_idle {c : CConf} {o : Owned} {s : CSt} (hI : CInv c s) (hd : s.done = true) (hw : s.wr = .off)
    (hstuck : ∀ a, a.returning o = true → hStep c o s a = none)
    (hno : c.reconnect = true → ∀ i t g, (i ∈ o.handler ∨ i ∈ o.subscriber ∨ i ∈ o.callback) → s.pc i = .wait t g → t < s.deq)
    {i : Nat} (hi : i ∈ o.handler ∨ i ∈ o.subscriber ∨ i ∈ o.callback) : s.pc i = .idle := by
  have hgo := hstuck (.go i) (by simpa [CAct.returning] using hi)
  have hen := hstuck (.enqDone i) (by simpa [CAct.returning] using hi)
  have hre := hstuck (.recv i) (by simpa [CAct.returning] using hi)
  have hwd := hstuck (.waitDone i) (by simpa [CAct.returning] using hi)
  simp only [hStep, cStep] at hgo hen hre hwd
  cases hp : s.pc i with
  | idle => rfl
  | check p b => rw [hp] at hgo; simp only at hgo; split at hgo <;> cases hgo
  | genId p b => rw [hp] at hgo; cases hgo
  | load f => rw [hp] at hgo; simp only at hgo; split at hgo <;> cases hgo
  | enq f g => rw [hp] at hen; simp [hd] at hen
  | wait t g =>
    cases hc : c.reconnect with
    | false => rw [hp] at hwd; simp [hd, hc] at hwd
    | true =>
      have hlt := hno hc i t g hi hp
      rcases hI.b hc i t g hp with h1 | h1 | h1 | h1
      · omega
      · cases hsl : s.slot t with
        | none => exact absurd hsl h1
        | some r => rw [hp] at hre; simp [hsl] at hre
      · rw [hI.a.noBatch (by simp [hw, CWr.collecting])] at h1; cases h1
      · rw [hI.a.noSend (by simp [hw, CWr.distributing])] at h1; cases h1

theorem busy_zero {s : CSt} {l : List Nat} (h : ∀ i ∈ l, s.pc i = .idle) : s.busy l = 0 := by
  unfold CSt.busy
  rw [List.countP_eq_zero]
  intro i hi
  simpa using h i hi

/-- **C79, what holds (2)**: taking down a connection gets stuck in no other way than those of `C79_refuted_...`: if none of the
connection's goroutines can make a step, nor a call made by one of them return, then reconnect is on, the writer goroutine is gone,
and a handler, the subscriber or a callback waits for a write that is still in the queue. Without reconnect it never gets stuck. -/
theorem C79_only_deadlock_partial {c : CConf} {o : Owned} {d : Bool} {acts : List CAct} {s : CSt}
    (hrun : hRun c o d acts = some s) (hl : s.loop.tearing = true) (hd : s.done = true)
    (hstuck : ∀ a, a.teardown = true ∨ a.returning o = true → hStep c o s a = none) :
    c.reconnect = true ∧ s.wr = .off ∧
      ∃ i t g, (i ∈ o.handler ∨ i ∈ o.subscriber ∨ i ∈ o.callback) ∧ s.pc i = .wait t g ∧ s.deq ≤ t := by
  have hI := CInv.reach (hRun_cRun hrun)
  have ht := fun a ha => hstuck a (.inl ha)
  have hw : s.wr = .off := by
    apply Classical.byContradiction
    intro hw
    by_cases hf : s.wr = .first
    · have := ht .wDone rfl
      simp [hStep, cStep, hf, hd] at this
    · cases h : s.wr with
      | off => exact hw h
      | first => exact hf h
      | more n =>
        cases n with
        | zero => have := ht .wGo rfl; simp [hStep, cStep, h] at this
        | succ n =>
          have := ht .wDone rfl
          simp only [hStep, cStep, h, hd, if_true] at this
          split at this <;> cases this
      | register =>
        have := ht .wGo rfl
        simp only [hStep, cStep, h] at this
        split at this <;> cases this
      | write =>
        have := ht (.wWrite 0 false) rfl
        simp [hStep, cStep, h] at this
      | dist stop =>
        have := ht .wGo rfl
        simp only [hStep, cStep, h] at this
        cases hts : s.toSend with
        | nil => rw [hts] at this; simp only at this; split at this <;> cases this
        | cons p rest =>
          obtain ⟨t, r⟩ := p
          have hn : s.slot t = none := by
            apply Classical.byContradiction
            intro hn
            exact hI.a.sendsSend t (hI.a.slot t hn) (by simp [hts])
          rw [hts] at this
          simp [hn] at this
      | exit => have := ht .wGo rfl; simp [hStep, cStep, h] at this
  apply Classical.byContradiction
  intro hcon
  have hno : c.reconnect = true → ∀ i t g, (i ∈ o.handler ∨ i ∈ o.subscriber ∨ i ∈ o.callback) → s.pc i = .wait t g → t < s.deq := by
    intro hc i t g hi hp
    apply Classical.byContradiction
    intro hge
    exact hcon ⟨hc, hw, i, t, g, hi, hp, by omega⟩
  have hidle := fun i hi => owned_idle hI hd hw (fun a ha => hstuck a (.inr ha)) hno (i := i) hi
  have bh := busy_zero (l := o.handler) (fun i hi => hidle i (.inl hi))
  have bs := busy_zero (l := o.subscriber) (fun i hi => hidle i (.inr (.inl hi)))
  have bc := busy_zero (l := o.callback) (fun i hi => hidle i (.inr (.inr hi)))
  have hlg := ht .lGo rfl
  simp only [hStep, bc, ne_eq, not_true, and_false, if_false, cStep] at hlg
  cases h : s.loop with
  | onConnect => rw [h] at hlg; cases hlg
  | waitDone => rw [h] at hlg; simp [hd] at hlg
  | closeRwc => rw [h] at hlg; simp only at hlg; split at hlg <;> cases hlg
  | onDisconnect => rw [h] at hlg; cases hlg
  | endLoop => rw [h] at hlg; simp only at hlg; split at hlg <;> cases hlg
  | waitWG =>
    rw [h] at hlg
    by_cases hh : s.handlers = 0
    · have hrg := ht .rGo rfl
      have hre := ht .rErr rfl
      simp only [hStep, bs, if_true, cStep] at hrg hre
      cases hr : s.rd with
      | off => simp [hr, hw, hh] at hlg
      | check => rw [hr] at hrg; simp only at hrg; split at hrg <;> cases hrg
      | opening => rw [hr] at hrg; simp only at hrg; split at hrg <;> cases hrg
      | read => rw [hr] at hre; cases hre
      | lookup f => rw [hr] at hrg; simp only at hrg; repeat' split at hrg
                    all_goals cases hrg
      | deliver t f => rw [hr] at hrg; cases hrg
      | exit => rw [hr] at hrg; cases hrg
    · have := ht .handlerDone rfl
      simp only [hStep, bh, cStep] at this
      rw [if_pos (by omega), if_pos (by omega)] at this
      cases this
  | _ => simp [h, CLp.tearing] at hl

/-- The hypotheses of the last two theorems: a connection being taken down with one handler and one frame in the queue; after 7
steps the loop goroutine is about to connect anew. -/
example : (hRun ⟨1, true, 1, true⟩ ⟨[0], [], []⟩ true (exHandlerHeld.take 9 ++ [.lGo])).map
    (fun s => (s.loop.tearing, s.done, s.left)) = some (true, true, 7) ∧
  (hRun ⟨1, true, 1, true⟩ ⟨[0], [], []⟩ true (exHandlerHeld.take 9 ++ [.lGo] ++
    [.wDone, .wGo, .lGo, .lGo, .handlerDone, .lGo, .lGo])).map (fun s => s.loop) = some .connect := by
  constructor <;> rfl

end Qrpc
