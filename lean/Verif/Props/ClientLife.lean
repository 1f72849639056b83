import Verif.Props.Client
/-! # C70, C71: life-cycle callbacks of a client connection; `Wait` -/
namespace Qrpc

/-- `n` times: OnConnect, then OnDisconnect. -/
def Spec.cbPairs : Nat → List CbEv
  | 0 => []
  | n + 1 => .connect :: .disconnect :: Spec.cbPairs n

theorem Spec.cbPairs_snoc (n : Nat) : Spec.cbPairs n ++ [.connect, .disconnect] = Spec.cbPairs (n + 1) := by
  induction n with
  | zero => rfl
  | succ n ih => simp only [Spec.cbPairs, List.cons_append, ih]

theorem Spec.cbPairs_count (n : Nat) : (Spec.cbPairs n).count .connect = n := by
  induction n with
  | zero => rfl
  | succ n ih => simp [Spec.cbPairs, ih]

/-- The loop goroutine is between the two callbacks of a connection (the first may still be running). -/
def CLp.up : CLp → Bool
  | .onConnect | .waitDone | .closeRwc => true
  | _ => false

structure CInvCb (s : CSt) : Prop where
  up : s.loop.up = true → ∃ n, s.cbs = Spec.cbPairs n ++ [.connect]
  down : s.loop.up = false → ∃ n, s.cbs = Spec.cbPairs n
  count : s.cbs.count .connect + (if s.loop = .spawn ∨ (s.loop = .connect ∧ s.rwc = true) then 1 else 0) = s.gen

theorem CInvCb.init (d : Bool) : CInvCb (CSt.init d) := by
  refine ⟨by simp [CSt.init, CLp.up], fun _ => ⟨0, rfl⟩, ?_⟩
  cases d <;> simp [CSt.init]

set_option maxHeartbeats 1000000 in
theorem CInvCb.step {c : CConf} {s s' : CSt} {a : CAct} (hL : CInvL c s) (h : CInvCb s) (hs : cStep c s a = some s') : CInvCb s' := by
  obtain ⟨h1, h2, h3⟩ := h
  have hn := hL.noConn
  have hi := hL.idle
  have hf := hL.fresh
  clear hL
  have snoc : ∀ n, Spec.cbPairs n ++ [.connect] ++ [.disconnect] = Spec.cbPairs (n + 1) := by
    intro n; rw [← Spec.cbPairs_snoc]; simp
  cstep_cases hs a
  all_goals constructor
  all_goals try simp only []
  all_goals try first
    | assumption
    | grind [CLp.up, CLp.connected, CLp.running]
  all_goals
    simp_all [CLp.up, CLp.connected, CLp.running, List.count_append]

/-- **C70, order and number.** `OnConnect` and `OnDisconnect` are called alternately, starting with `OnConnect`, and `OnConnect`
exactly once for every transport connection (`gen` of them were made), except one just made whose goroutines are not started
yet. When the loop goroutine has ended, every `OnConnect` has had its `OnDisconnect`. -/
theorem C70_paired {c : CConf} {d : Bool} {acts : List CAct} {s : CSt} (hrun : cRun c d acts = some s) :
    ((∃ n, s.cbs = Spec.cbPairs n) ∨ (∃ n, s.cbs = Spec.cbPairs n ++ [.connect])) ∧
    (s.cbs.count .connect = s.gen ∨ (s.cbs.count .connect + 1 = s.gen ∧ (s.loop = .connect ∨ s.loop = .spawn))) ∧
    (s.loop = .ended → ∃ n, s.cbs = Spec.cbPairs n) := by
  have h : CInv c s ∧ CInvCb s :=
    runActs_inv (P := fun s => CInv c s ∧ CInvCb s) (fun _ _ _ hp hs => ⟨hp.1.step hs, hp.2.step hp.1.l hs⟩)
      ⟨CInv.init c d, CInvCb.init d⟩ hrun
  obtain ⟨-, h1, h2, h3⟩ := h
  refine ⟨?_, ?_, fun he => h2 (by simp [he, CLp.up])⟩
  · cases hu : s.loop.up with
    | true => exact .inr (h1 hu)
    | false => exact .inl (h2 hu)
  · split at h3 <;> grind

/-- **C70, when they run.** While `OnConnect` runs, the reader and the writer goroutine of the connection are running, or have
seen it end; while `OnDisconnect` runs there is no transport connection and no caller waits for a response. -/
theorem C70_when {c : CConf} {d : Bool} {acts : List CAct} {s : CSt} (hrun : cRun c d acts = some s) :
    (s.loop = .onConnect → (s.rd ≠ .off ∧ s.wr ≠ .off) ∨ s.lctx = true) ∧
    (s.loop = .onDisconnect → s.rwc = false ∧ s.respes = []) := by
  have h := CInv.reach hrun
  refine ⟨fun hl => ?_, fun hl => ?_⟩
  · by_cases h1 : s.rd = .off
    · exact .inr (h.l.rd (.inr hl) h1)
    · by_cases h2 : s.wr = .off
      · exact .inr (h.l.wr (.inr hl) h2)
      · exact .inl ⟨h1, h2⟩
  · have hr := h.l.noConn (by simp [hl]) (by simp [hl, CLp.connected])
    exact ⟨hr, h.c.noConn hr⟩

/-- A connection that is lost, made again, and closed. -/
def exTwice : List CAct :=
  [.lGo, .lGo, .lGo, .rGo, .rGo, .rErr, .rGo, .lGo, .lGo, .lGo, .wDone, .wGo, .lGo, .lGo, .lGo, .dialOk, .lGo, .close, .cancel,
   .lGo, .lGo, .lGo, .lGo, .rGo, .rGo, .wDone, .wGo, .lGo, .lGo, .lGo, .dialFail, .lGo]

example : (cRun ⟨1, true, 1, false⟩ true exTwice).map (fun s => (s.loop, s.cbs, s.gen)) =
    some (.ended, [.connect, .disconnect, .connect, .disconnect], 2) := by rfl

example : (cRun ⟨1, true, 1, false⟩ true (exTwice.take 17)).map (fun s => (s.loop, s.cbs, s.gen, s.rd, s.wr)) =
    some (.onConnect, [.connect, .disconnect, .connect], 2, .check, .first) := by rfl

/-! ## C71 Wait -/

/-- What the user can observe of a connection, apart from the calls the user makes. -/
def CSt.observed (s : CSt) : List InFrame × List InFrame × List CbEv × List Dial × (Nat → List REv) × Nat :=
  (s.subs, s.handled, s.cbs, s.dials, s.revs, s.gen)

structure CEnded (s0 s : CSt) : Prop where
  loop : s.loop = .ended
  rd : s.rd = .off
  wr : s.wr = .off
  handlers : s.handlers = 0
  rwc : s.rwc = false
  obs : s.observed = s0.observed

set_option maxHeartbeats 1000000 in
theorem CEnded.step {c : CConf} {s0 s s' : CSt} {a : CAct} (h : CEnded s0 s) (hs : cStep c s a = some s') : CEnded s0 s' := by
  obtain ⟨h1, h2, h3, h4, h5, h6⟩ := h
  simp only [CSt.observed] at h6
  cstep_cases hs a
  all_goals first
    | (exfalso; simp_all; done)
    | (constructor <;> (try simp only [CSt.observed]) <;> first | assumption | simp_all)

/-- **C71.** When the loop goroutine has ended - which is what `Wait` waits for (clientconn.go:208, 306-308) - the reader, the
writer and all handlers have ended, the transport connection is gone, the connection is closed; and whatever happens later, no
subscriber, handler or callback is called, nothing is dialed and no response arrives any more. -/
theorem C71 {c : CConf} {d : Bool} {acts more : List CAct} {s s' : CSt} (hrun : cRun c d acts = some s) (hl : s.loop = .ended)
    (hmore : runActs (cStep c) s more = some s') :
    s.closed = true ∧ s.rd = .off ∧ s.wr = .off ∧ s.handlers = 0 ∧ s.rwc = false ∧ s'.observed = s.observed := by
  have h := CInv.reach hrun
  obtain ⟨h1, h2, h3⟩ := h.l.idle (by simp [hl, CLp.running])
  have h4 := h.l.noConn (by simp [hl]) (by simp [hl, CLp.connected])
  have h0 : CEnded s s := ⟨hl, h1, h2, h3, h4, rfl⟩
  exact ⟨h.l.ended hl, h1, h2, h3, h4, (runActs_inv (P := CEnded s) (fun _ _ _ hp hs => hp.step hs) h0 hmore).obs⟩

/-- A user keeps calling `Request` and `Close` on the connection of `exTwice` after it ended: the writes stay in the queue (C25). -/
example : (cRun ⟨1, true, 1, false⟩ true (exTwice ++ [.send 0 ⟨8, [1], false, false, true, false⟩, .go 0, .enqDone 0,
    .request 0 false [1], .go 0, .close])).map (fun s => (s.loop, s.pc 0, s.closeOks, s.handlers)) =
    some (.ended, .idle, 1, 0) := by rfl

end Qrpc
