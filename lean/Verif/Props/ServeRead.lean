import Verif.Lemmas.ServeReadA
import Verif.Lemmas.ServeReadB
import Verif.Lemmas.ServeReadC
import Verif.Lemmas.ServeReadD
import Verif.Lemmas.StreamF
/-! # Properties of the read side of a server connection: C27-C31, C62 -/
namespace Qrpc
open Spec

/-- Everything known about reachable states. -/
structure RInv (cf : RConf) (st : RSt) : Prop where
  a : RInvA cf st
  b : RInvB st
  x : exclusive st.arr st.log
  c : RInvC cf st
  d : RInvD st
  e : RInvE cf st
  f : RInvF st

theorem RInv.reach {c t0 acts s} (h : rdRun c t0 acts = some s) : RInv c s := by
  refine runActs_inv (P := RInv c) ?_ ?_ h
  · intro s a s' h hs
    exact ⟨h.a.step hs, h.b.step h.a hs, exclusive_step h.a h.b h.x hs, h.c.step h.a h.b hs, h.d.step hs, h.e.step hs,
      h.f.step h.a hs⟩
  · refine ⟨.init c t0, .init t0, ?_, .init c t0, .init t0, .init c t0, .init t0⟩
    intro pre e post heq
    simp [RSt.init] at heq

/-- A blocking and a nonblocking request. -/
def blkF : RFrame := ⟨1, false, false⟩
def nbF : RFrame := ⟨3, false, true⟩

/-- Two nonblocking requests, queued; then a blocking one, which panics before answering; then another blocking one. -/
def exMixed : List RAct :=
  [.rFrame nbF, .rSend, .rGo, .rGo, .rFrame nbF, .rSend, .rGo, .rGo, .rFrame blkF, .rSend,
   .mRecv, .mGo, .mGo, .mRecv, .mGo, .mGo, .mRecv, .hFinal 0, .hEnd 0,
   .mEnd, .mGo, .mGo, .mRst true, .mGo, .rGate, .rGo,
   .rFrame blkF, .rSend, .mRecv, .mFinal, .mEnd, .mGo, .mGo, .mGo]

example : (rdRun ⟨4, 0, 0, false⟩ 100 exMixed).map (fun s => (s.log, s.finished, s.closedSelf 2, s.main, s.running)) =
    some ([.start 0, .start 1, .start 2, .finish 0, .finish 2, .start 3, .finish 3], [2, 3], true, .select, [1]) := by rfl

/-! ## C27 Blocking requests are handled one at a time in arrival order -/

/-- **C27, order.** In every execution handlers (blocking and nonblocking) are started in the order in which their requests
arrived, each at most once. -/
theorem C27_order {c : RConf} {t0 : Nat} {acts : List RAct} {s : RSt} (hrun : rdRun c t0 acts = some s) :
    (s.log.filterMap startOf).Pairwise (· < ·) := (RInv.reach hrun).a.startsSorted

/-- **C27, one at a time.** In every execution, when a handler is started, every handler of a blocking request started before
has finished - by returning or by panicking. -/
theorem C27_exclusive {c : RConf} {t0 : Nat} {acts : List RAct} {s : RSt} (hrun : rdRun c t0 acts = some s)
    {pre post : List HEv} {j k : Nat} (hl : s.log = pre ++ .start j :: post) (hk : HEv.start k ∈ pre)
    (hb : (frameAt s.arr k).nonblock = false) : HEv.finish k ∈ pre :=
  (RInv.reach hrun).x pre _ post hl j rfl k hk hb

/-- **C27, no read-ahead.** While the handler of a blocking request runs, no later frame has been returned by `ReadFrame`, and
the reader is waiting (or has left because the connection is being closed). -/
theorem C27_no_read_ahead {c : RConf} {t0 : Nat} {acts : List RAct} {s : RSt} (hrun : rdRun c t0 acts = some s)
    {k : Nat} (hm : s.main = .handling k) : k + 1 = s.arr.length ∧ s.rd.waits = true ∧ s.ch = [] := by
  have h := (RInv.reach hrun).b
  have hb := h.busy (by simp [hm, MPc.busy])
  exact ⟨(h.blk k (by simp [hm, MPc.blk])).2, hb.1, hb.2.2⟩

example : (rdRun ⟨4, 0, 0, false⟩ 100 (exMixed.take 17)).map (fun s => (s.main, s.arr.length, s.rd.waits, s.ch)) =
    some (.handling 2, 3, true, []) := by rfl

/-- **C27, dispatch.** Pushed frames go to the subscriber only; handlers and local callers get only other frames. -/
theorem C27_dispatch {c : RConf} {t0 : Nat} {acts : List RAct} {s : RSt} (hrun : rdRun c t0 acts = some s) (k : Nat) :
    (HEv.push k ∈ s.log → (frameAt s.arr k).push = true) ∧
    (HEv.start k ∈ s.log ∨ HEv.resp k ∈ s.log → (frameAt s.arr k).push = false) := by
  have h := (RInv.reach hrun).f
  exact ⟨fun hk => (h.push k hk).2, fun hk => hk.elim (h.start k) fun hk => (h.resp k hk).2⟩

/-- **C27, the gate** is opened after a blocking request without waiting for anybody. -/
theorem C27_gate_opens {c : RConf} {t0 : Nat} {acts : List RAct} {s : RSt} (hrun : rdRun c t0 acts = some s)
    (hm : s.main = .readMore) : ∃ s', rdStep c s .mGo = some s' ∧ s'.main = .select ∧ s'.tok = true := by
  have h := ((RInv.reach hrun).b.busy (by simp [hm, MPc.busy])).2.1
  exact ⟨_, by simp only [rdStep, hm, h]; rfl, rfl, rfl⟩

example : (rdRun ⟨4, 0, 0, false⟩ 100 (exMixed.take 23)).map (fun s => (s.main, s.tok)) = some (.readMore, false) := by rfl

/-! ## C28 Every handled request is answered -/

/-- **C28, answered.** In every execution, when the library is done with a request (its handler has returned or panicked and the
deferred cleanup is over), the local side of its stream is closed, or the connection is closed. -/
theorem C28_answered {c : RConf} {t0 : Nat} {acts : List RAct} {s : RSt} (hrun : rdRun c t0 acts = some s)
    {k : Nat} (hk : k ∈ s.finished) (hlive : s.ctx = false) : s.closedSelf k = true := by
  rcases (RInv.reach hrun).d.fin k hk with h | h
  · exact h
  · rw [hlive] at h; cases h

example : (rdRun ⟨4, 0, 0, false⟩ 100 exMixed).map (fun s => (s.finished, s.ctx)) = some ([2, 3], false) := by rfl

/-- **C28, nobody is forgotten.** A request whose handler ended is in its cleanup or done. -/
theorem C28_accounted {c : RConf} {t0 : Nat} {acts : List RAct} {s : RSt} (hrun : rdRun c t0 acts = some s)
    {k : Nat} (hk : HEv.finish k ∈ s.log) :
    k ∈ s.finished ∨ k ∈ s.ending ∨ k ∈ s.cleaning ∨ k ∈ s.resetting ∨ s.main.blk = some k := by
  rcases (RInv.reach hrun).d.fins k hk with h | h | h | h | h
  · exact .inr (.inl h)
  · exact .inr (.inr (.inl h))
  · exact .inr (.inr (.inr (.inl h)))
  · exact .inl h
  · exact .inr (.inr (.inr (.inr h)))

/-- **C28, the cleanup goes through** for a nonblocking request, whatever the handler did: at most three steps of its own
goroutine, none of which waits for anybody else. -/
theorem C28_cleanup {c : RConf} {s : RSt} {k : Nat} (hk : k ∈ s.ending) :
    ∃ acts s', acts.length ≤ 3 ∧ runActs (rdStep c) s acts = some s' ∧ k ∈ s'.finished ∧ s'.closedSelf k = true := by
  by_cases hc : s.closedSelf k = true <;> by_cases hm : 0 < c.max
  · exact ⟨[.hDec k, .hTest k], _, by simp, by simp [runActs, rdStep, hk, hm, hc]; rfl, by simp, by simp [hc]⟩
  · exact ⟨[.hDec k, .hTest k], _, by simp, by simp [runActs, rdStep, hk, hm, hc]; rfl, by simp, by simp [hc]⟩
  · exact ⟨[.hDec k, .hTest k, .hRst k true], _, by simp, by simp [runActs, rdStep, hk, hm, hc]; rfl, by simp, by simp [setAt]⟩
  · exact ⟨[.hDec k, .hTest k, .hRst k true], _, by simp, by simp [runActs, rdStep, hk, hm, hc]; rfl, by simp, by simp [setAt]⟩

/-- ... and for a blocking one, after which the main goroutine opens the gate. -/
theorem C28_cleanup_blocking {c : RConf} {s : RSt} {k : Nat} (hk : s.main = .cleanup k) :
    ∃ acts s', acts.length ≤ 3 ∧ runActs (rdStep c) s acts = some s' ∧ k ∈ s'.finished ∧ s'.closedSelf k = true ∧
      s'.main = .readMore := by
  by_cases hc : s.closedSelf k = true <;> by_cases hm : 0 < c.max
  · exact ⟨[.mGo, .mGo], _, by simp, by simp [runActs, rdStep, hk, hm, hc]; rfl, by simp, by simp [hc], rfl⟩
  · exact ⟨[.mGo, .mGo], _, by simp, by simp [runActs, rdStep, hk, hm, hc]; rfl, by simp, by simp [hc], rfl⟩
  · exact ⟨[.mGo, .mGo, .mRst true], _, by simp, by simp [runActs, rdStep, hk, hm, hc]; rfl, by simp, by simp [setAt], rfl⟩
  · exact ⟨[.mGo, .mGo, .mRst true], _, by simp, by simp [runActs, rdStep, hk, hm, hc]; rfl, by simp, by simp [setAt], rfl⟩

/-- The hypotheses of the two theorems before: handler 0 has ended and its goroutine has not cleaned up; the blocking handler 2
has ended and the serving goroutine is about to clean up. -/
example : (rdRun ⟨4, 0, 0, false⟩ 100 (exMixed.take 20)).map (fun s => (s.main, s.ending, s.closedSelf 2)) =
    some (.cleanup 2, [0], false) := by rfl

/-- **C28, teardown.** When a connection has ended, every request given to a handler was finished. -/
theorem C28_teardown {c : RConf} {t0 : Nat} {acts : List RAct} {s : RSt} (hrun : rdRun c t0 acts = some s)
    (he : s.main = .ended) {k : Nat} (hk : HEv.start k ∈ s.log) : k ∈ s.finished ∧ s.onClosed = 1 ∧ s.rd = .off := by
  have h := (RInv.reach hrun).d
  obtain ⟨h1, h2, h3, h4, h5⟩ := h.ended (by simp [he, MPc.over])
  refine ⟨?_, by simpa [he] using h.once, h1⟩
  have := h.whereAbouts k hk
  rw [h2, h3, h4, h5, he] at this
  simpa [MPc.blk] using this

/-! ## C29 Limit on concurrent streams per connection -/

/-- **C29, what holds in general**: the number of nonblocking handlers running exceeds the limit at most by the number of
blocking requests handled so far. -/
theorem C29_bound_partial {c : RConf} {t0 : Nat} {acts : List RAct} {s : RSt} (hrun : rdRun c t0 acts = some s)
    (hm : 0 < c.max) : (s.running.length : Int) ≤ c.max + s.bdone := by
  have := (RInv.reach hrun).c.bound hm
  omega

/-- **C29, only nonblocking requests**: the limit holds. -/
theorem C29_nonblocking_partial {c : RConf} {t0 : Nat} {acts : List RAct} {s : RSt} (hrun : rdRun c t0 acts = some s)
    (hm : 0 < c.max) (hn : ∀ p ∈ s.arr, p.1.nonblock = true) : (s.running.length : Int) ≤ c.max := by
  have h := RInv.reach hrun
  have hb := C29_bound_partial hrun hm
  have : s.bdone = 0 := by
    apply Classical.byContradiction
    intro hne
    obtain ⟨k, -, hk, hf⟩ := h.c.bd hne
    have := hn s.arr[k] (List.getElem_mem hk)
    simp only [frameAt, List.getD, List.getElem?_eq_getElem hk, Option.getD_some] at hf
    rw [this] at hf; cases hf
  omega

/-- **C29, closing.** A request over the limit is not given to a handler; the connection is closed. -/
theorem C29_closes {c : RConf} {s : RSt} {k : Nat} (hk : s.main = .check k) (hm : 0 < c.max) (ho : c.max < s.inflight + 1) :
    ∃ s', runActs (rdStep c) s [.mGo, .mGo] = some s' ∧ s'.log = s.log ∧ s'.ctx = true ∧ s'.main = .waitWG := by
  refine ⟨_, by simp only [runActs, rdStep, hk, if_pos hm, if_pos ho]; rfl, ?_, ?_, ?_⟩ <;> rfl

/-- Its hypotheses: two requests run, two are allowed, and a third one has been read. -/
example : (rdRun ⟨0, 2, 0, false⟩ 0
    [.rFrame nbF, .rSend, .mGo, .mGo, .rGo, .rGo, .rFrame nbF, .rSend, .mGo, .mGo, .rGo, .rGo, .rFrame nbF, .rSend]).map
    (fun s => (s.main, s.inflight)) = some (.check 2, 2) := by rfl

/-- A quiet connection. -/
structure Quiet (s : RSt) : Prop where
  rd : s.rd = .read
  tok : s.tok = false
  main : s.main = .select
  ctx : s.ctx = false
  th : s.throttled = false

def cfgMax1 : RConf := ⟨0, 1, 0, false⟩

theorem quiet_blocking {s : RSt} (h : Quiet s) :
    ∃ s', runActs (rdStep cfgMax1) s [.rFrame blkF, .rSend, .mFinal, .mEnd, .mGo, .mGo, .mGo, .rGate, .rGo] = some s' ∧
      Quiet s' ∧ s'.inflight = s.inflight - 1 ∧ s'.running = s.running := by
  obtain ⟨h1, h2, h3, h4, h5⟩ := h
  refine ⟨_, by
    simp [runActs, rdStep, h1, h2, h3, h5, cfgMax1, blkF, RFrame.fromServer, frameAt_last, setAt]
    rfl, ⟨?_, ?_, ?_, ?_, ?_⟩, ?_, ?_⟩
  all_goals first | rfl | assumption

theorem quiet_nonblocking {s : RSt} (h : Quiet s) (hi : s.inflight ≤ 0) :
    ∃ s', runActs (rdStep cfgMax1) s [.rFrame nbF, .rSend, .mGo, .mGo, .rGo, .rGo] = some s' ∧
      Quiet s' ∧ s'.inflight = s.inflight + 1 ∧ s'.running.length = s.running.length + 1 := by
  obtain ⟨h1, h2, h3, h4, h5⟩ := h
  have : ¬ (1 : Int) < s.inflight + 1 := by omega
  refine ⟨_, by
    simp [runActs, rdStep, h1, h2, h3, h4, h5, cfgMax1, nbF, RFrame.fromServer, frameAt_last, this]
    rfl, ⟨?_, ?_, ?_, ?_, ?_⟩, ?_, ?_⟩
  all_goals first | rfl | assumption | simp

/-- **C29 is false**: with a limit of 1, any number n of handlers can run at the same time on a live connection.
`handleRequestPanic` decrements the counter also for blocking requests, which were never counted. -/
theorem C29_refuted (n : Nat) : ∃ acts s, rdRun cfgMax1 0 acts = some s ∧ s.running.length = n ∧ s.ctx = false := by
  have down : ∀ m : Nat, ∃ acts s, rdRun cfgMax1 0 acts = some s ∧ Quiet s ∧ s.inflight = -(m : Int) ∧ s.running = [] := by
    intro m
    induction m with
    | zero => exact ⟨[], _, rfl, ⟨rfl, rfl, rfl, rfl, rfl⟩, rfl, rfl⟩
    | succ m ih =>
      obtain ⟨acts, s, hr, hq, hi, hn⟩ := ih
      obtain ⟨s', hr', hq', hi', hn'⟩ := quiet_blocking hq
      refine ⟨acts ++ [.rFrame blkF, .rSend, .mFinal, .mEnd, .mGo, .mGo, .mGo, .rGate, .rGo], s', ?_, hq', by rw [hi', hi]; omega, by rw [hn', hn]⟩
      exact (runActs_append ..).trans (by rw [show runActs (rdStep cfgMax1) (RSt.init 0) acts = some s from hr]; exact hr')
  have up : ∀ m : Nat, m ≤ n → ∃ acts s, rdRun cfgMax1 0 acts = some s ∧ Quiet s ∧ s.inflight = -(n : Int) + m ∧
      s.running.length = m := by
    intro m
    induction m with
    | zero =>
      intro _
      obtain ⟨acts, s, hr, hq, hi, hn⟩ := down n
      exact ⟨acts, s, hr, hq, by rw [hi]; simp, by rw [hn]; rfl⟩
    | succ m ih =>
      intro hm
      obtain ⟨acts, s, hr, hq, hi, hn⟩ := ih (by omega)
      obtain ⟨s', hr', hq', hi', hn'⟩ := quiet_nonblocking hq (by omega)
      refine ⟨acts ++ [.rFrame nbF, .rSend, .mGo, .mGo, .rGo, .rGo], s', ?_, hq', by rw [hi', hi]; omega, by rw [hn', hn]⟩
      exact (runActs_append ..).trans (by rw [show runActs (rdStep cfgMax1) (RSt.init 0) acts = some s from hr]; exact hr')
  obtain ⟨acts, s, hr, hq, -, hn⟩ := up n (Nat.le_refl n)
  exact ⟨acts, s, hr, hn, hq.ctx⟩

/-- A limit of 2 and only nonblocking requests: the third one closes the connection. -/
example : (rdRun ⟨0, 2, 0, false⟩ 0
    [.rFrame nbF, .rSend, .mGo, .mGo, .rGo, .rGo, .rFrame nbF, .rSend, .mGo, .mGo, .rGo, .rGo,
     .rFrame nbF, .rSend, .mGo, .mGo]).map (fun s => (s.running, s.main, s.ctx, s.log)) =
    some ([0, 1], .waitWG, true, [.start 0, .start 1]) := by rfl

/-! ## C30 Limit on inbound frames per second -/

/-- **C30.** In every execution with a limit of n frames per second, for every clock second at most n frames received in that
second are let through (as request, push or response). -/
theorem C30 {c : RConf} {t0 : Nat} {acts : List RAct} {s : RSt} (hrun : rdRun c t0 acts = some s) (hr : 0 < c.rate) (sec : Nat) :
    (s.arr.filter fun p => p.2 = sec).length ≤ c.rate := (RInv.reach hrun).e.all hr sec

def RRd.leaving : RRd → Bool
  | .close | .exit | .off => true
  | _ => false

/-- **C30, excess.** The frame exceeding the limit is not dispatched, and the reader closes the connection. -/
theorem C30_excess {c : RConf} {s : RSt} {f : RFrame} (hrd : s.rd = .read) (hr : 0 < c.rate)
    (ho : c.rate < rateCount s.now s.last s.count) :
    ∃ s', runActs (rdStep c) s [.rFrame f, .rGo] = some s' ∧ s'.arr = s.arr ∧ s'.log = s.log ∧ s'.ctx = true ∧ s'.rd = .exit := by
  refine ⟨_, by simp only [runActs, rdStep, hrd, if_pos (And.intro hr ho)]; rfl, ?_, ?_, ?_, ?_⟩ <;> rfl

/-- Its hypotheses: two frames per second are allowed, two have been counted in this second. -/
example : (rdRun ⟨4, 0, 2, true⟩ 7 [.rFrame ⟨1, true, false⟩, .rGo, .rFrame ⟨1, true, false⟩, .rGo]).map
    (fun s => (s.rd, rateCount s.now s.last s.count)) = some (.read, 3) := by rfl

/-- Once the reader leaves, it never reads again. -/
theorem C30_no_more {c : RConf} {more : List RAct} {s s' : RSt} (h : s.rd.leaving = true)
    (hmore : runActs (rdStep c) s more = some s') : s'.rd.leaving = true ∧ s'.arr = s.arr := by
  refine runActs_inv (P := fun u => u.rd.leaving = true ∧ u.arr = s.arr) ?_ ⟨h, rfl⟩ hmore
  rintro u a u' ⟨h1, h2⟩ hs
  rdstep_cases hs a
  all_goals simp_all [RRd.leaving]

/-- Two frames per second: two in second 7, two in second 8, the third in second 8 is refused. -/
example : (rdRun ⟨4, 0, 2, true⟩ 7
    [.rFrame ⟨1, true, false⟩, .rGo, .rFrame ⟨1, true, false⟩, .rGo, .tick 1, .rFrame ⟨1, true, false⟩, .rGo,
     .rFrame ⟨1, true, false⟩, .rGo, .rFrame ⟨1, true, false⟩, .rGo]).map (fun s => (s.arr.map Prod.snd, s.rd, s.ctx)) =
    some ([7, 7, 8, 8], .exit, true) := by rfl

/-! ## C62 Every received frame counts for the rate limit -/

/-- A frame in the middle of stream 1. -/
def midF : Frame := { requestID := 1, flags := StreamFlag, cmd := 0, payload := [] }

/-- **C62 is false**: any number n of frames of an established stream are received without `ReadFrame` returning once; the rate
limit is applied only to frames it returns. -/
theorem C62_refuted (n : Nat) : ∃ acts s, sRun SSt.init acts = some s ∧ s.recv.length = n + 1 ∧
    (s.log.filter fun e => match e with | .bound .. => true | _ => false).length = 1 := by
  suffices h : ∃ acts s, sRun SSt.init acts = some s ∧ s.recv.length = n + 1 ∧
      (s.log.filter fun e => match e with | .bound .. => true | _ => false).length = 1 ∧
      s.r = .idle ∧ s.released = false ∧ s.tbl (1, false) = some 0 ∧ (s.str 0).binded = true ∧
      (s.str 0).closedPeer = false ∧ (s.str 0).chCloses = 0 by
    obtain ⟨acts, s, h1, h2, h3, -⟩ := h; exact ⟨acts, s, h1, h2, h3⟩
  induction n with
  | zero => refine ⟨[.recv midF, .rstep, .rstep], _, rfl, ?_, ?_, ?_, ?_, ?_, ?_, ?_, ?_⟩ <;> rfl
  | succ n ih =>
    obtain ⟨acts, s, h1, h2, h3, h4, h5, h6, h7, h8, h9⟩ := ih
    have hk : midF.key = (1, false) := by decide
    have hfr : FrameFlag.isRst midF.flags = false := by decide
    have hfp : FrameFlag.isPush midF.flags = false := by decide
    have hfd : FrameFlag.isDone midF.flags = false := by decide
    refine ⟨acts ++ [.recv midF, .rstep, .rstep, .consume, .rstep], _, by
      simp only [sRun] at h1 ⊢
      rw [runActs_append, h1]
      simp only [Option.bind_some, runActs, sStep, rStep, SSt.createOrGet, h4, h5, and_self, if_true, hk, h6, hfr, hfp, hfd, h7, h8,
        h9, Bool.false_eq_true, if_false]
      rfl, ?_, ?_, ?_, ?_, ?_, ?_, ?_, ?_⟩
    · simp [h2]
    · simpa using h3
    all_goals first | rfl | assumption

/-! ## C31 Closing a connection terminates its goroutines -/

def WPc.inAd (r : Nat) : WPc → Bool
  | .ad r' _ _ _ => r' == r
  | _ => false

/-- The writer is in `afterDone` only of streams the peer has closed. -/
def adPeer (s : SSt) : Prop := ∀ r, s.w.inAd r = true → (s.str r).closedPeer = true

set_option maxHeartbeats 1000000 in
theorem adPeer_step {s a s'} (hA : SInvA s) (h : adPeer s) (hs : sStep s a = some s') : adPeer s' := by
  have hw := hA.wok
  have hwl : ∀ r, s.w.inAd r = true → r < s.next := by
    intro r hr
    cases h : s.w <;> simp [h, WPc.inAd, WPc.ok] at hr hw
    omega
  have hrel := hA.rel
  clear hA
  unfold adPeer at *
  sstep_cases hs a
  all_goals try simp only []
  all_goals try first
    | assumption
    | grind [WPc.inAd, WPc.ok, releaseStream]

/-- The reader waits for the end of a stream that only the reader could end. -/
structure RStuck (r : Nat) (f : Frame) (s : SSt) : Prop where
  pc : s.r = .waitDone r f
  lt : r < s.next
  peer : (s.str r).closedPeer = false
  done : (s.str r).doneCloses = 0
  w : s.w.inAd r = false

set_option maxHeartbeats 1000000 in
theorem RStuck.step {r f s a s'} (h : RStuck r f s) (hs : sStep s a = some s') : RStuck r f s' := by
  obtain ⟨h1, h2, h3, h4, h5⟩ := h
  sstep_cases hs a
  all_goals constructor
  all_goals try simp only []
  all_goals try first
    | assumption
    | grind [WPc.inAd]

/-- **C31 is false**: if the connection is closed while the reader is offering a frame to a stream whose user does not take it,
the reader waits for the stream's `Done`, which needs the peer's side closed, which only the reader would do: in *every*
continuation the reader goroutine never leaves `ReadFrame`. `Wait`, `OnClose` and `Shutdown` wait for it. -/
theorem C31_refuted_reader_stuck {acts more : List SAct} {s s' : SSt} (hrun : sRun SSt.init acts = some s)
    {r : Nat} {f : Frame} (hpc : s.r = .waitDone r f) (hp : (s.str r).closedPeer = false)
    (hmore : sRun s more = some s') : s'.r = .waitDone r f ∧ s'.released = false := by
  have hI := SInv.reach hrun
  have had : adPeer s :=
    (runActs_inv (P := fun u => SInvA u ∧ adPeer u) (fun _ _ _ hp hs => ⟨hp.1.step hs, adPeer_step hp.1 hp.2 hs⟩)
      ⟨SInvA.init, fun r h => by simp [SSt.init, WPc.inAd] at h⟩ hrun).2
  have hrel : s.released = false := by
    cases h : s.released with
    | false => rfl
    | true => rcases (hI.a.rel h).1 with h | h <;> rw [hpc] at h <;> cases h
  have hlt : r < s.next := by have := hI.a.rok; rw [hpc] at this; exact this
  have hfull : (s.str r).fullClosed = false := by
    cases h : (s.str r).fullClosed with
    | false => rfl
    | true => rw [(hI.c.fb hrel r h).2] at hp; cases hp
  have hd : (s.str r).doneCloses = 0 := by
    have := ((hI.a.ph r).2.1 hfull)
    grind
  have hw : s.w.inAd r = false := by
    cases h : s.w.inAd r with
    | false => rfl
    | true => rw [had r h] at hp; cases hp
  have h := runActs_inv (P := RStuck r f) (fun _ _ _ hp hs => hp.step hs) ⟨hpc, hlt, hp, hd, hw⟩ hmore
  refine ⟨h.pc, ?_⟩
  have hI' := runActs_inv (P := SInvA) (fun _ _ _ hp hs => hp.step hs) hI.a hmore
  cases hr : s'.released with
  | false => rfl
  | true => rcases (hI'.rel hr).1 with h' | h' <;> rw [h.pc] at h' <;> cases h'

/-- The hypotheses are met: the peer opens a stream and sends a second frame, the handler does not read it, the connection is
closed. -/
theorem C31_refuted_example :
    (sRun SSt.init
      [.recv { requestID := 1, flags := StreamFlag, cmd := 0, payload := [] }, .rstep, .rstep,
       .recv { requestID := 1, flags := StreamFlag, cmd := 0, payload := [] }, .rstep, .rstep, .cancelConn, .rctx]).map
      (fun s => (s.r, (s.str 0).closedPeer)) =
    some (.waitDone 0 { requestID := 1, flags := StreamFlag, cmd := 0, payload := [] }, false) := by rfl

/-- The steps of the reader goroutine other than `ReadFrame` returning a frame. -/
def RAct.reader : RAct → Bool
  | .rErr | .rLookup _ | .rGo | .rSend | .rCtx | .rGate => true
  | _ => false

def RRd.rank : RRd → Nat
  | .off => 0 | .exit => 1 | .close => 2 | .nbCheck => 2 | .read => 3 | .sub => 4 | .throttle => 4 | .gate => 5
  | .send _ => 6 | .lookup _ => 7

/-- **C31, what holds**: once the context is cancelled, every step of the reader outside `ReadFrame` takes it closer to its
end ... -/
theorem C31_reader_progress_partial {c : RConf} {s s' : RSt} {a : RAct} (hx : s.ctx = true) (ha : a.reader = true)
    (hs : rdStep c s a = some s') : s'.rd.rank < s.rd.rank ∧ s'.ctx = true := by
  rdstep_cases hs a
  all_goals simp_all [RAct.reader, RRd.rank]

/-- ... and the reader always has such a step (an error from `ReadFrame` when it is reading): it leaves after at most seven. -/
theorem C31_reader_not_stuck_partial {c : RConf} {s : RSt} (hx : s.ctx = true) (hr : s.rd ≠ .off) :
    ∃ a s', a.reader = true ∧ rdStep c s a = some s' := by
  cases h : s.rd with
  | off => exact absurd h hr
  | read => exact ⟨.rErr, _, rfl, by simp only [rdStep, h]; rfl⟩
  | sub => exact ⟨.rGo, _, rfl, by simp only [rdStep, h]; rfl⟩
  | lookup k => exact ⟨.rLookup false, _, rfl, by simp only [rdStep, h]; rfl⟩
  | send k => exact ⟨.rCtx, _, rfl, by simp only [rdStep, h, hx, if_true]; rfl⟩
  | nbCheck => exact ⟨.rGo, _, rfl, by simp only [rdStep, h, hx, if_true]; rfl⟩
  | gate => exact ⟨.rCtx, _, rfl, by simp only [rdStep, h, hx, if_true]; rfl⟩
  | throttle => exact ⟨.rGo, _, rfl, by simp only [rdStep, h, hx, or_true, if_true]; rfl⟩
  | close => exact ⟨.rGo, _, rfl, by simp only [rdStep, h]; rfl⟩
  | exit => exact ⟨.rGo, _, rfl, by simp only [rdStep, h]; rfl⟩

example : (rdRun ⟨1, 0, 0, false⟩ 0 [.rFrame blkF, .rSend, .mRecv, .extClose]).map (fun s => (s.ctx, s.rd, s.main)) =
    some (true, .gate, .handling 0) := by rfl

/-- **C31, the main goroutine**: when reader and handlers have gone, `serve` ends and `OnClose` has been called exactly once. -/
theorem C31_serve_ends_partial {c : RConf} {t0 : Nat} {acts : List RAct} {s : RSt} (hrun : rdRun c t0 acts = some s)
    (hx : s.ctx = true) (hm : s.main = .select) (hrd : s.rd = .off) (h1 : s.running = []) (h2 : s.ending = [])
    (h3 : s.cleaning = []) (h4 : s.resetting = []) :
    ∃ s', runActs (rdStep c) s [.mCtx, .mGo, .mGo, .mGo] = some s' ∧ s'.main = .ended ∧ s'.onClosed = 1 := by
  have := (RInv.reach hrun).d.once
  rw [hm] at this
  refine ⟨_, by simp only [runActs, rdStep, hm, hx, hrd, h1, h2, h3, h4, and_self, if_true]; rfl, rfl, ?_⟩
  simp only [reduceCtorEq, if_false] at this
  simp [this]

/-- A whole life: a blocking request, then the peer hangs up. -/
example : (rdRun ⟨1, 0, 0, false⟩ 0
    [.rFrame blkF, .rSend, .mRecv, .mFinal, .mEnd, .mGo, .mGo, .mGo, .rGate, .rGo, .rErr, .rGo, .rGo, .mCtx, .mGo, .mGo, .mGo]).map
    (fun s => (s.main, s.onClosed, s.rd, s.finished)) = some (.ended, 1, .off, [0]) := by rfl

end Qrpc
