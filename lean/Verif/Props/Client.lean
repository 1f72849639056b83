import Verif.Lemmas.ClientN
import Verif.Lemmas.StreamF
import Verif.Model.Dial
import Verif.Model.ServeResp
/-! # Properties of the client connection: C17-C20, C24, C25, C44-C47, C61 -/
namespace Qrpc
open Spec

/-! ## Example executions -/

/-- A connection without reconnect, queue of 2. -/
def cfg2 : CConf := ⟨2, false, 1, false⟩

/-- Two callers send a request each (ids 3 and 5), both are written in one batch; the answers come in the opposite order. -/
def exSwap : List CAct :=
  [.lGo, .lGo, .lGo, .rGo, .rGo,
   .request 0 false [1], .go 0, .go 0, .go 0, .enq 0,
   .request 1 false [2], .go 1, .go 1, .go 1, .enq 1,
   .wDeq true true, .wDeq true true, .wGo, .wGo, .wWrite 2 true, .wGo, .wGo, .wGo,
   .recv 0, .recv 1,
   .rFrame ⟨5, false, false, false⟩, .rGo, .rGo, .rFrame ⟨3, false, false, false⟩, .rGo, .rGo]

example : (cRun cfg2 true exSwap).map (fun s => (s.revs 0, s.revs 1, s.rets, s.respes)) =
    some ([.frame ⟨3, false, false, false⟩], [.frame ⟨5, false, false, false⟩], [(0, .ok), (1, .ok)], []) := by rfl

/-! ## C17 A reset by the peer ends the caller's wait -/

/-- **C17 is false, part 1**: `ReadFrame` never hands a reset frame to its caller, whatever the peer sends (the branch
`if frame.FromServer() && frame.Flags.IsRst()` of readFrames, clientconn.go:539, is dead code). -/
theorem C17_refuted_reset_never_returned {acts : List SAct} {s : SSt} (hrun : sRun SSt.init acts = some s) {r : Nat} {f : Frame}
    (h : SEv.bound r f ∈ s.log) : FrameFlag.isRst f.flags = false :=
  (SInv.reach hrun).f.outF r f (.inl h)

/-- The run of part 1 on a request: the client sends request 3, the peer resets it, the reader goroutine is back at reading,
and nothing was returned by `ReadFrame`. -/
def resetActs : List SAct :=
  [.wstart 3 0 true, .wstep, .wstep, .wstep,
   .recv { requestID := 3, flags := StreamRstFlag, cmd := 0, payload := [] }, .rstep, .rstep, .rstep]

theorem C17_refuted_reset_swallowed :
    (sRun SSt.init resetActs).map (fun s => (s.r, s.w, s.log)) =
    some (.idle, .idle, [.wbegin 0 0, .accepted 0 0,
      .rst (some 0) { requestID := 3, flags := StreamRstFlag, cmd := 0, payload := [] }]) := by rfl

theorem runActs_cons_some {σ α : Type} {step : σ → α → Option σ} {s s' : σ} {a : α} {as : List α}
    (h : runActs step s (a :: as) = some s') : ∃ s1, step s a = some s1 ∧ runActs step s1 as = some s' := by
  simp only [runActs] at h
  split at h
  · cases h
  · next s1 hs => exact ⟨s1, hs, h⟩

def CRd.looks (rid : UInt64) : CRd → Bool
  | .lookup f => f.rid == rid
  | _ => false

/-- What is kept while no frame for `rid` comes back and the connection stays up. -/
structure Unanswered (g : Nat) (rid : UInt64) (t : Nat) (s : CSt) : Prop where
  gen : g ≤ s.gen
  keep : s.gen = g → s.rwc = true → (rid, t) ∈ s.respes ∧ s.revs t = [] ∧ s.rd.looks rid = false

set_option maxHeartbeats 2000000 in
theorem Unanswered.step {g rid t c s a s'} (hC : CInvC s) (hA : CInvA s) (h : Unanswered g rid t s) (hs : cStep c s a = some s')
    (hno : ∀ f, a = .rFrame f → f.rid ≠ rid) : Unanswered g rid t s' := by
  obtain ⟨h1, h2⟩ := h
  have hm := hC.mem
  have hh := hC.hand
  have hreg := fun b hb => registerAll_mem s.frames s.respes b hb (rid, t)
  have hnd := hA.batchNodup
  clear hC hA
  cstep_cases hs a
  all_goals constructor
  all_goals try simp only []
  all_goals try first
    | assumption
    | omega
    | grind [setAt, CRd.looks]

/-- **C17 is false, part 2**: a caller whose request is outstanding keeps waiting in *every* continuation in which no
(non-reset) frame for this request arrives and the transport connection stays up - however often the peer resets it. -/
theorem C17_refuted_wait_goes_on {c : CConf} {d : Bool} {acts more : List CAct} {s s' : CSt} (hrun : cRun c d acts = some s)
    {rid : UInt64} {t : Nat} (hout : (rid, t) ∈ s.respes) (hrd : ∀ f, s.rd = .lookup f → f.rid ≠ rid)
    (hmore : runActs (cStep c) s more = some s') (hno : ∀ f, CAct.rFrame f ∈ more → f.rid ≠ rid)
    (hup : s'.gen = s.gen ∧ s'.rwc = true) : (rid, t) ∈ s'.respes ∧ s'.revs t = [] := by
  have hI := CInv.reach hrun
  have h0 : Unanswered s.gen rid t s := by
    refine ⟨Nat.le_refl _, fun _ _ => ⟨hout, (hI.c.mem _ hout).2.2, ?_⟩⟩
    cases hr : s.rd <;> simp [CRd.looks]
    exact hrd _ hr
  have gen : ∀ (l : List CAct) (u : CSt), CInv c u → Unanswered s.gen rid t u → runActs (cStep c) u l = some s' →
      (∀ f, CAct.rFrame f ∈ l → f.rid ≠ rid) → Unanswered s.gen rid t s' := by
    intro l
    induction l with
    | nil => intro u _ hu hr _; simp only [runActs, Option.some.injEq] at hr; exact hr ▸ hu
    | cons a as ih =>
      intro u hiu hu hr hn
      obtain ⟨u1, h1, h2⟩ := runActs_cons_some hr
      exact ih u1 (hiu.step h1) (hu.step hiu.c hiu.a h1 (fun f hf => hn f (by simp [hf]))) h2 (fun f hf => hn f (by simp [hf]))
  have := (gen more s hI h0 hmore hno).keep hup.1 hup.2
  exact ⟨this.1, this.2.1⟩

/-- The hypotheses of part 2: a state in which the request with id 5 is outstanding, and 100 frames for others arrive. -/
example : (cRun cfg2 true (exSwap.take 25 ++ List.replicate 100 (.rFrame ⟨5, true, false, false⟩))).map
    (fun s => (s.respes, s.gen, s.rwc, s.rd)) = some ([(3, 0), (5, 1)], 1, true, .read) := by rfl

/-- **C17, what holds**: a frame for the request, or the end of the connection, ends the wait (C18, C19). -/
theorem C17_answer_ends_wait_partial {c : CConf} {d : Bool} {acts : List CAct} {s : CSt} (hrun : cRun c d acts = some s)
    {t : Nat} {f : InFrame} (hout : (f.rid, t) ∈ s.respes) (hrd : s.rd = .read) (hpush : f.push = false) (hrst : f.rst = false) :
    ∃ s', runActs (cStep c) s [.rFrame f, .rGo, .rGo] = some s' ∧ s'.revs t = [.frame f] := by
  have hI := (CInv.reach hrun).c
  have hf : s.respes.find? (fun p => p.1 == f.rid) = some (f.rid, t) := by
    rw [List.find?_eq_some_iff_append]
    obtain ⟨a, b, hab⟩ := List.append_of_mem hout
    refine ⟨by simp, a, b, hab, ?_⟩
    intro q hq
    have hn := hI.fstNodup
    rw [hab, List.map_append, List.nodup_append] at hn
    have := hn.2.2 q.1 (List.mem_map_of_mem hq) f.rid (by simp)
    simpa using this
  have hr : s.revs t = [] := (hI.mem _ hout).2.2
  simp [runActs, cStep, hrd, hpush, hf, setAt, hrst, hr]

/-- Its hypotheses: two requests are outstanding and the reader is reading. -/
example : (cRun cfg2 true (exSwap.take 25)).map (fun s => (s.respes, s.rd)) = some ([(3, 0), (5, 1)], .read) := by rfl

/-! ## C18 Responses go to the right caller exactly once -/

/-- **C18.** In every execution, a response object gets at most one event, a frame it gets carries the id of its request, and
no response channel is sent to after being closed, nor closed twice. -/
theorem C18 {c : CConf} {d : Bool} {acts : List CAct} {s : CSt} (hrun : cRun c d acts = some s) :
    (∀ t, (s.revs t).length ≤ 1) ∧ (∀ t f, REv.frame f ∈ s.revs t → f.rid = (cframeOf s.frames t).rid) ∧ s.crash = false :=
  let h := (CInv.reach hrun).c
  ⟨h.len, h.right, h.crash⟩

example : (cRun cfg2 true exSwap).map (fun s => ((s.revs 0).length, (s.revs 1).length, s.crash)) = some (1, 1, false) := by rfl

/-- **C18, distinct callers.** Before the id counter wraps, a frame is never delivered to two callers: two response objects
that got a frame with the same id are the same one. -/
theorem C18_no_sharing {c : CConf} {d : Bool} {acts : List CAct} {s : CSt} (hrun : cRun c d acts = some s)
    (hg : s.ridGen < 2 ^ 63) {t u : Nat} {f f' : InFrame} (ht : REv.frame f ∈ s.revs t) (hu : REv.frame f' ∈ s.revs u)
    (he : f.rid = f'.rid) : t = u := by
  have h := CInv.reach hrun
  have rt := h.c.regdLt t (h.c.revs t (by intro hn; rw [hn] at ht; cases ht))
  have ru := h.c.regdLt u (h.c.revs u (by intro hn; rw [hn] at hu; cases hu))
  exact h.i.inj hg (Nat.lt_of_lt_of_le rt.1 h.a.deq) (Nat.lt_of_lt_of_le ru.1 h.a.deq) rt.2 ru.2
    (by rw [← h.c.right t f ht, ← h.c.right u f' hu, he])

/-- Its hypotheses: two response objects have frames, with the ids 3 and 5, and the id counter is far from wrapping. -/
example : (cRun cfg2 true exSwap).map (fun s => (s.revs 0, s.revs 1, s.ridGen)) =
    some ([.frame ⟨3, false, false, false⟩], [.frame ⟨5, false, false, false⟩], 2) := by rfl

/-! ## C19 Closing a connection releases every waiting caller -/

/-- **C19, safety.** Without a transport connection there is no outstanding response: every response object ever registered
has its event, except possibly one that the reader is just handing its frame. -/
theorem C19_no_outstanding {c : CConf} {d : Bool} {acts : List CAct} {s : CSt} (hrun : cRun c d acts = some s)
    (hn : s.rwc = false) : s.respes = [] ∧ ∀ t ∈ s.regd, s.revs t ≠ [] ∨ ∃ f, s.rd = .deliver t f := by
  have h := (CInv.reach hrun).c
  refine ⟨h.noConn hn, fun t ht => ?_⟩
  rcases h.regd t ht with h1 | h1
  · rw [h.noConn hn] at h1; cases h1
  · exact h1

/-- **C19, callers.** When the loop goroutine is between connections or has ended, every request whose write was reported
successful has its response object answered or closed. -/
theorem C19_released {c : CConf} {d : Bool} {acts : List CAct} {s : CSt} (hrun : cRun c d acts = some s)
    (hn : s.rwc = false) (hl : s.loop.running = false) {t : Nat} (hok : (t, CRes.ok) ∈ s.rets)
    (hresp : (cframeOf s.frames t).resp = true) : s.revs t ≠ [] := by
  have h := CInv.reach hrun
  rcases (C19_no_outstanding hrun hn).2 t (h.d.rets t hok hresp) with h1 | ⟨f, hf⟩
  · exact h1
  · rw [(h.l.idle hl).1] at hf; cases hf

/-- **C19, progress.** When the loop context of a live connection is done, the next two steps of the loop goroutine are
enabled and release every outstanding response object. -/
theorem C19_close_releases {c : CConf} {d : Bool} {acts : List CAct} {s : CSt} (hrun : cRun c d acts = some s)
    (hl : s.loop = .waitDone) (hd : s.done = true) :
    ∃ s', runActs (cStep c) s [.lGo, .lGo] = some s' ∧ s'.rwc = false ∧ s'.respes = [] ∧
      ∀ p ∈ s.respes, s'.revs p.2 = [.closed] := by
  have h := (CInv.reach hrun).c
  cases hr : s.rwc with
  | false =>
    have he := h.noConn hr
    exact ⟨{ s with loop := .onDisconnect, cbs := s.cbs ++ [.disconnect] }, by simp [runActs, cStep, hl, hd, hr], hr, he, by rw [he]; simp⟩
  | true =>
  refine ⟨_, by simp only [runActs, cStep, hl, hd, if_true, hr]; rfl, rfl, rfl, ?_⟩
  rintro ⟨rid, t⟩ hp
  simp only
  rw [if_pos (by simp only [List.mem_map, Prod.exists, exists_eq_right]; exact ⟨rid, hp⟩), (h.mem _ hp).2.2]
  rfl

/-- Its hypotheses: the reader has failed, the loop context is done, request 3 is outstanding. -/
example : (cRun cfg2 true (exSwap.take 28 ++ [.rErr, .rGo])).map (fun s => (s.loop, s.done, s.respes)) =
    some (.waitDone, true, [(3, 0)]) := by rfl

/-- **C19, no late registration.** No step registers a response object while there is no transport connection. -/
theorem C19_no_late_registration {c : CConf} {s s' : CSt} {a : CAct} (hn : s.rwc = false) (hs : cStep c s a = some s') :
    s'.regd = s.regd := by
  cstep_cases hs a
  all_goals first
    | rfl
    | simp_all

/-- A connection lost with one request answered and one outstanding. -/
def exLost : List CAct :=
  exSwap.take 28 ++ [.rErr, .rGo, .lGo, .lGo, .lGo, .wDone, .wGo, .lGo, .lGo, .lGo]

/-- The hypotheses of `C19_no_outstanding` and `C19_released`: both writes were reported successful. -/
example : (cRun cfg2 true exLost).map (fun s => (s.rwc, s.loop.running, s.rets, s.frames.map (·.resp))) =
    some (false, false, [(0, .ok), (1, .ok)], [true, true]) := by rfl

example : (cRun cfg2 true exLost).map (fun s => (s.loop, s.rwc, s.revs 0, s.revs 1, s.closed, s.regd)) =
    some (.ended, false, [.closed], [.frame ⟨5, false, false, false⟩], true, [0, 1]) := by rfl

/-! ## C20 Request ids -/

theorem uint64_ofNat_mod2 (n : Nat) : (UInt64.ofNat n % 2).toNat = n % 2 := by
  rw [UInt64.toNat_mod, UInt64.toNat_ofNat']
  show n % 2 ^ 64 % 2 = n % 2
  omega

/-- **C20, parity.** For every counter value, even after wrapping, client ids are odd and server ids are even; they never
coincide. -/
theorem C20_parity (g g' : Nat) :
    clientRid g % 2 = 1 ∧ serverRid g' % 2 = 0 ∧ clientRid g ≠ serverRid g' := by
  have h1 : clientRid g % 2 = 1 := by
    apply UInt64.toNat_inj.1; rw [clientRid, uint64_ofNat_mod2]; show _ = 1; omega
  have h2 : serverRid g' % 2 = 0 := by
    apply UInt64.toNat_inj.1; rw [serverRid, uint64_ofNat_mod2]; show _ = 0; omega
  refine ⟨h1, h2, fun h => ?_⟩
  rw [h, h2] at h1; cases h1

/-- **C20, uniqueness of server ids** below the wrap. -/
theorem C20_server_inj {g g' : Nat} (h : g < 2 ^ 63) (h' : g' < 2 ^ 63) (he : serverRid g = serverRid g') : g = g' := by
  have := congrArg UInt64.toNat he
  simp only [serverRid, UInt64.toNat_ofNat'] at this
  omega

/-- **C20, uniqueness in every execution**: as long as fewer than 2^63 ids were drawn, the first frames submitted on a client
connection - by any number of concurrent callers - have pairwise different ids, all odd. -/
theorem C20_unique {c : CConf} {d : Bool} {acts : List CAct} {s : CSt} (hrun : cRun c d acts = some s) (hg : s.ridGen < 2 ^ 63)
    {t u : Nat} (ht : t < s.frames.length) (hu : u < s.frames.length) (hrt : (cframeOf s.frames t).resp = true)
    (hru : (cframeOf s.frames u).resp = true) :
    (cframeOf s.frames t).rid % 2 = 1 ∧ ((cframeOf s.frames t).rid = (cframeOf s.frames u).rid → t = u) := by
  have h := CInv.reach hrun
  refine ⟨?_, h.i.inj hg ht hu hrt hru⟩
  have e1 : cframeOf s.frames t = s.frames[t] := by simp [cframeOf, List.getD, List.getElem?_eq_getElem ht]
  obtain ⟨g, -, -, hr⟩ := h.i.inFrames _ (List.getElem_mem ht) (e1 ▸ hrt)
  rw [e1, hr]
  exact (C20_parity g 0).1

/-- Its hypotheses: two requests, the counter below the bound. -/
example : (cRun cfg2 true exSwap).map (fun s => (s.ridGen, s.frames.length)) = some (2, 2) := by rfl

/-- **C20, consequence**: nobody is told `ErrNoNewUUID`. -/
theorem C20_no_collision {c : CConf} {d : Bool} {acts : List CAct} {s : CSt} (hrun : cRun c d acts = some s)
    (hg : s.ridGen < 2 ^ 63) (t : Nat) : (t, CRes.noNewUUID) ∉ s.rets :=
  (CInv.reach hrun).n.rets hg t

/-- The bound is sharp: after 2^63 draws the ids repeat. -/
theorem C20_bound_sharp (g : Nat) : clientRid (g + 2 ^ 63) = clientRid g := by
  apply UInt64.toNat_inj.1
  simp only [clientRid, UInt64.toNat_ofNat']
  omega

example : (cRun cfg2 true exSwap).map (fun s => (s.ridGen, s.frames.map (·.rid))) = some (2, [3, 5]) := by rfl

/-! ## C24 Writing to a finished stream fails -/

/-- **C24, client, first frame of a batch**: a stream frame for a stream that does not exist is refused. -/
theorem C24_client_first_partial (f : CFrame) (add : Bool) (hr : f.rst = false) (hp : f.push = false) (hc : f.checkExist = true) :
    clientDecideFirst f false add = some (.fail .streamNotExists) := by
  simp [clientDecideFirst, serveDecide, CFrame.toS, hr, hp, hc]

/-- A frame that continues a stream meets the hypotheses of both parts of C24. -/
example : (fun f : CFrame => (f.rst, f.push, f.checkExist)) ⟨3, [1], false, false, false, true⟩ = (false, false, true) := by rfl

/-- **C24 is false for the client**: as a later frame of a batch the same frame is accepted (the stream layer creates a new
stream for it). -/
theorem C24_refuted_client_later (f : CFrame) (hr : f.rst = false) (hp : f.push = false) :
    clientDecideMore f false true = none := by
  simp [clientDecideMore, serveDecide, CFrame.toS, hr, hp]

/-- An execution: caller 1 writes to stream 9, which does not exist; because the frame is collected second, it is written and
reported as successful. -/
def exGhost : List CAct :=
  [.lGo, .lGo, .lGo,
   .request 0 false [1], .go 0, .go 0, .go 0, .enq 0,
   .send 1 ⟨9, [2], false, false, false, true⟩, .go 1, .enq 1,
   .wDeq false true, .wDeq false true, .wGo, .wGo, .wWrite 2 true, .wGo, .wGo, .recv 1]

theorem C24_refuted_client_batch :
    (cRun cfg2 true exGhost).map (fun s => (s.rets, (cframeOf s.frames 1).checkExist)) = some ([(1, .ok)], true) := by rfl

/-! ## C25 Every submitted client write is answered -/

/-- **C25, at most one result.** In every execution each submitted write is sent at most one result and a caller receives at
most one. -/
theorem C25_at_most_one {c : CConf} {d : Bool} {acts : List CAct} {s : CSt} (hrun : cRun c d acts = some s) :
    s.sends.Nodup ∧ (s.rets.map Prod.fst).Nodup :=
  ⟨(CInv.reach hrun).a.once, (CInv.reach hrun).r.once⟩

example : (cRun cfg2 true exSwap).map (fun s => (s.sends, s.rets)) = some ([0, 1], [(0, .ok), (1, .ok)]) := by rfl

/-- **C25, nothing is dropped (reconnect).** A committed write is still in the queue, being written, or has its result. -/
theorem C25_not_dropped_partial {c : CConf} {d : Bool} {acts : List CAct} {s : CSt} (hrun : cRun c d acts = some s)
    (hc : c.reconnect = true) {i t g : Nat} (hw : s.pc i = .wait t g) (hoff : s.wr = .off) :
    (s.deq ≤ t ∧ t < s.frames.length) ∨ s.slot t ≠ none := by
  have h := CInv.reach hrun
  rcases h.b hc i t g hw with h1 | h1 | h1 | h1
  · exact .inl ⟨h1, h.a.lt i t g hw⟩
  · exact .inr h1
  · rw [h.a.noBatch (by simp [hoff, CWr.collecting])] at h1; cases h1
  · rw [h.a.noSend (by simp [hoff, CWr.distributing])] at h1; cases h1

/-- The steps of the connection's own goroutines and of the transport (not of callers, not `Close`). -/
def CAct.internal : CAct → Bool
  | .wDeq _ _ | .wDone | .wGo | .wWrite _ _ | .rErr | .rGo | .lGo | .dialOk | .handlerDone => true
  | _ => false

/-- The steps of the writer goroutine. -/
def CAct.writer : CAct → Bool
  | .wDeq _ _ | .wDone | .wGo | .wWrite _ _ => true
  | _ => false

theorem writer_not_stuck {c : CConf} {s : CSt} (hA : CInvA s) (hw : s.wr ≠ .off)
    (hne : s.wr = .first → s.deq < s.frames.length) : ∃ a s', cStep c s a = some s' ∧ a.writer = true := by
  cases h : s.wr with
  | off => exact absurd h hw
  | first =>
    have hl := hne h
    cases hd : clientDecideFirst (cframeOf s.frames s.deq) true true with
    | some r => exact ⟨.wDeq true true, _, by simp only [cStep, h, if_pos hl, hd]; rfl, rfl⟩
    | none => exact ⟨.wDeq true true, _, by simp only [cStep, h, if_pos hl, hd]; rfl, rfl⟩
  | more n =>
    cases n with
    | zero => exact ⟨.wGo, _, by simp only [cStep, h]; rfl, rfl⟩
    | succ n =>
      by_cases hl : s.deq < s.frames.length
      · cases hd : clientDecideMore (cframeOf s.frames s.deq) true true with
        | some r => exact ⟨.wDeq true true, _, by simp only [cStep, h, if_pos hl, hd]; rfl, rfl⟩
        | none => exact ⟨.wDeq true true, _, by simp only [cStep, h, if_pos hl, hd]; rfl, rfl⟩
      · have : s.deq = s.frames.length := by have := hA.deq; omega
        cases hd : s.done with
        | false => exact ⟨.wGo, _, by simp only [cStep, h]; rw [if_pos ⟨this, hd⟩], rfl⟩
        | true =>
          cases hc : c.reconnect with
          | true => exact ⟨.wDone, _, by simp only [cStep, h, hd, hc, if_true]; rfl, rfl⟩
          | false => exact ⟨.wDone, _, by simp only [cStep, h, hd, hc, if_true]; rfl, rfl⟩
  | register =>
    cases hr : s.rwc with
    | true => exact ⟨.wGo, _, by simp only [cStep, h, hr, if_true]; rfl, rfl⟩
    | false => exact ⟨.wGo, _, by simp only [cStep, h, hr]; rfl, rfl⟩
  | write =>
    exact ⟨.wWrite 0 false, _, by simp only [cStep, h]; rw [if_pos ⟨Nat.zero_le _, by simp⟩], rfl⟩
  | dist stop =>
    cases ht : s.toSend with
    | nil => cases hs : stop <;> exact ⟨.wGo, _, by subst hs; simp only [cStep, h, ht]; rfl, rfl⟩
    | cons p rest =>
      obtain ⟨t, r⟩ := p
      have : s.slot t = none := by
        apply Classical.byContradiction
        intro hn
        exact hA.sendsSend t (hA.slot t hn) (by simp [ht])
      exact ⟨.wGo, _, by simp only [cStep, h, ht]; rw [if_pos this], rfl⟩
  | exit => exact ⟨.wGo, _, by simp only [cStep, h]; rfl, rfl⟩

/-- **C25, no deadlock (reconnect).** As long as the loop goroutine has not ended, an unanswered committed write always leaves
the connection's own goroutines a step to make. -/
theorem C25_not_stuck_partial {c : CConf} {d : Bool} {acts : List CAct} {s : CSt} (hrun : cRun c d acts = some s)
    (hc : c.reconnect = true) {i t g : Nat} (hw : s.pc i = .wait t g) (hs : s.slot t = none) (hl : s.loop ≠ .ended) :
    ∃ a s', cStep c s a = some s' ∧ a.internal = true := by
  have hI := CInv.reach hrun
  by_cases hoff : s.wr = .off
  · cases h : s.loop with
    | connect => cases hr : s.rwc <;> exact ⟨.lGo, _, by simp only [cStep, h, hr]; rfl, rfl⟩
    | dialing n => exact ⟨.dialOk, _, by simp only [cStep, h]; rfl, rfl⟩
    | dialCheck n => cases hr : s.ctx <;> exact ⟨.lGo, _, by simp only [cStep, h, hr]; rfl, rfl⟩
    | spawn => exact ⟨.lGo, _, by simp only [cStep, h]; rfl, rfl⟩
    | onConnect => exact ⟨.lGo, _, by simp only [cStep, h]; rfl, rfl⟩
    | onDisconnect => exact ⟨.lGo, _, by simp only [cStep, h]; rfl, rfl⟩
    | waitDone =>
      have : s.done = true := by simp [CSt.done, hI.l.wr (.inl h) hoff]
      exact ⟨.lGo, _, by simp only [cStep, h, this, if_true]; rfl, rfl⟩
    | closeRwc => cases hr : s.rwc <;> exact ⟨.lGo, _, by simp only [cStep, h, hr]; rfl, rfl⟩
    | waitWG =>
      by_cases hh : s.handlers = 0
      · cases hr : s.rd with
        | off => exact ⟨.lGo, _, by simp only [cStep, h]; rw [if_pos ⟨hr, hoff, hh⟩], rfl⟩
        | check => cases hw : s.rwc <;> exact ⟨.rGo, _, by simp only [cStep, hr, hw]; rfl, rfl⟩
        | opening => cases hw : s.rwc <;> exact ⟨.rGo, _, by simp only [cStep, hr, hw]; rfl, rfl⟩
        | read => exact ⟨.rErr, _, by simp only [cStep, hr]; rfl, rfl⟩
        | lookup f =>
          refine ⟨.rGo, ?_⟩
          simp only [cStep, hr]
          repeat' split
          all_goals exact ⟨_, rfl, rfl⟩
        | deliver t f => exact ⟨.rGo, _, by simp only [cStep, hr]; rfl, rfl⟩
        | exit => exact ⟨.rGo, _, by simp only [cStep, hr]; rfl, rfl⟩
      · exact ⟨.handlerDone, _, by simp only [cStep]; rw [if_pos (by omega)], rfl⟩
    | endLoop => exact ⟨.lGo, _, by simp only [cStep, h, hc, if_true]; rfl, rfl⟩
    | selfClose => cases hr : s.closed <;> exact ⟨.lGo, _, by simp only [cStep, h, hr]; rfl, rfl⟩
    | ended => exact absurd h hl
  · suffices ∃ a s', cStep c s a = some s' ∧ a.writer = true by
      obtain ⟨a, s', h1, h2⟩ := this
      exact ⟨a, s', h1, by cases a <;> simp_all [CAct.writer, CAct.internal]⟩
    refine writer_not_stuck hI.a hoff (fun hf => ?_)
    rcases hI.b hc i t g hw with h1 | h1 | h1 | h1
    · have := hI.a.lt i t g hw; omega
    · exact absurd hs h1
    · rw [hI.a.noBatch (by simp [hf, CWr.collecting])] at h1; cases h1
    · rw [hI.a.noSend (by simp [hf, CWr.distributing])] at h1; cases h1

/-- The hypotheses of both parts: a reconnecting connection is dialing, its writer is off, and a caller whose write is in the
queue waits for its result. -/
example : (cRun ⟨1, true, 1, false⟩ true
    [.lGo, .lGo, .lGo, .rGo, .rGo, .request 0 false [1], .go 0, .go 0, .go 0, .rErr, .rGo, .lGo, .lGo, .lGo, .wDone, .wGo, .lGo,
     .lGo, .lGo, .dialFail, .enq 0]).map (fun s => (s.pc 0, s.wr, s.slot 0, s.loop)) =
    some (.wait 0 1, .off, none, .dialCheck 1) := by rfl

structure Stranded (i t g : Nat) (s : CSt) : Prop where
  loop : s.loop = .ended
  wr : s.wr = .off
  pc : s.pc i = .wait t g
  slot : s.slot t = none

set_option maxHeartbeats 1000000 in
theorem Stranded.step {i t g c s a s'} (hc : c.reconnect = true) (h : Stranded i t g s) (hs : cStep c s a = some s') :
    Stranded i t g s' := by
  obtain ⟨h1, h2, h3, h4⟩ := h
  cstep_cases hs a
  all_goals constructor
  all_goals try simp only []
  all_goals try first
    | assumption
    | grind [setAt]

/-- **C25 is false**: with reconnect, a write left in the queue when the loop goroutine ends (Close during reconnecting) is
never answered: in *every* continuation its caller is still waiting. The comment "guaranteed to be processed finally once
committed" (clientconn.go:401) does not hold. -/
theorem C25_refuted_stranded {c : CConf} {d : Bool} {acts more : List CAct} {s s' : CSt} (hrun : cRun c d acts = some s)
    (hc : c.reconnect = true) (hl : s.loop = .ended) {i t g : Nat} (hw : s.pc i = .wait t g) (hs : s.slot t = none)
    (hmore : runActs (cStep c) s more = some s') : s'.pc i = .wait t g ∧ s'.slot t = none := by
  have h0 : Stranded i t g s := ⟨hl, ((CInv.reach hrun).l.idle (by simp [hl, CLp.running])).2.1, hw, hs⟩
  have := runActs_inv (P := Stranded i t g) (fun _ _ _ hp hs => hp.step hc hs) h0 hmore
  exact ⟨this.pc, this.slot⟩

/-- The server goes away, a caller submits a request while the client reconnects, the user closes the connection. -/
def exStranded : List CAct :=
  [.lGo, .lGo, .lGo, .rGo, .rGo, .request 0 false [1], .go 0, .go 0, .go 0,
   .rErr, .rGo, .lGo, .lGo, .lGo, .wDone, .wGo, .lGo, .lGo, .lGo, .dialFail,
   .enq 0, .close, .cancel, .lGo]

/-- The hypotheses of `C25_refuted_stranded` are met. -/
theorem C25_refuted_stranded_example :
    (cRun ⟨1, true, 1, false⟩ true exStranded).map (fun s => (s.loop, s.pc 0, s.slot 0)) =
    some (.ended, .wait 0 1, none) := by rfl

/-! ## C44 Reconnect tries every address -/

/-- **C44, round robin.** The k-th dial attempt of `connect` is to address k mod n. -/
theorem C44_round_robin {c : CConf} {d : Bool} {acts : List CAct} {s : CSt} (hrun : cRun c d acts = some s)
    (k : Nat) (hk : k < s.dials.length) : s.dials[k].addr = k % c.naddr := by
  have h := (CInv.reach hrun).l
  have := h.rot k (by rw [← h.dials]; exact hk)
  simpa [List.getD, List.getElem?_eq_getElem hk] using this

/-- In any n consecutive numbers each remainder mod n occurs exactly once. -/
theorem window_covers {n : Nat} (st a : Nat) (ha : a < n) :
    ∃ k, (st ≤ k ∧ k < st + n ∧ k % n = a) ∧ ∀ k', st ≤ k' ∧ k' < st + n ∧ k' % n = a → k' = k := by
  have hq := Nat.div_add_mod st n
  have hlt : st % n < n := Nat.mod_lt _ (by omega)
  have key : ∃ k q, st ≤ k ∧ k < st + n ∧ k = n * q + a := by
    by_cases h : st % n ≤ a
    · exact ⟨n * (st / n) + a, st / n, by omega, by omega, rfl⟩
    · refine ⟨n * (st / n + 1) + a, st / n + 1, ?_, ?_, rfl⟩ <;> rw [Nat.mul_add] <;> omega
  obtain ⟨k, q, h1, h2, h3⟩ := key
  have hka : k % n = a := by rw [h3, Nat.mul_add_mod, Nat.mod_eq_of_lt ha]
  refine ⟨k, ⟨h1, h2, hka⟩, ?_⟩
  rintro k' ⟨h1', h2', h3'⟩
  have e := Nat.div_add_mod k' n
  rw [h3'] at e
  rcases Nat.lt_trichotomy (k' / n) q with hlt | heq | hlt
  · have := Nat.mul_le_mul_left n (Nat.succ_le_of_lt hlt)
    rw [Nat.mul_succ] at this
    omega
  · rw [heq] at e; omega
  · have := Nat.mul_le_mul_left n (Nat.succ_le_of_lt hlt)
    rw [Nat.mul_succ] at this
    omega

/-- **C44, coverage.** Any n consecutive attempts try each of the n addresses exactly once. -/
theorem C44_covers {c : CConf} {d : Bool} {acts : List CAct} {s : CSt} (hrun : cRun c d acts = some s)
    (st : Nat) (hst : st + c.naddr ≤ s.dials.length) (a : Nat) (ha : a < c.naddr) :
    ∃ k, ∃ hk : k < s.dials.length, (st ≤ k ∧ k < st + c.naddr ∧ s.dials[k].addr = a) ∧
      ∀ k', ∀ hk' : k' < s.dials.length, st ≤ k' ∧ k' < st + c.naddr ∧ s.dials[k'].addr = a → k' = k := by
  obtain ⟨k, ⟨h1, h2, h3⟩, h4⟩ := window_covers st a ha
  refine ⟨k, by omega, ⟨h1, h2, by rw [C44_round_robin hrun k (by omega)]; exact h3⟩, ?_⟩
  rintro k' hk' ⟨h1', h2', h3'⟩
  rw [C44_round_robin hrun k' hk'] at h3'
  exact h4 k' ⟨h1', h2', h3'⟩

/-- **C44, sleeping.** The loop sleeps after an attempt exactly if the attempt failed and all of the last n attempts did. -/
theorem C44_sleeps {c : CConf} {d : Bool} {acts : List CAct} {s : CSt} (hrun : cRun c d acts = some s)
    (k : Nat) (hk : k < s.dials.length) :
    s.dials[k].slept = true ↔ s.dials[k].ok = false ∧ c.naddr ≤ trail (s.dials.take (k + 1)) := by
  have := (CInv.reach hrun).s.slept k hk
  simp only [List.getD, List.getElem?_eq_getElem hk, Option.getD_some] at this
  rw [this]
  simp

/-- Three addresses; the first dial fails, then a round of failures, then success. -/
example : (cRun ⟨1, true, 3, false⟩ false
    [.lGo, .dialFail, .lGo, .dialFail, .lGo, .dialFail, .lGo, .dialFail, .lGo, .dialOk]).map (fun s => s.dials) =
    some [⟨0, false, false⟩, ⟨1, false, false⟩, ⟨2, false, true⟩, ⟨0, false, true⟩, ⟨1, true, false⟩] := by rfl

/-! ## C45 Close stops a reconnecting connection -/

/-- A closed, cancelled connection about to dial. -/
structure Redialing (s : CSt) : Prop where
  closed : s.closed = true
  ctx : s.ctx = true
  loop : s.loop = .dialing 0
  rd : s.rd = .off
  wr : s.wr = .off
  handlers : s.handlers = 0

/-- One turn of the loop: dial, spawn reader and writer, see the cancelled context, tear down, dial again. -/
def redialActs : List CAct := [.dialOk, .lGo, .lGo, .lGo, .lGo, .lGo, .rGo, .rGo, .wDone, .wGo, .lGo, .lGo, .lGo]

theorem Redialing.turn {c : CConf} (hc : c.reconnect = true) {s : CSt} (h : Redialing s) :
    ∃ s', runActs (cStep c) s redialActs = some s' ∧ Redialing s' ∧
      (s'.dials.filter (·.ok)).length = (s.dials.filter (·.ok)).length + 1 := by
  obtain ⟨h1, h2, h3, h4, h5, h6⟩ := h
  have hd : ∀ u : CSt, u.ctx = true → u.done = true := fun u hu => by simp [CSt.done, hu]
  refine ⟨_, by
    simp only [redialActs, runActs, cStep, h3, h2, h4, h5, h6, hc, hd, if_true, and_self, Bool.false_eq_true, if_false]
    rfl, ?_, ?_⟩
  · constructor <;> simp_all
  · simp

/-- **C45 is false**: for every n there is an execution in which, after `Close` returned and the context was cancelled, the
connection dials successfully n more times and its loop is still running: `connect` looks at the context only after a
*failed* dial (clientconn.go:298). -/
theorem C45_refuted (n : Nat) : ∃ pre more s0 s,
    cRun ⟨1, true, 1, false⟩ true pre = some s0 ∧ s0.closed = true ∧ s0.ctx = true ∧
    runActs (cStep ⟨1, true, 1, false⟩) s0 more = some s ∧ s.loop ≠ .ended ∧
    (s.dials.filter (·.ok)).length = (s0.dials.filter (·.ok)).length + n := by
  have start : ∃ pre s0, cRun ⟨1, true, 1, false⟩ true pre = some s0 ∧ Redialing s0 := by
    refine ⟨[.lGo, .lGo, .lGo, .close, .cancel, .lGo, .lGo, .lGo, .rGo, .rGo, .wDone, .wGo, .lGo, .lGo, .lGo], _, rfl, ?_⟩
    constructor <;> rfl
  obtain ⟨pre, s0, hpre, h0⟩ := start
  have loop : ∀ k, ∃ more s, runActs (cStep ⟨1, true, 1, false⟩) s0 more = some s ∧ Redialing s ∧
      (s.dials.filter (·.ok)).length = (s0.dials.filter (·.ok)).length + k := by
    intro k
    induction k with
    | zero => exact ⟨[], s0, rfl, h0, rfl⟩
    | succ k ih =>
      obtain ⟨more, s, hr, hR, hl⟩ := ih
      obtain ⟨s', hr', hR', hl'⟩ := hR.turn (c := ⟨1, true, 1, false⟩) rfl
      refine ⟨more ++ redialActs, s', ?_, hR', by omega⟩
      rw [runActs_append, hr]; exact hr'
  obtain ⟨more, s, hr, hR, hl⟩ := loop n
  exact ⟨pre, more, s0, s, hpre, h0.closed, h0.ctx, hr, by rw [hR.loop]; simp, hl⟩

def CLp.redial : CLp → Bool
  | .dialCheck _ | .selfClose | .ended => false
  | _ => true

/-- **C45 is false, every schedule**: as long as dials succeed, no execution of a reconnecting connection ends its loop, closed
or not - `Wait` does not return. -/
theorem C45_refuted_never_ends {c : CConf} (hc : c.reconnect = true) {more : List CAct} {s s' : CSt}
    (hl : s.loop.redial = true) (hmore : runActs (cStep c) s more = some s') (hno : CAct.dialFail ∉ more) :
    s'.loop ≠ .ended := by
  suffices s'.loop.redial = true by intro h; rw [h] at this; cases this
  induction more generalizing s with
  | nil => simp only [runActs, Option.some.injEq] at hmore; exact hmore ▸ hl
  | cons a as ih =>
    obtain ⟨s1, h1, h2⟩ := runActs_cons_some hmore
    refine ih ?_ h2 (fun h => hno (List.mem_cons_of_mem _ h))
    have hna : a ≠ .dialFail := fun h => hno (by simp [h])
    clear hmore ih h2 hno
    cstep_cases h1 a
    all_goals simp_all [CLp.redial]

/-- **C45, what holds**: once the context is cancelled, the first failed dial ends the loop for good. -/
theorem C45_failed_dial_ends_partial {c : CConf} {s : CSt} {n : Nat} (hl : s.loop = .dialing n) (hx : s.ctx = true) :
    ∃ s', runActs (cStep c) s [.dialFail, .lGo] = some s' ∧ s'.loop = .ended := by
  exact ⟨_, by simp only [runActs, cStep, hl, hx, if_true]; rfl, rfl⟩

/-- The hypotheses of the two theorems before: after `Close` a reconnecting connection is dialing again with its context
cancelled. -/
example : (cRun ⟨1, true, 1, false⟩ true
    [.lGo, .lGo, .lGo, .close, .cancel, .lGo, .lGo, .lGo, .rGo, .rGo, .wDone, .wGo, .lGo, .lGo, .lGo]).map
    (fun s => (s.loop, s.ctx, s.loop.redial)) = some (.dialing 0, true, true) := by rfl

structure NoDial (s : CSt) : Prop where
  dials : s.dials = []
  loop : s.loop.count = some 0 ∨ s.loop = .ended
  nd : ∀ n, s.loop ≠ .dialing n ∧ s.loop ≠ .dialCheck n
  conn : s.loop = .connect → s.rwc = true
  fresh : s.loop = .connect → s.handled = []
  off : s.loop = .connect → s.rd = .off

theorem NoDial.step {c : CConf} {s s' : CSt} {a : CAct} (hc : c.reconnect = false) (h : NoDial s) (hs : cStep c s a = some s') :
    NoDial s' := by
  obtain ⟨h1, h2, h3, h4, h5, h6⟩ := h
  cstep_cases hs a
  all_goals constructor
  all_goals try simp only []
  all_goals try first
    | assumption
    | grind [CLp.count]

theorem NoDial.reach {c : CConf} (hc : c.reconnect = false) {acts : List CAct} {s : CSt} (hrun : cRun c true acts = some s) : NoDial s := by
  refine runActs_inv (P := NoDial) (fun s a s' h hs => h.step hc hs) ?_ hrun
  constructor <;> simp [CSt.init, CLp.count]

/-- **C45, without reconnect**: a connection created by `NewConnection` never dials again. -/
theorem C45_no_reconnect_partial {c : CConf} (hc : c.reconnect = false) {acts : List CAct} {s : CSt}
    (hrun : cRun c true acts = some s) : s.dials = [] := (NoDial.reach hc hrun).dials

/-- Closing a connection without reconnect ends its loop. -/
example : (cRun cfg2 true [.lGo, .lGo, .lGo, .close, .cancel, .lGo, .lGo, .lGo, .rGo, .rGo, .wDone, .wGo, .lGo, .lGo, .lGo]).map
    (fun s => (s.loop, s.closeOks, s.dials)) = some (.ended, 1, []) := by rfl

/-! ## C46 Close succeeds exactly once -/

/-- **C46.** However many `Close` calls are made, by users and by the loop itself, at most one returns nil; exactly one did iff
the connection is closed. -/
theorem C46_once {c : CConf} {d : Bool} {acts : List CAct} {s : CSt} (hrun : cRun c d acts = some s) :
    s.closeOks = (if s.closed then 1 else 0) := (CInv.reach hrun).l.oks

/-- After a `Close` call the connection is closed, and stays closed. -/
theorem C46_closes {c : CConf} {s s' : CSt} (hs : cStep c s .close = some s') : s'.closed = true := by
  simp only [cStep] at hs
  split at hs <;> simp only [Option.some.injEq] at hs <;> subst hs
  · assumption
  · rfl

theorem C46_stays_closed {c : CConf} {more : List CAct} {s s' : CSt} (h : s.closed = true)
    (hmore : runActs (cStep c) s more = some s') : s'.closed = true := by
  refine runActs_inv (P := fun u => u.closed = true) ?_ h hmore
  intro s a s' h hs
  cstep_cases hs a
  all_goals first
    | assumption
    | rfl

def CPc.quiet : CPc → Bool
  | .idle | .check _ _ => true
  | _ => false

/-- **C46, requests after Close** do not send: a caller that starts calling `Request` on a closed connection never submits a
frame, however the call interleaves with everything else. -/
theorem C46_request_after_close {c : CConf} {more : List CAct} {s s' : CSt} {i : Nat} (h : s.closed = true) (hi : s.pc i = .idle)
    (hmore : runActs (cStep c) s more = some s') (hno : ∀ f, CAct.send i f ∉ more) : (s'.pc i).quiet = true := by
  have h0 : (s.pc i).quiet = true := by simp [hi, CPc.quiet]
  clear hi
  induction more generalizing s with
  | nil => simp only [runActs, Option.some.injEq] at hmore; exact hmore ▸ h0
  | cons a as ih =>
    obtain ⟨s1, h1, h2⟩ := runActs_cons_some hmore
    have hc1 : s1.closed = true := C46_stays_closed (c := c) (more := [a]) h (by simp only [runActs, h1])
    refine ih hc1 h2 (fun f hf => hno f (List.mem_cons_of_mem _ hf)) ?_
    have hna : ∀ f, a ≠ .send i f := fun f hf => hno f (by simp [hf])
    clear hmore ih h2 hno hc1
    cstep_cases h1 a
    all_goals try simp only []
    all_goals try first
      | assumption
      | grind [setAt, CPc.quiet]

/-- Two users close; one of them and nobody else succeeds, a later request returns at once. -/
example : (cRun cfg2 true [.lGo, .lGo, .close, .close, .request 0 false [1], .go 0, .cancel]).map
    (fun s => (s.closeOks, s.closed, s.pc 0, s.frames)) = some (1, true, .idle, []) := by rfl

/-! ## C47 TLS configuration is honoured -/

/-- What the user asked for. -/
def Spec.secure (c : ConnConfig) : Pipe → Prop
  | .failed => True
  | .plain => c.tls = none
  | .tls t => c.tls = some t

/-- **C47, NewConnection**: the connection is encrypted under the given configuration, or the dial fails. -/
theorem C47_newConnection_partial (c : ConnConfig) (conn shake : Bool) :
    Spec.secure c (dialTCP (dialConfig c .newConnection) conn shake) := by
  cases ht : c.tls <;> cases conn <;> cases shake <;> simp [dialTCP, dialConfig, Spec.secure, ht]

/-- **C47 is false for NewConnectionWithReconnect and NewReusedConnection**: whatever TLS configuration the user gives, every
connection they make, the first and all later ones, is in plain text. -/
theorem C47_refuted_reconnect (c : ConnConfig) (site : DialSite) (hs : site ≠ .newConnection) (shake : Bool) :
    dialTCP (dialConfig c site) true shake = .plain := by
  cases site <;> simp_all [dialTCP, dialConfig]

theorem C47_refuted : ¬ ∀ (c : ConnConfig) (site : DialSite) (conn shake : Bool),
    Spec.secure c (dialTCP (dialConfig c site) conn shake) := by
  intro h
  have := h ⟨0, 0, 0, some 7⟩ .connect true true
  simp [dialTCP, dialConfig, Spec.secure] at this

example : dialTCP (dialConfig ⟨5, 0, 0, some 7⟩ .newConnection) true true = .tls 7 := by rfl

/-! ## C61 The reader of a client connection has a transport connection -/

/-- **C61 is false**: `readFrames` tests `conn.rwc == nil` (clientconn.go:482) and reads `conn.rwc` again (485) without holding
the lock; if `closeRWC` runs in between the reader is built on a nil connection, and the first read panics. -/
theorem C61_refuted :
    (cRun cfg2 true [.lGo, .lGo, .lGo, .rGo, .close, .cancel, .lGo, .lGo, .rGo]).map (fun s => s.nilDeref) = some true := by rfl

theorem nilDeref_step {c : CConf} {s s' : CSt} {a : CAct} (hs : cStep c s a = some s') (hn : s.nilDeref = false)
    (hn' : s'.nilDeref = true) : s.rd = .opening ∧ s.rwc = false := by
  cstep_cases hs a
  all_goals simp_all

theorem opening_step {c : CConf} {s s' : CSt} {a : CAct} (hs : cStep c s a = some s') (ho : s'.rd = .opening) (hr : s'.rwc = false)
    (h : s.rd = .opening → s.rwc = true) :
    s.rd = .opening ∧ s.rwc = true ∧ ((a = .lGo ∧ s.loop = .closeRwc) ∨ (a = .closeRWC ∧ s.handled ≠ [])) := by
  cstep_cases hs a
  all_goals simp_all

theorem opening_run {c : CConf} : ∀ (acts : List CAct) (s s' : CSt), runActs (cStep c) s acts = some s' → s.nilDeref = false →
    (s.rd = .opening → s.rwc = true) → s'.nilDeref = true →
    ∃ pre a post s1 s2, acts = pre ++ a :: post ∧ runActs (cStep c) s pre = some s1 ∧ cStep c s1 a = some s2 ∧
      s1.rd = .opening ∧ s1.rwc = true ∧ s2.rd = .opening ∧ s2.rwc = false ∧
      ((a = .lGo ∧ s1.loop = .closeRwc) ∨ (a = .closeRWC ∧ s1.handled ≠ []))
  | [], s, s', h, hn, _, hn' => by cases h; rw [hn] at hn'; cases hn'
  | a :: as, s, s', h, hn, ho, hn' => by
    simp only [runActs] at h
    cases h1 : cStep c s a with
    | none => rw [h1] at h; cases h
    | some s1 =>
      rw [h1] at h
      have hd : s1.nilDeref = false := by
        cases hd : s1.nilDeref with
        | false => rfl
        | true =>
          have := nilDeref_step h1 hn hd
          rw [ho this.1] at this; cases this.2
      by_cases hw : s1.rd = .opening ∧ s1.rwc = false
      · obtain ⟨k1, k2, k3⟩ := opening_step h1 hw.1 hw.2 ho
        exact ⟨[], a, as, s, s1, rfl, rfl, h1, k1, k2, hw.1, hw.2, k3⟩
      · have ho' : s1.rd = .opening → s1.rwc = true := fun h => by
          cases hr : s1.rwc with
          | true => rfl
          | false => exact absurd ⟨h, hr⟩ hw
        obtain ⟨pre, b, post, t1, t2, k1, k2, k3⟩ := opening_run as s1 s' h hd ho' hn'
        exact ⟨a :: pre, b, post, t1, t2, by rw [k1]; rfl, by simp only [runActs, h1]; exact k2, k3⟩

/-- **C61, what holds**: in every execution the reader starts only with a transport connection that it has seen, so that a nil one is used
only if `closeRWC`, run by the loop or by the handler of a request from the server, falls between the reader's test and its second look. -/
theorem C61_partial {c : CConf} {d : Bool} {acts : List CAct} {s : CSt} (hrun : cRun c d acts = some s) (hn : s.nilDeref = true) :
    ∃ pre a post s1 s2, acts = pre ++ a :: post ∧ cRun c d pre = some s1 ∧ cStep c s1 a = some s2 ∧
      s1.rd = .opening ∧ s1.rwc = true ∧ s2.rd = .opening ∧ s2.rwc = false ∧
      ((a = .lGo ∧ s1.loop = .closeRwc) ∨ (a = .closeRWC ∧ s1.handled ≠ [])) :=
  opening_run acts _ _ hrun rfl (fun h => by cases h) hn

/-- The step before the one that panics in `C61_refuted`. -/
example : (cRun cfg2 true [.lGo, .lGo, .lGo, .rGo, .close, .cancel, .lGo, .lGo]).map (fun s => (s.rd, s.rwc, s.nilDeref)) =
    some (.opening, false, false) := by rfl

end Qrpc
