import Verif.Props.Client
import Verif.Props.Wire
import Verif.Props.Writer
import Verif.Props.Flags
import Verif.Props.Channel
import Verif.Model.FirstFrame
import Verif.Lemmas.ServeRespC
/-! # Requests started by the server: C60, C67 -/
namespace Qrpc
open Spec

/-! ## C60 Server-initiated requests are accepted by the client -/

/-- What readFrames looks at in a frame returned by ReadFrame. -/
def Spec.inFrame (f : Frame) : InFrame :=
  ⟨f.requestID, f.flags.toNat.testBit 4, f.flags.toNat.testBit 2, f.flags.toNat.testBit 0 || f.flags.toNat.testBit 1 || f.flags.toNat.testBit 3⟩

/-- The bytes of a first frame: its id and command, and the flags that were passed, possibly without the codec bit. -/
theorem writeFirstFrame_layout {ε} (codec : Option Codec) (write : DFW → Option ε) (pooled : DFW) (hd : pooled.Clean)
    (id : UInt64) (r : Nat) (c : Cmd) (f : FrameFlag) (p : Bytes) (sub : DFW)
    (h : (writeFirstFrame codec write pooled id r c f p).submitted = some sub) :
    ∃ f' p', sub.wbuf = layout id c f' p' ∧ (f' = f ∨ f' = FrameFlag.toNonCodec f) ∧ (bit f 5 = false → p' = p ∧ f' = f) := by
  unfold writeFirstFrame at h
  simp only at h
  generalize hw : (if FrameFlag.isPush f then pooled.fromPool else { pooled.fromPool with resp := some r }) = w at h
  have hl : w.wbuf = pooled.wbuf := by rw [← hw]; split <;> rfl
  have hwl : 16 ≤ w.wbuf.length := by rw [hl]; unfold DFW.Clean at hd; omega
  obtain ⟨h1, h2⟩ := (DFW.startWrite_holds w id c f hwl).writeBytes p
  rw [DFW.startWrite_payload w id c f hwl] at h2
  have hwp : w.payload = [] := by unfold DFW.payload; rw [hl]; exact hd.payload_nil
  rw [hwp, List.nil_append] at h2
  cases hs : sentAs codec f ((w.startWrite id c f).writeBytes p).payload with
  | error e => rw [(endWrite_error h1 codec write hs).1] at h; simp at h
  | ok fp =>
    obtain ⟨f', p'⟩ := fp
    obtain ⟨sub', e1, e2, _⟩ := endWrite_ok h1 codec write hs
    rw [e1] at h; simp only [Option.some.injEq] at h; subst h
    refine ⟨f', p', e2, sentAs_flags hs, fun hb => ?_⟩
    have hc : FrameFlag.isCodec f = false := by rw [isCodec_testBit]; exact hb
    rw [h2, sentAs_noCodec codec _ _ hc] at hs
    simp only [Except.ok.injEq, Prod.mk.injEq] at hs
    exact ⟨hs.2.symm, hs.1.symm⟩

/-- The flag byte of a server's first frame, with or without its codec bit: nonblocking; push is what was passed. -/
theorem serve_flags (f : FrameFlag) :
    (∀ g, g = f ||| NBFlag ∨ g = FrameFlag.toNonCodec (f ||| NBFlag) → bit g 3 = true ∧ bit g 4 = bit f 4 ∧ bit g 2 = bit f 2) ∧
    (∀ g, g = FrameFlag.toStream f ∨ g = FrameFlag.toNonCodec (FrameFlag.toStream f) → bit g 0 = true ∧ bit g 4 = bit f 4 ∧ bit g 2 = bit f 2) := by
  revert f
  apply forallFlag
  have : ∀ n : Fin 256, let f : FrameFlag := UInt8.ofFin n
      (bit (f ||| NBFlag) 3 = true ∧ bit (f ||| NBFlag) 4 = bit f 4 ∧ bit (f ||| NBFlag) 2 = bit f 2) ∧
      (bit (FrameFlag.toNonCodec (f ||| NBFlag)) 3 = true ∧ bit (FrameFlag.toNonCodec (f ||| NBFlag)) 4 = bit f 4 ∧ bit (FrameFlag.toNonCodec (f ||| NBFlag)) 2 = bit f 2) ∧
      (bit (FrameFlag.toStream f) 0 = true ∧ bit (FrameFlag.toStream f) 4 = bit f 4 ∧ bit (FrameFlag.toStream f) 2 = bit f 2) ∧
      (bit (FrameFlag.toNonCodec (FrameFlag.toStream f)) 0 = true ∧ bit (FrameFlag.toNonCodec (FrameFlag.toStream f)) 4 = bit f 4 ∧ bit (FrameFlag.toNonCodec (FrameFlag.toStream f)) 2 = bit f 2) := by
    decide +kernel
  intro n
  obtain ⟨h1, h2, h3, h4⟩ := this n
  refine ⟨?_, ?_⟩
  · rintro g (rfl | rfl) <;> assumption
  · rintro g (rfl | rfl) <;> assumption

theorem streamRequest_submitted {ε} (codec : Option Codec) (write : DFW → Option ε) (pooled : DFW) (id : UInt64) (r : Nat) (c : Cmd) (f : FrameFlag)
    (p : Bytes) : (streamRequest codec write pooled id r c f p).submitted = (writeFirstFrame codec write pooled id r c (FrameFlag.toStream f) p).submitted := by
  unfold streamRequest; rfl

theorem flag5_kept (f : FrameFlag) : bit (f ||| NBFlag) 5 = bit f 5 ∧ bit (FrameFlag.toStream f) 5 = bit f 5 := by
  revert f; apply forallFlag; decide +kernel

/-- **C60, sending.** Whatever flags the server code passes, a first frame that is submitted has an even id, is nonblocking
(or streamed, which implies it), and is a push exactly if the caller asked for it. -/
theorem C60_sent {ε} (codec : Option Codec) (write : DFW → Option ε) (pooled : DFW) (hd : pooled.Clean)
    (g : Nat) (r : Nat) (c : Cmd) (f : FrameFlag) (p : Bytes) (sub : DFW)
    (h : (serveRequest codec write pooled (serverRid g) r c f p).submitted = some sub ∨
         (streamRequest codec write pooled (serverRid g) r c f p).submitted = some sub) :
    (serverRid g).toNat % 2 = 0 ∧ ∃ f' p', sub.wbuf = layout (serverRid g) c f' p' ∧
      (bit f' 0 = true ∨ bit f' 3 = true) ∧ bit f' 4 = bit f 4 := by
  have he : (serverRid g).toNat % 2 = 0 := by
    have := congrArg UInt64.toNat (C20_parity 0 g).2.1
    simpa using this
  refine ⟨he, ?_⟩
  rcases h with h | h
  · unfold serveRequest at h
    obtain ⟨f', p', e1, e2, _⟩ := writeFirstFrame_layout codec write pooled hd _ _ _ _ _ sub h
    have := (serve_flags f).1 f' e2
    exact ⟨f', p', e1, .inr this.1, this.2.1⟩
  · rw [streamRequest_submitted] at h
    obtain ⟨f', p', e1, e2, _⟩ := writeFirstFrame_layout codec write pooled hd _ _ _ _ _ sub h
    have := (serve_flags f).2 f' e2
    exact ⟨f', p', e1, .inl this.1, this.2.1⟩

/-- The frames a client's reader was given, by what it did with them. -/
structure CInvF (s : CSt) : Prop where
  look : ∀ f, s.rd = .lookup f → f.push = false
  subs : ∀ f ∈ s.subs, f.push = true
  handled : ∀ f ∈ s.handled, f.push = false ∧ f.rid % 2 = 0 ∧ f.nonblock = true
  refused : ∀ f ∈ s.refused, f.push = false ∧ ¬ (f.rid % 2 = 0 ∧ f.nonblock = true)

theorem CInvF.step {c s a s'} (h : CInvF s) (hs : cStep c s a = some s') : CInvF s' := by
  obtain ⟨h1, h2, h3, h4⟩ := h
  cstep_cases hs a
  all_goals constructor
  all_goals try simp only []
  all_goals try first
    | assumption
    | grind

theorem CInvF.reach {c d acts s} (h : cRun c d acts = some s) : CInvF s :=
  runActs_inv (P := CInvF) (fun _ _ _ hi hs => hi.step hs) (by constructor <;> simp [CSt.init]) h

/-- **C60, in every execution of a client**: only pushed frames are given to the subscriber, the handler gets none of them; and a
frame because of which the connection is ended is odd or blocking, and not pushed - never one that C60_sent describes. -/
theorem C60_frames {c : CConf} {d : Bool} {acts : List CAct} {s : CSt} (hrun : cRun c d acts = some s) :
    (∀ f ∈ s.subs, f.push = true) ∧ (∀ f ∈ s.handled, f.push = false) ∧
    (∀ f ∈ s.refused, f.push = false ∧ (f.rid % 2 ≠ 0 ∨ f.nonblock = false)) := by
  have h := CInvF.reach hrun
  refine ⟨h.subs, fun f hf => (h.handled f hf).1, fun f hf => ⟨(h.refused f hf).1, ?_⟩⟩
  have := (h.refused f hf).2
  by_cases he : f.rid % 2 = 0
  · exact .inr (by simpa [he] using this)
  · exact .inl he

/-- **C60, dispatch.** In every execution: when the reader of a client with a handler looks at a nonblocking frame with a server's id, it
starts the handler for it and reads on, without touching any outstanding response - unless the connection was closed meanwhile. -/
theorem C60_dispatch {c : CConf} {d : Bool} {acts : List CAct} {s : CSt} (hrun : cRun c d acts = some s)
    {f : InFrame} (hl : s.rd = .lookup f) {g : Nat} (hid : f.rid = serverRid g) (hn : f.nonblock = true) (hc : c.handler = true)
    (hup : s.rwc = true) : ∃ s', cStep c s .rGo = some s' ∧ s'.rd = .read ∧ s'.handled = s.handled ++ [f] ∧
      s'.handlers = s.handlers + 1 ∧ s'.respes = s.respes ∧ s'.revs = s.revs ∧ s'.refused = s.refused := by
  have h := CInv.reach hrun
  have hnone : s.respes.find? (fun p => p.1 == f.rid) = none := by
    rw [List.find?_eq_none]
    intro p hp he
    obtain ⟨h1, h2, _⟩ := h.c.mem p hp
    obtain ⟨h3, h4⟩ := h.c.regdLt _ h1
    have h5 := Nat.lt_of_lt_of_le h3 h.a.deq
    have e1 : cframeOf s.frames p.2 = s.frames[p.2] := by simp [cframeOf, List.getD, List.getElem?_eq_getElem h5]
    obtain ⟨g', -, -, hr⟩ := h.i.inFrames _ (List.getElem_mem h5) (e1 ▸ h4)
    simp only [beq_iff_eq] at he
    rw [h2, e1, hr, hid] at he
    exact (C20_parity g' g).2.2 he
  have hev : f.rid % 2 = 0 := by rw [hid]; exact (C20_parity 0 g).2.1
  simp only [cStep, hl, hnone, hup, hc, hn, hev, Bool.true_eq_false, if_false, if_true, and_self]
  exact ⟨_, rfl, rfl, rfl, rfl, rfl, rfl, rfl⟩

/-- Its hypotheses: the reader has just read a request of the server (id 4 = serverRid 2, non-blocking). -/
example : (cRun ⟨2, false, 1, true⟩ true (exSwap.take 25 ++ [.rFrame ⟨4, false, false, true⟩])).map (fun s => (s.rd, s.rwc)) =
    some (.lookup ⟨4, false, false, true⟩, true) ∧ (4 : UInt64) = serverRid 2 := ⟨by rfl, by decide⟩

/-- **C60, end to end**: any request of the server without the codec bit, not pushed, read by the client in any fragmentation, is
given to the client's handler. -/
theorem C60 {ε} (codec : Option Codec) (write : DFW → Option ε) (pooled : DFW) (hd : pooled.Clean)
    (g : Nat) (r : Nat) (cmd : Cmd) (f : FrameFlag) (hf5 : bit f 5 = false) (hf4 : bit f 4 = false) (p : Bytes) (sub : DFW)
    (h : (serveRequest codec write pooled (serverRid g) r cmd f p).submitted = some sub ∨
         (streamRequest codec write pooled (serverRid g) r cmd f p).submitted = some sub)
    (cfg : FrameReaderCfg) (hsize : 12 + p.length < 2 ^ 32) (hadm : Admits cfg (12 + p.length))
    (src : Src) (rest : Bytes) (hsrc : srcBytes src = sub.wbuf ++ rest)
    {c : CConf} {d : Bool} {acts : List CAct} {s : CSt} (hrun : cRun c d acts = some s) (hrd : s.rd = .read) (hup : s.rwc = true)
    (hc : c.handler = true) :
    ∃ fr src' s', readFrame cfg src = (.ok fr, src') ∧ srcBytes src' = rest ∧ fr.payload = p ∧ fr.requestID = serverRid g ∧
      fr.cmd.toNat = cmd.toNat % 2 ^ 24 ∧
      runActs (cStep c) s [.rFrame (inFrame fr), .rGo] = some s' ∧ s'.rd = .read ∧ s'.handled = s.handled ++ [inFrame fr] := by
  have hpush : bit f 4 = false := hf4
  obtain ⟨fl, e1, e2, e3⟩ : ∃ fl, sub.wbuf = layout (serverRid g) cmd fl p ∧ (bit fl 0 = true ∨ bit fl 3 = true) ∧ bit fl 4 = false ∧ bit fl 5 = false := by
    rcases h with h | h
    · unfold serveRequest at h
      obtain ⟨f', p', e1, e2, e3⟩ := writeFirstFrame_layout codec write pooled hd _ _ _ _ _ sub h
      have h5 : bit (f ||| NBFlag) 5 = false := by rw [(flag5_kept f).1]; exact hf5
      obtain ⟨rfl, rfl⟩ := e3 h5
      have := (serve_flags f).1 _ (.inl rfl)
      exact ⟨_, e1, .inr this.1, by rw [this.2.1]; exact hf4, h5⟩
    · rw [streamRequest_submitted] at h
      obtain ⟨f', p', e1, e2, e3⟩ := writeFirstFrame_layout codec write pooled hd _ _ _ _ _ sub h
      have h5 : bit (FrameFlag.toStream f) 5 = false := by rw [(flag5_kept f).2]; exact hf5
      obtain ⟨rfl, rfl⟩ := e3 h5
      have := (serve_flags f).2 _ (.inl rfl)
      exact ⟨_, e1, .inl this.1, by rw [this.2.1]; exact hf4, h5⟩
  rw [e1] at hsrc
  obtain ⟨src', r1, r2, r3⟩ := readFrame_layout cfg src _ _ _ _ _ hsize hadm hsrc
  have hdec : decodePayload cfg fl p = .ok p := by
    have hcu : FrameFlag.isCodec fl = false := by rw [isCodec_testBit]; exact e3.2
    unfold decodePayload
    split
    · next hp => rw [hp]
    · simp [hcu]
  rw [hdec] at r3
  let fr : Frame := { requestID := serverRid g, flags := fl, cmd := UInt32.ofNat (cmd.toNat % 2 ^ 24), payload := p }
  have hpf : (inFrame fr).push = false := e3.1
  have hnb : (inFrame fr).nonblock = true := by
    show (fl.toNat.testBit 0 || fl.toNat.testBit 1 || fl.toNat.testBit 3) = true
    rcases e2 with e2 | e2
    · have : fl.toNat.testBit 0 = true := e2
      simp [this]
    · have : fl.toNat.testBit 3 = true := e2
      simp [this]
  have hs1 : cStep c s (.rFrame (inFrame fr)) = some { s with rd := .lookup (inFrame fr) } := by
    simp only [cStep, hrd, hpf, Bool.false_eq_true, if_false]
  have hrun1 : cRun c d (acts ++ [.rFrame (inFrame fr)]) = some { s with rd := .lookup (inFrame fr) } := by
    unfold cRun at hrun ⊢
    rw [runActs_append, hrun]
    simp only [Option.bind_some, runActs, hs1]
  obtain ⟨s', q1, q2, q3, _⟩ := C60_dispatch hrun1 (f := inFrame fr) rfl (g := g) rfl hnb hc hup
  refine ⟨fr, src', s', r3, r1, rfl, rfl, ?_, ?_, q2, q3⟩
  · show (UInt32.ofNat (cmd.toNat % 2 ^ 24)).toNat = _
    rw [UInt32.toNat_ofNat']; omega
  · simp only [runActs, hs1, q1]

/-- A client with a handler; a server's stream request with id 4 and a pushed frame with id 6, while request 3 is outstanding. -/
def exServe : List CAct := exSwap.take 25 ++ [.rFrame ⟨4, false, false, true⟩, .rGo, .rFrame ⟨6, true, false, true⟩]

example : (cRun ⟨2, false, 1, true⟩ true exServe).map (fun s => (s.rd, s.handled, s.subs, s.refused, s.respes)) =
    some (.read, [⟨4, false, false, true⟩], [⟨6, true, false, true⟩], [], [(3, 0), (5, 1)]) := by rfl

example : ((serveRequest none (fun _ => (none : Option Unit)) DFW.new (serverRid 2) 0 7 0 [1]).submitted.map DFW.wbuf,
    (streamRequest none (fun _ => (none : Option Unit)) DFW.new (serverRid 2) 0 7 0 [1]).submitted.map DFW.wbuf) =
    (some [0,0,0,13, 0,0,0,0,0,0,0,4, 8, 0,0,7, 1], some [0,0,0,13, 0,0,0,0,0,0,0,4, 1, 0,0,7, 1]) := by decide

/-! ## C67 Responses to server-initiated requests -/

/-- **C67.** In every execution, with any number of concurrent requests and closers: the response object of a request gets at most
one event, a frame it gets has the id of the request and is no push, and no response channel is closed twice or used after its close. -/
theorem C67 {acts : List VAct} {s : VSt} (hrun : vRun acts = some s) :
    (∀ t, (s.revs t).length ≤ 1) ∧ (∀ t f, REv.frame f ∈ s.revs t → f.rid = serverRid (t + 1) ∧ f.push = false) ∧ s.crash = false := by
  have h := VInv.reach hrun
  refine ⟨h.c.len, fun t f hf => ?_, h.c.crash⟩
  have h1 := h.c.right t f hf
  have h2 := h.c.revs t (by intro hn; rw [hn] at hf; cases hf)
  rw [← h.a.rid t (h.a.takenLt t (h.a.regd t h2))]
  exact h1

/-- **C67, distinct requests.** Before the counter wraps, two requests never get frames with the same id. -/
theorem C67_no_sharing {acts : List VAct} {s : VSt} (hrun : vRun acts = some s) (hg : s.ridGen < 2 ^ 63) {t u : Nat} {f f' : InFrame}
    (ht : REv.frame f ∈ s.revs t) (hu : REv.frame f' ∈ s.revs u) (he : f.rid = f'.rid) : t = u := by
  have h := VInv.reach hrun
  have lt : ∀ {t f}, REv.frame f ∈ s.revs t → t < s.ridGen := fun {t f} hf =>
    h.a.takenLt t (h.a.regd t (h.c.revs t (by intro hn; rw [hn] at hf; cases hf)))
  have e1 := ((C67 hrun).2.1 t f ht).1
  have e2 := ((C67 hrun).2.1 u f' hu).1
  have := lt ht
  have := lt hu
  have := C20_server_inj (g := t + 1) (g' := u + 1) (by omega) (by omega) (by rw [← e1, ← e2, he])
  omega

/-- **C67, registration.** A request that was written in a batch has its response object in the table before its first byte is sent, or was
told an error; not both. A request of a batch that finds the connection closed is told an error. -/
theorem C67_registered {acts : List VAct} {s : VSt} (hrun : vRun acts = some s) :
    (∀ t ∈ s.taken, (t ∈ s.regd ∨ t ∈ s.refused) ∧ ¬ (t ∈ s.regd ∧ t ∈ s.refused)) ∧
    (∀ ts s', s.closed = true → vStep s (.register ts) = some s' → s'.regd = s.regd ∧ ∀ t ∈ ts, t ∈ s'.refused) := by
  have h := VInv.reach hrun
  refine ⟨fun t ht => ⟨h.a.taken t ht, fun hh => (h.a.refused t hh.2).2 hh.1⟩, fun ts s' hc hs => ?_⟩
  simp only [vStep, hc, if_true] at hs
  split at hs
  · simp only [Option.some.injEq] at hs
    subst hs
    exact ⟨rfl, fun t ht => by simp [ht]⟩
  · cases hs

/-- **C67, release.** Once the connection is closed, each request that was sent has its response, or its response object is just being
handed its frame or about to be closed by the goroutine that closed the connection. -/
theorem C67_closed {acts : List VAct} {s : VSt} (hrun : vRun acts = some s) (hc : s.closed = true) :
    s.respes = [] ∧ ∀ t ∈ s.regd, (s.revs t).length = 1 ∨ (∃ f, s.rd = .deliver t f) ∨ ∃ i ts, s.cl i = .closing ts ∧ t ∈ ts := by
  have h := (VInv.reach hrun).c
  refine ⟨h.closed hc, fun t ht => ?_⟩
  rcases h.regd t ht with h1 | h1 | h1
  · rw [h.closed hc] at h1; cases h1
  · have := h.len t
    have : (s.revs t).length ≠ 0 := by simpa using h1
    exact .inl (by omega)
  · exact .inr h1

/-- **C67, nobody waits forever after a close**: the goroutines concerned can always go on, and when neither the reader nor a closer has a
step to make, every request sent has exactly one event. -/
theorem C67_released {acts : List VAct} {s : VSt} (hrun : vRun acts = some s) (hc : s.closed = true)
    (hq : vStep s .rGo = none ∧ ∀ i, vStep s (.clGo i) = none) : ∀ t ∈ s.regd, (s.revs t).length = 1 := by
  intro t ht
  rcases (C67_closed hrun hc).2 t ht with h | ⟨f, h⟩ | ⟨i, ts, h, hm⟩
  · exact h
  · have := hq.1; simp [vStep, h] at this
  · have := hq.2 i
    cases ts with
    | nil => cases hm
    | cons u us => simp [vStep, h] at this

/-- Its hypotheses: the connection is closed and neither the reader nor a closer has anything left to do. -/
example : (vRun [.request [1], .request [2], .register [1, 0], .frame ⟨4, false, false, false⟩, .rGo, .rGo, .close 0, .clGo 0, .clGo 0]).map
    (fun s => (s.closed, (vStep s .rGo).isSome, (vStep s (.clGo 0)).isSome, (vStep s (.clGo 1)).isSome, s.regd)) =
    some (true, false, false, false, [1, 0]) := by rfl

/-- The closer's work is bounded: each of its steps shortens its list. -/
theorem C67_close_ends {s s' : VSt} {i : Nat} {ts : List Nat} (h : s.cl i = .closing ts) (hs : vStep s (.clGo i) = some s') :
    (ts = [] ∧ s'.cl i = .idle) ∨ ∃ u us, ts = u :: us ∧ s'.cl i = .closing us := by
  cases ts with
  | nil => simp only [vStep, h, Option.some.injEq] at hs; subst hs; exact .inl ⟨rfl, by simp [setAt]⟩
  | cons u us => simp only [vStep, h, Option.some.injEq] at hs; subst hs; exact .inr ⟨u, us, rfl, by simp [setAt]⟩

/-- **C67, an answer reaches its caller**: as long as the connection is not closed between reading it and looking it up. -/
theorem C67_delivered {acts : List VAct} {s : VSt} (hrun : vRun acts = some s) {t : Nat} {f : InFrame} (hm : (f.rid, t) ∈ s.respes)
    (hrd : s.rd = .lookup f) (hrst : f.rst = false) : ∃ s', runActs vStep s [.rGo, .rGo] = some s' ∧ s'.revs t = [.frame f] ∧ s'.passed = s.passed := by
  have hI := (VInv.reach hrun).c
  have hf : s.respes.find? (fun p => p.1 == f.rid) = some (f.rid, t) := by
    cases hfd : s.respes.find? (fun p => p.1 == f.rid) with
    | none => rw [List.find?_eq_none] at hfd; exact absurd (by simp) (hfd _ hm)
    | some q =>
      have h1 := List.mem_of_find?_eq_some hfd
      have h2 := List.find?_some hfd
      rw [nodup_map_inj hI.fstNodup h1 hm (by simpa using h2)]
  have hr : s.revs t = [] := (hI.mem _ hm).2.2
  simp [runActs, vStep, hrd, hf, setAt, hrst, hr]

/-- Its hypotheses: the reader has read the answer to the second request. -/
example : (vRun [.request [1], .request [2], .register [1, 0], .frame ⟨4, false, false, false⟩]).map (fun s => (s.rd, s.respes)) =
    some (.lookup ⟨4, false, false, false⟩, [(4, 1), (2, 0)]) := by rfl

/-- **C67 is false of the code in one respect**: a response read while another goroutine closes the connection is not dropped but goes on
to be dispatched as a request of the client, so that a handler can be started for it (the context is cancelled only later,
serveconn.go:784-786). -/
theorem C67_refuted_dispatched : ∃ s f, vRun [.request [1], .register [0], .frame f, .close 0, .rGo] = some s ∧
    f.rid = serverRid 1 ∧ 0 ∈ s.regd ∧ s.passed = [f] :=
  ⟨_, ⟨2, false, false, false⟩, rfl, rfl, by decide, rfl⟩

/-- Two requests, answered in the opposite order and one of them by the close. -/
example : (vRun [.request [1], .request [2], .register [1, 0], .frame ⟨4, false, false, false⟩, .rGo, .rGo, .close 0, .close 1, .clGo 0, .clGo 0]).map
    (fun s => (s.revs 0, s.revs 1, s.regd, s.closed, s.crash)) =
    some ([.closed], [.frame ⟨4, false, false, false⟩], [1, 0], true, false) := by rfl

end Qrpc
