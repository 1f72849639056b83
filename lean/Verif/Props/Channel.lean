import Verif.Model.Channel
import Verif.Props.Wire
/-! # C56: channel messages -/
namespace Qrpc
open Spec

theorem chFlag_noCodec (e : Bool) : FrameFlag.isCodec (chFlag e) = false := by cases e <;> rfl
theorem chFlag_toStream (e : Bool) : FrameFlag.toStream (chFlag e) = chFlag e := by cases e <;> rfl
theorem chFlag_noPush (e : Bool) : FrameFlag.isPush (chFlag e) = false := by cases e <;> rfl

theorem sentAs_noCodec (codec : Option Codec) (f : FrameFlag) (p : Bytes) (h : FrameFlag.isCodec f = false) :
    sentAs codec f p = .ok (f, p) := by
  unfold sentAs
  split
  · next hp => rw [hp, toNonCodec_of_not _ h]
  · simp [h]

/-- A sender whose stream was opened with flags `f` and whose writer is ready for the next message. -/
def ChSender.Ready (s : ChSender) (id : UInt64) (f : FrameFlag) : Prop :=
  s.closed = false ∧ ∃ d c, s.writer = some d ∧ d.Holds id c f ∧ d.payload = []

theorem send_first {ε} (codec : Option Codec) (write : DFW → Option ε) (hw : ∀ d, write d = none) {pooled : DFW} (hp : pooled.Clean)
    (id : UInt64) (resp : Nat) (cmd : Cmd) (b : Bytes) (e : Bool) :
    ∃ s' sub, ChSender.send codec write pooled id resp { writer := none, closed := false } cmd b e = (s', some sub, false) ∧
      sub.wbuf = layout id cmd (chFlag e) b ∧ s'.Ready id (chFlag e) := by
  simp only [ChSender.send, streamRequest, writeFirstFrame, chFlag_toStream, chFlag_noPush, Bool.false_eq_true, if_false]
  have hl : 16 ≤ ({ pooled.fromPool with resp := some resp } : DFW).wbuf.length := by
    unfold DFW.Clean at hp; simp only [DFW.fromPool]; omega
  have hp0 : ({ pooled.fromPool with resp := some resp } : DFW).payload = [] := hp.payload_nil
  obtain ⟨h1, h2⟩ := (DFW.startWrite_holds _ id cmd (chFlag e) hl).writeBytes b
  rw [DFW.startWrite_payload _ _ _ _ hl, hp0, List.nil_append] at h2
  obtain ⟨sub, e1, e2, _, _, e3, e4, e5⟩ := endWrite_ok h1 codec write (sentAs_noCodec codec _ _ (chFlag_noCodec e))
  rw [hw] at e3
  rw [h2] at e2
  generalize DFW.endWrite codec write _ = r at e1 e3 e4 e5 ⊢
  obtain ⟨rd, rs, re⟩ := r
  simp only at e1 e3 e4 e5
  subst e1 e3
  exact ⟨_, sub, rfl, e2, rfl, _, cmd, rfl, e4, e5⟩

theorem send_next {ε} (codec : Option Codec) (write : DFW → Option ε) (hw : ∀ d, write d = none) (pooled : DFW)
    (id : UInt64) (resp : Nat) {s : ChSender} {f : FrameFlag} (hf : FrameFlag.isCodec f = false) (hs : s.Ready id f) (cmd : Cmd) (b : Bytes) (e : Bool) :
    ∃ s' sub, s.send codec write pooled id resp cmd b e = (s', some sub, false) ∧ sub.wbuf = layout id cmd f b ∧ s'.Ready id f := by
  obtain ⟨hc, d, c, hd, hh, hp⟩ := hs
  simp only [ChSender.send, hc, hd, swStep, DFW.streamEndWrite, Bool.false_eq_true, if_false]
  obtain ⟨h1, h1'⟩ := hh.setCmd cmd
  obtain ⟨h2, h3⟩ := h1.writeBytes b
  rw [h1', hp, List.nil_append] at h3
  obtain ⟨sub, e1, e2, _, _, e3, e4, e5⟩ := endWrite_ok h2 codec write (sentAs_noCodec codec _ _ hf)
  rw [hw] at e3
  rw [h3] at e2
  generalize DFW.endWrite codec write _ = r at e1 e3 e4 e5 ⊢
  obtain ⟨rd, rs, re⟩ := r
  simp only at e1 e3 e4 e5
  subst e1 e3
  exact ⟨_, sub, rfl, e2, rfl, _, cmd, rfl, e4, e5⟩

theorem sends_next {ε} (codec : Option Codec) (write : DFW → Option ε) (hw : ∀ d, write d = none) (pooled : DFW)
    (id : UInt64) (resp : Nat) (f : FrameFlag) (hf : FrameFlag.isCodec f = false) (ms : List (Cmd × Bytes × Bool)) : ∀ s : ChSender, s.Ready id f →
    (s.sends codec write pooled id resp ms).map (fun r => (r.1.map (·.wbuf), r.2)) = ms.map (fun m => (some (layout id m.1 f m.2.1), false)) := by
  induction ms with
  | nil => intro s _; rfl
  | cons m ms ih =>
    intro s hs
    obtain ⟨s', sub, h1, h2, h3⟩ := send_next codec write hw pooled id resp hf hs m.1 m.2.1 m.2.2
    simp only [ChSender.sends, h1, List.map_cons, Option.map_some, h2, ih s' h3]

/-- **C56, client Sends.** On a connection that accepts every write, successive Sends return nil and submit one frame each, in
order, on one stream, with the message's command and bytes. (Flags: those of the first Send, see `C56_refuted_end`.) -/
theorem C56_client_send_partial {ε} (codec : Option Codec) (write : DFW → Option ε) (hw : ∀ d, write d = none) (pooled : DFW) (hp : pooled.Clean)
    (id : UInt64) (resp : Nat) (m : Cmd × Bytes × Bool) (ms : List (Cmd × Bytes × Bool)) :
    (ChSender.sends codec write pooled id resp { writer := none, closed := false } (m :: ms)).map (fun r => (r.1.map (·.wbuf), r.2)) =
      (m :: ms).map (fun x => (some (layout id x.1 (chFlag m.2.2) x.2.1), false)) := by
  obtain ⟨s', sub, h1, h2, h3⟩ := send_first codec write hw hp id resp m.1 m.2.1 m.2.2
  simp only [ChSender.sends, h1, List.map_cons, Option.map_some, h2]
  rw [sends_next codec write hw pooled id resp _ (chFlag_noCodec _) ms s' h3]

/-- **C56 is false of the client's Send**: `end` is ignored except on the first message. A later message sent with end = true gives
exactly the frame it gives with end = false, and that frame has no end flag unless the first one had. -/
theorem C56_refuted_end {ε} (codec : Option Codec) (write : DFW → Option ε) (hw : ∀ d, write d = none) (pooled : DFW) (hp : pooled.Clean)
    (id : UInt64) (resp : Nat) (c0 c : Cmd) (b0 b : Bytes) :
    ∃ r0 sub, ChSender.sends codec write pooled id resp { writer := none, closed := false } [(c0, b0, false), (c, b, true)] = [r0, (some sub, false)] ∧
      sub.wbuf = layout id c StreamFlag b := by
  have h := C56_client_send_partial codec write hw pooled hp id resp (c0, b0, false) [(c, b, true)]
  generalize ChSender.sends codec write pooled id resp { writer := none, closed := false } [(c0, b0, false), (c, b, true)] = l at h
  match l, h with
  | [r0, (some sub, e)], h =>
    simp only [List.map_cons, List.map_nil, Option.map_some, List.cons.injEq, Prod.mk.injEq, Option.some.injEq, and_true] at h
    exact ⟨r0, sub, by rw [h.2.2], h.2.1⟩
  | [r0, (none, e)], h => simp at h
  | [], h => simp at h
  | [r0], h => simp at h
  | r0 :: r1 :: r2 :: l, h => simp at h

/-- The client's End sends a reset, not an end. -/
theorem C56_refuted_end_resets {ε} (codec : Option Codec) (write : DFW → Option ε) (hw : ∀ d, write d = none) {s : ChSender} {id : UInt64} {f : FrameFlag}
    (hs : s.Ready id f) : ∃ s' sub, s.stop codec write = (s', some sub, false) ∧ sub.wbuf = layout id 0 StreamRstFlag [] ∧ s'.closed = true := by
  obtain ⟨hc, d, c, hd, hh, hp⟩ := hs
  simp only [ChSender.stop, hc, hd, DFW.streamResetFrame, DFW.resetFrame, Bool.false_eq_true, if_false]
  have h1 := DFW.startWrite_holds d d.requestID 0 StreamRstFlag hh.len
  have h2 := DFW.startWrite_payload d d.requestID 0 StreamRstFlag hh.len
  rw [hp] at h2
  obtain ⟨sub, e1, e2, _, _, e3, e4, e5⟩ := endWrite_ok h1 codec write (sentAs_noCodec codec _ _ rfl)
  rw [hw] at e3
  rw [h2, hh.requestID_eq] at e2
  generalize DFW.endWrite codec write _ = r at e1 e3 e4 e5 ⊢
  obtain ⟨rd, rs, re⟩ := r
  simp only at e1 e3
  subst e1 e3
  exact ⟨_, sub, rfl, e2, rfl⟩

/-- After End, Send is refused and sends nothing; a second End is refused. -/
theorem C56_after_end {ε} (codec : Option Codec) (write : DFW → Option ε) (s : ChSender) (pooled : DFW) (id : UInt64) (resp : Nat) (cmd : Cmd) (b : Bytes) (e : Bool) :
    let s' := (s.stop codec write).1
    s'.closed = true ∧ s'.send codec write pooled id resp cmd b e = (s', none, true) ∧ s'.stop codec write = (s', none, true) := by
  have hc : (s.stop codec write).1.closed = true := by
    unfold ChSender.stop
    split
    · next h => exact h
    · split <;> rfl
  refine ⟨hc, by simp [ChSender.send, hc], ?_⟩
  generalize (s.stop codec write).1 = s' at hc ⊢
  simp [ChSender.stop, hc]

/-- **C56, server Sends.** Successive Sends of the server side submit one frame each, in order, with the message's command, bytes
and end flag. -/
theorem C56_server_send {ε} (codec : Option Codec) (write : DFW → Option ε) (hw : ∀ d, write d = none) (id : UInt64) (ms : List (Cmd × Bytes × Bool)) :
    ∀ w : DFW, w.Clean → (chServeSends codec write id w ms).map (fun r => (r.1.map (·.wbuf), r.2)) =
      ms.map (fun m => (some (layout id m.1 (if m.2.2 then 3 else 1) m.2.1), false)) := by
  induction ms with
  | nil => intro w _; rfl
  | cons m ms ih =>
    intro w hw'
    have hl : 16 ≤ w.wbuf.length := by unfold DFW.Clean at hw'; omega
    obtain ⟨h1, h2⟩ := (DFW.startWrite_holds w id m.1 (chFlag m.2.2) hl).writeBytes m.2.1
    rw [DFW.startWrite_payload w _ _ _ hl, hw'.payload_nil, List.nil_append] at h2
    obtain ⟨sub, e1, e2, _, _, e3, e4, e5⟩ := endWrite_ok h1 codec write (sentAs_noCodec codec _ _ (chFlag_noCodec _))
    rw [hw] at e3
    rw [h2] at e2
    simp only [chServeSends, chServeSend, List.map_cons, e1, e3, Option.map_some, Option.map_none, Option.isSome_none, e2]
    rw [ih _ (Holds_clean e4 e5)]
    simp only [chFlag]; cases m.2.2 <;> rfl

/-! ### Receiving -/

/-- The message a frame carries, for a caller who gave a place for the command. -/
def Spec.chReceived {M : Type} (dec : Bytes → Option M) (f : Frame) : ChRecv M :=
  { cmd := some f.cmd, msg := dec f.payload, err := if (dec f.payload).isSome then none else some .decode }

theorem serveReceives_rest {M : Type} (dec : Bytes → Option M) (fs : List Frame) (k : Nat) :
    serveReceives dec none (fs.map .frame) (List.replicate (fs.length + k) true) =
      fs.map (chReceived dec) ++ List.replicate k { cmd := none, msg := none, err := some .finished } := by
  induction fs with
  | nil =>
    simp only [List.length_nil, Nat.zero_add, List.map_nil, List.nil_append]
    induction k with
    | zero => rfl
    | succ k ih => rw [List.replicate_succ, serveReceives, ih, List.replicate_succ]; rfl
  | cons f fs ih =>
    rw [List.length_cons, show fs.length + 1 + k = fs.length + k + 1 by omega, List.replicate_succ, List.map_cons, serveReceives, ih]
    simp only [List.map_cons, List.cons_append, List.cons.injEq, and_true, serveReceive, chReceived, if_true]
    cases dec f.payload <;> rfl

/-- **C56, server Receive.** If every call asks for the command: the calls return the request frame and then the frames of the stream,
in order, decoded; then ErrStreamFinished. -/
theorem C56_server_receive_partial {M : Type} (dec : Bytes → Option M) (f : Frame) (fs : List Frame) (k : Nat) :
    serveReceives dec (some f) (fs.map .frame) (List.replicate (fs.length + 1 + k) true) =
      (f :: fs).map (chReceived dec) ++ List.replicate k { cmd := none, msg := none, err := some .finished } := by
  rw [show fs.length + 1 + k = fs.length + k + 1 by omega, List.replicate_succ, serveReceives, serveReceives_rest]
  simp only [List.map_cons, List.cons_append, List.cons.injEq, and_true, serveReceive, chReceived, if_true]
  cases dec f.payload <;> rfl

/-- **C56 is false of the server's Receive**: without a place for the command the message is consumed, not decoded, and no error
is reported - whatever the decoder and the frame. -/
theorem C56_refuted_receive {M : Type} (dec : Bytes → Option M) (f : Frame) (g : ChGet) :
    serveReceive dec (some f) g false = { cmd := none, msg := none, err := none } := rfl

theorem clientReceives_spec {M : Type} (dec : Bytes → Option M) (fs : List Frame) (k : Nat) : ∀ first, (fs ≠ [] ∨ first = true) →
    clientReceives dec first (fs.map .frame) (List.replicate (fs.length + k) true) =
      fs.map (chReceived dec) ++ List.replicate k { cmd := none, msg := none, err := some .finished } := by
  induction fs with
  | nil =>
    intro first hf
    have hf' : first = true := by simpa using hf
    subst hf'
    simp only [List.length_nil, Nat.zero_add, List.map_nil, List.nil_append]
    induction k with
    | zero => rfl
    | succ k ih => rw [List.replicate_succ, clientReceives, ih, List.replicate_succ]; rfl
  | cons f fs ih =>
    intro first _
    rw [List.length_cons, show fs.length + 1 + k = fs.length + k + 1 by omega, List.replicate_succ, List.map_cons, clientReceives]
    simp only [clientReceive, Bool.true_eq_false, if_false, List.map_cons, List.cons_append, chReceived]
    cases hd : dec f.payload <;> simp only [if_true] <;> rw [ih true (.inr rfl)] <;> rfl

/-- **C56, client Receive.** After a Send, the calls return the frames of the response stream, in order, decoded; then
ErrStreamFinished. -/
theorem C56_client_receive {M : Type} (dec : Bytes → Option M) (fs : List Frame) (hne : fs ≠ []) (k : Nat) :
    clientReceives dec false (fs.map .frame) (List.replicate (fs.length + k) true) =
      fs.map (chReceived dec) ++ List.replicate k { cmd := none, msg := none, err := some .finished } :=
  clientReceives_spec dec fs k false (.inl hne)

/-- The client decodes whether or not the command is asked for. -/
theorem C56_client_decodes {M : Type} (dec : Bytes → Option M) (first askCmd : Bool) (f : Frame) (m : M) (hd : dec f.payload = some m) :
    (clientReceive dec true first (.frame f) askCmd).2 = { cmd := if askCmd then some f.cmd else none, msg := some m, err := none } := by
  simp [clientReceive, hd]

/-- **C56, end to end, client to server.** Messages whose encoding round-trips, sent by a client on an accepting connection, read from
the wire in any fragmentation and received by the server's receiver (the frames on one stream arrive in order: C11, C12): the server gets
exactly the messages and (24-bit) commands sent, in order. -/
theorem C56_end_to_end_partial {ε M : Type} (enc : M → Option Bytes) (dec : Bytes → Option M) (hrt : ∀ m b, enc m = some b → dec b = some m)
    (codec : Option Codec) (write : DFW → Option ε) (hw : ∀ d, write d = none) (pooled : DFW) (hp : pooled.Clean) (id : UInt64) (resp : Nat)
    (msgs : List (Cmd × M × Bytes × Bool)) (henc : ∀ x ∈ msgs, enc x.2.1 = some x.2.2.1) (hne : msgs ≠ [])
    (hcmd : ∀ x ∈ msgs, x.1.toNat < 2 ^ 24) (cfg : FrameReaderCfg) (hsz : ∀ x ∈ msgs, 12 + x.2.2.1.length < 2 ^ 32 ∧ Admits cfg (12 + x.2.2.1.length))
    (s : Src) (rest : Bytes)
    (hs : srcBytes s = ((ChSender.sends codec write pooled id resp { writer := none, closed := false } (msgs.map (fun x => (x.1, x.2.2.1, x.2.2.2)))).filterMap
      (fun r => r.1.map (·.wbuf))).flatten ++ rest) :
    ∃ f fs s', readN cfg msgs.length s = (.ok (f :: fs), s') ∧ srcBytes s' = rest ∧
      serveReceives dec (some f) (fs.map .frame) (List.replicate msgs.length true) = msgs.map (fun x => { cmd := some x.1, msg := some x.2.1, err := none }) := by
  obtain ⟨m, ms, rfl⟩ : ∃ m ms, msgs = m :: ms := by
    cases msgs with
    | nil => exact absurd rfl hne
    | cons m ms => exact ⟨m, ms, rfl⟩
  let us : List UFrame := (m :: ms).map (fun x => { id := id, cmd := x.1, flags := chFlag m.2.2.2, chunks := [x.2.2.1] })
  have hpl : ∀ x : Cmd × M × Bytes × Bool, UFrame.payload { id := id, cmd := x.1, flags := chFlag m.2.2.2, chunks := [x.2.2.1] } = x.2.2.1 := by
    intro x; simp [UFrame.payload]
  have hc : ∀ u ∈ us, u.wantsCodec = false := by
    intro u hu
    obtain ⟨x, _, rfl⟩ := List.mem_map.mp hu
    simp only [UFrame.wantsCodec]
    cases m.2.2.2 <;> rfl
  have hbytes : ((ChSender.sends codec write pooled id resp { writer := none, closed := false } ((m :: ms).map (fun x => (x.1, x.2.2.1, x.2.2.2)))).filterMap
      (fun r => r.1.map (·.wbuf))).flatten = (writeUFrames none DFW.new us).1 := by
    rw [writeUFrames_layout none us hc DFW.new new_clean]
    have h := C56_client_send_partial codec write hw pooled hp id resp (m.1, m.2.2.1, m.2.2.2) (ms.map (fun x => (x.1, x.2.2.1, x.2.2.2)))
    have h' := congrArg (List.filterMap Prod.fst) h
    rw [List.filterMap_map] at h'
    simp only
    congr 1
    refine Eq.trans ?_ (h'.trans ?_)
    · rfl
    · rw [← List.map_cons (f := fun x : Cmd × M × Bytes × Bool => (x.1, x.2.2.1, x.2.2.2)), List.map_map, List.filterMap_map, List.map_map]
      exact List.filterMap_eq_map'.symm ▸ List.map_congr_left (fun x _ => by simp [hpl])
  rw [hbytes] at hs
  obtain ⟨_, s', h1, h2, _⟩ := C01_round_trip none cfg DFW.new new_clean us hc
    (by intro u hu; obtain ⟨x, hx, rfl⟩ := List.mem_map.mp hu; rw [hpl]; exact (hsz x hx).1)
    (by intro u hu; obtain ⟨x, hx, rfl⟩ := List.mem_map.mp hu; rw [hpl]; exact (hsz x hx).2) s rest hs
  have hlen : us.length = (m :: ms).length := by simp [us]
  rw [hlen] at h1
  refine ⟨_, _, s', h1, h2, ?_⟩
  have hr := C56_server_receive_partial dec (UFrame.expected { id := id, cmd := m.1, flags := chFlag m.2.2.2, chunks := [m.2.2.1] })
    ((ms.map (fun x => ({ id := id, cmd := x.1, flags := chFlag m.2.2.2, chunks := [x.2.2.1] } : UFrame))).map UFrame.expected) 0
  simp only [List.length_map, Nat.add_zero, List.replicate_zero, List.append_nil] at hr
  refine hr.trans ?_
  have hone : ∀ x ∈ m :: ms, chReceived dec (UFrame.expected { id := id, cmd := x.1, flags := chFlag m.2.2.2, chunks := [x.2.2.1] }) =
      { cmd := some x.1, msg := some x.2.1, err := none } := by
    intro x hx
    have hd := hrt _ _ (henc x hx)
    have hcx := hcmd x hx
    simp only [chReceived, UFrame.expected, hpl, hd, Option.isSome_some, if_true]
    rw [Nat.mod_eq_of_lt hcx, UInt32.ofNat_toNat]
  rw [← List.map_cons (f := UFrame.expected), List.map_map,
    ← List.map_cons (f := fun x : Cmd × M × Bytes × Bool => ({ id := id, cmd := x.1, flags := chFlag m.2.2.2, chunks := [x.2.2.1] } : UFrame)), List.map_map]
  exact List.map_congr_left hone

/-- Three messages on one stream, the last one meant to end it: its flags are those of the first. -/
example : (ChSender.sends none (fun _ => (none : Option Unit)) DFW.new 5 0 { writer := none, closed := false }
      [(1, [0x37], false), (2, [], false), (3, [0x38, 0x39], true)]).map (fun r => r.1.map (·.wbuf)) =
    [some (layout 5 1 1 [0x37]), some (layout 5 2 1 []), some (layout 5 3 1 [0x38, 0x39])] := by decide

/-- A round-tripping encoding: numbers as single bytes. -/
example : serveReceives (fun b => b.head?) (some ⟨5, 1, 9, [0x37]⟩) [.frame ⟨5, 3, 8, [0x38]⟩] [true, false, true] =
    [{ cmd := some 9, msg := some 0x37, err := none }, { cmd := none, msg := none, err := none }, { cmd := none, msg := none, err := some .finished }] := by
  decide

/-- The hypotheses of C56_end_to_end_partial hold: two messages, the bytes arriving one frame and a half at a time. -/
example : ∃ f fs s', readN ⟨64, none⟩ 2
      ⟨[], [.data ((layout 5 9 1 [0x37] ++ layout 5 0x10008 1 [0x38]).take 25),
        .data ((layout 5 9 1 [0x37] ++ layout 5 0x10008 1 [0x38]).drop 25)]⟩ = (.ok (f :: fs), s') ∧
    srcBytes s' = [] ∧ serveReceives (fun b => b.head?) (some f) (fs.map .frame) [true, true] =
      [{ cmd := some 9, msg := some 0x37, err := none }, { cmd := some 0x10008, msg := some 0x38, err := none }] :=
  C56_end_to_end_partial (ε := Unit) (fun m => some [m]) (fun b => b.head?) (by intro m b h; cases h; rfl) none (fun _ => none) (fun _ => rfl) DFW.new
    rfl 5 0 [(9, 0x37, [0x37], false), (0x10008, 0x38, [0x38], true)] (by decide) (by decide) (by decide) ⟨64, none⟩
    (by simp [Admits]) _ [] (by decide)

/-! ### Overlapping first Sends -/

/-- **C56 is false for two first Sends at once**: both find no stream and open one; the messages of one Sender travel on two streams, and the
first stream's writer is forgotten. -/
theorem C56_refuted_concurrent : ∃ s, runActs chStep ChSt.init [.check 0, .check 1, .request 0 1, .request 1 3] = some s ∧
    s.frames = [(0, 1), (1, 3)] ∧ s.writer = some 3 := ⟨_, rfl, rfl, rfl⟩

end Qrpc
