import Verif.Model.WsReader
import Verif.Model.WriteBuf
import Verif.Props.WsConn
import Verif.Props.Rpc
/-! # Property C111: frames over the WebSocket overlay

The reader of frames over the overlay's own connection: it returns what it would return over a plain connection with the same bytes,
so that everything proved of frames, streams and calls holds over the overlay. -/
namespace Qrpc
open Spec

def WsSrc.toSrc (s : WsSrc) : Src := ⟨s.buf, s.conn.segs⟩

/-- Same result, and same state if there is no error. -/
def SameRead {ε α} (r : Except ε α × Src) (w : Except ε α × WsSrc) : Prop := r.1 = w.1 ∧ ∀ a, w.1 = .ok a → r.2 = w.2.toSrc

theorem bufioReadW_same (n : Nat) (s : WsSrc) : SameRead (bufioRead n s.toSrc) (bufioReadW n s) := by
  unfold bufioRead bufioReadW
  by_cases hb : s.buf = []
  · simp only [WsSrc.toSrc, hb, if_true]
    split
    · have h := C55_refines s.conn n
      rcases hc : connRead n s.conn.segs with ⟨r1, c1⟩
      rcases hw : s.conn.read n with ⟨r2, c2⟩
      rw [hc, hw] at h
      simp only at h
      obtain ⟨rfl, h2⟩ := h
      cases r1 with
      | error e => exact ⟨rfl, by simp⟩
      | ok b => refine ⟨rfl, fun _ _ => ?_⟩; simp only [h2 b rfl]; rfl
    · have h := C55_refines s.conn readBufSize
      rcases hc : connRead readBufSize s.conn.segs with ⟨r1, c1⟩
      rcases hw : s.conn.read readBufSize with ⟨r2, c2⟩
      rw [hc, hw] at h
      simp only at h
      obtain ⟨rfl, h2⟩ := h
      cases r1 with
      | error e => exact ⟨rfl, by simp⟩
      | ok b => refine ⟨rfl, fun _ _ => ?_⟩; simp only [h2 b rfl]; rfl
  · simp only [WsSrc.toSrc, hb, if_false]
    exact ⟨rfl, fun _ _ => rfl⟩

theorem bufioReadW_pos {n : Nat} {s s' : WsSrc} {b : Bytes} (h : bufioReadW (n + 1) s = (.ok b, s')) : b ≠ [] := by
  have hread : ∀ (m : Nat) (b : Bytes) (c : WsConn), 0 < m → s.conn.read m = (.ok b, c) → b ≠ [] := by
    intro m b c hm hr
    rcases C55_read s.conn m with ⟨b', h1, -, -, -, h2, -, -⟩ | ⟨h1, -, -⟩
    · rw [hr] at h1; cases h1; exact h2 hm
    · rw [hr] at h1; cases h1
  unfold bufioReadW at h
  split at h
  · split at h
    · rcases hr : s.conn.read (n + 1) with ⟨_ | d, c⟩ <;> rw [hr] at h <;> cases h
      exact hread _ _ _ (by omega) hr
    · rcases hr : s.conn.read readBufSize with ⟨_ | d, c⟩ <;> rw [hr] at h <;> cases h
      have := hread _ _ _ (by decide) hr
      intro h0
      rw [List.take_eq_nil_iff] at h0
      rcases h0 with h0 | h0
      · omega
      · exact this h0
  · next hb =>
    cases h
    intro h0
    rw [List.take_eq_nil_iff] at h0
    rcases h0 with h0 | h0
    · omega
    · exact hb h0

theorem readFullW_same : ∀ (fuel n : Nat) (s : WsSrc) (got : Bytes), n ≤ fuel →
    SameRead (readFullAux n s.toSrc got) (readFullW fuel n s got) := by
  intro fuel
  induction fuel with
  | zero =>
    intro n s got hn
    obtain rfl : n = 0 := by omega
    rw [readFullAux.eq_def, readFullW.eq_def]
    exact ⟨rfl, fun _ _ => rfl⟩
  | succ fuel ih =>
    intro n s got hn
    cases n with
    | zero =>
      rw [readFullAux.eq_def, readFullW.eq_def]
      exact ⟨rfl, fun _ _ => rfl⟩
    | succ n =>
      have h := bufioReadW_same (n + 1) s
      rw [readFullAux.eq_def, readFullW]
      simp only
      rcases hc : bufioRead (n + 1) s.toSrc with ⟨r1, s1⟩
      rcases hw : bufioReadW (n + 1) s with ⟨r2, s2⟩
      rw [hc, hw] at h
      obtain ⟨h1, h2⟩ := h
      simp only at h1 h2
      subst h1
      cases r1 with
      | error e =>
        cases e <;> exact ⟨rfl, by simp⟩
      | ok b =>
        have hb := bufioReadW_pos hw
        have : 0 < b.length := List.length_pos_iff.2 hb
        simp only [h2 b rfl]
        exact ih _ s2 _ (by omega)

theorem readBytesW_same (n : Nat) (s : WsSrc) : SameRead (readBytes n s.toSrc) (readBytesW n s) :=
  readFullW_same n n s [] (Nat.le_refl _)

theorem readFrameW_same (cfg : FrameReaderCfg) (s : WsSrc) : SameRead (readFrame cfg s.toSrc) (readFrameW cfg s) := by
  unfold readFrame readFrameW
  have h := readBytesW_same 16 s
  rcases hc : readBytes 16 s.toSrc with ⟨r1, s1⟩
  rcases hw : readBytesW 16 s with ⟨r2, s2⟩
  rw [hc, hw] at h
  obtain ⟨h1, h2⟩ := h
  simp only at h1 h2
  subst h1
  cases r1 with
  | error e => exact ⟨rfl, by simp⟩
  | ok header =>
    have h2 := h2 header rfl
    subst h2
    simp only
    cases hz : checkSize cfg (parseHeader header).size with
    | error e => exact ⟨rfl, by simp⟩
    | ok n =>
      cases n with
      | zero => exact ⟨rfl, fun _ _ => rfl⟩
      | succ n =>
        simp only
        have h := readBytesW_same (n + 1) s2
        rcases hc : readBytes (n + 1) s2.toSrc with ⟨r3, s3⟩
        rcases hw : readBytesW (n + 1) s2 with ⟨r4, s4⟩
        rw [hc, hw] at h
        obtain ⟨h1, h3⟩ := h
        simp only at h1 h3
        subst h1
        cases r3 with
        | error e => exact ⟨rfl, by simp⟩
        | ok p =>
          have h3 := h3 p rfl
          subst h3
          simp only
          split
          · cases cfg.codec with
            | none => exact ⟨rfl, by simp⟩
            | some c =>
              simp only
              cases c.decode p with
              | none => exact ⟨rfl, by simp⟩
              | some q => exact ⟨rfl, fun _ _ => rfl⟩
          · exact ⟨rfl, fun _ _ => rfl⟩

/-- **C111, refinement.** Any number of frames read over the overlay: the result, frames or error, is that of the reader over a plain
connection with the messages as pieces. -/
theorem C111_same (cfg : FrameReaderCfg) (n : Nat) (s : WsSrc) : SameRead (readN cfg n s.toSrc) (readNW cfg n s) := by
  induction n generalizing s with
  | zero => exact ⟨rfl, fun _ _ => rfl⟩
  | succ n ih =>
    have h := readFrameW_same cfg s
    simp only [readN, readNW]
    rcases hc : readFrame cfg s.toSrc with ⟨r1, s1⟩
    rcases hw : readFrameW cfg s with ⟨r2, s2⟩
    rw [hc, hw] at h
    obtain ⟨h1, h2⟩ := h
    simp only at h1 h2
    subst h1
    cases r1 with
    | error e => exact ⟨rfl, by simp⟩
    | ok f =>
      have h2 := h2 f rfl
      subst h2
      simp only
      have h := ih s2
      rcases hc : readN cfg n s2.toSrc with ⟨r3, s3⟩
      rcases hw : readNW cfg n s2 with ⟨r4, s4⟩
      rw [hc, hw] at h
      obtain ⟨h1, h3⟩ := h
      simp only at h1 h3
      subst h1
      cases r3 with
      | error e => exact ⟨rfl, by simp⟩
      | ok fs => exact ⟨rfl, fun _ _ => h3 fs rfl⟩

theorem segBytes_wsSegs (l : List WsIn) : segBytes (wsSegs l) = wsStream l := by
  induction l with
  | nil => rfl
  | cons x l ih =>
    cases x with
    | err e => rfl
    | msg ty b ce =>
      cases ty with
      | binary =>
        simp only [wsSegs, wsStream]
        split
        · next hb => rw [hb]; exact ih
        · simp [segBytes, ih]
      | text => cases ce <;> simp [wsSegs, wsStream, segBytes, ih]
      | close => cases ce <;> simp [wsSegs, wsStream, segBytes, ih]
      | ping => cases ce <;> simp [wsSegs, wsStream, segBytes, ih]
      | pong => cases ce <;> simp [wsSegs, wsStream, segBytes, ih]

/-- The bytes to be read are those of the binary messages to come. -/
theorem srcBytes_toSrc (l : List WsIn) : srcBytes (WsSrc.toSrc ⟨[], ⟨[], l⟩⟩) = wsStream l := by
  simp [WsSrc.toSrc, srcBytes, WsConn.segs, segBytes_wsSegs]

/-- **C111.** Over the overlay, whatever the messages into which the bytes were cut, and whatever messages of other kinds or empty ones
come in between: if what arrives is a beginning of the frames `bs`, then the frames read are the first ones of these, unchanged and in
order, and every frame that has arrived completely is read. -/
theorem C111 (cfg : FrameReaderCfg) (l : List WsIn) {bs : List Bytes} {fs : List Frame} (hf : EncodesAll cfg bs fs) (n : Nat) :
    (∀ got, wsStream l <+: bs.flatten → (readNW cfg n ⟨[], ⟨[], l⟩⟩).1 = .ok got → n ≤ fs.length ∧ got = fs.take n) ∧
    ((bs.take n).flatten <+: wsStream l → n ≤ bs.length → (readNW cfg n ⟨[], ⟨[], l⟩⟩).1 = .ok (fs.take n)) := by
  have h := (C111_same cfg n ⟨[], ⟨[], l⟩⟩).1
  constructor
  · intro got hp hr
    rw [← h] at hr
    exact readN_sound cfg n bs fs _ got hf (by rw [srcBytes_toSrc]; exact hp) hr
  · intro hp hn
    rw [← h]
    exact readN_complete cfg n bs fs _ hf (by rw [srcBytes_toSrc]; exact hp) hn

/-- A server connection over the overlay: as `Serves`, but the bytes come as the messages `l`. -/
def Spec.ServesWs (cfg : FrameReaderCfg) (wire : Bytes) (served : List Frame) : Prop :=
  ∃ (l : List WsIn) (n : Nat) (got : List Frame) (sacts : List SAct) (t : SSt) (rc : RConf) (t0 : Nat) (racts : List RAct) (u : RSt),
    wsStream l <+: wire ∧ (readNW cfg n ⟨[], ⟨[], l⟩⟩).1 = .ok got ∧ sRun SSt.init sacts = some t ∧ t.recv = got ∧
    rdRun rc t0 racts = some u ∧ u.arr.map Prod.fst <+: (returned t.log).map Frame.toR ∧
    served = (u.log.filterMap startOf).filterMap fun k => (returned t.log)[k]?

/-- The client's end over the overlay. -/
def Spec.ArrivesWs (cfg : FrameReaderCfg) (wire : Bytes) (got ret : List Frame) : Prop :=
  ∃ (l : List WsIn) (n : Nat) (sacts : List SAct) (t : SSt),
    wsStream l <+: wire ∧ (readNW cfg n ⟨[], ⟨[], l⟩⟩).1 = .ok got ∧ sRun SSt.init sacts = some t ∧ t.recv = got ∧ ret = returned t.log

/-- **C111, whole connections.** Everything proved for connections whose ends satisfy `Serves` and `Arrives` (C84, C86, C92, C107, C109,
C110) holds for connections over the overlay. -/
theorem C111_serves {cfg : FrameReaderCfg} {wire : Bytes} {served : List Frame} (h : ServesWs cfg wire served) : Serves cfg wire served := by
  obtain ⟨l, n, got, sacts, t, rc, t0, racts, u, h1, h2, h3⟩ := h
  exact ⟨WsSrc.toSrc ⟨[], ⟨[], l⟩⟩, n, got, sacts, t, rc, t0, racts, u, by rw [srcBytes_toSrc]; exact h1,
    by rw [(C111_same cfg n _).1]; exact h2, h3⟩

theorem C111_arrives {cfg : FrameReaderCfg} {wire : Bytes} {got ret : List Frame} (h : ArrivesWs cfg wire got ret) :
    Arrives cfg wire got ret := by
  obtain ⟨l, n, sacts, t, h1, h2, h3⟩ := h
  exact ⟨WsSrc.toSrc ⟨[], ⟨[], l⟩⟩, n, sacts, t, by rw [srcBytes_toSrc]; exact h1,
    by rw [(C111_same cfg n _).1]; exact h2, h3⟩

/-- How the overlay answers the Writes of a batch: one message each, sent or not sent; the length is reported either way (conn.go:66-68);
an error of gorilla/websocket is no `*net.OpError` with `Timeout()` (`hideTempErr`). -/
inductive Spec.WsAnswers : List Bytes → List WOut → Prop where
  | nil (os) : WsAnswers [] os
  | sent {b bs os} : WsAnswers bs os → WsAnswers (b :: bs) (⟨b.length, none, b.length⟩ :: os)
  | failed {b bs os} (code : Nat) : WsAnswers (b :: bs) (⟨b.length, some (.other code), 0⟩ :: os)

theorem writeEach_ws {bufs : List Bytes} {os : List WOut} (h : WsAnswers bufs os) :
    ((writeEach bufs os).2.1 = none ∧ (writeEach bufs os).1 = totalLen bufs ∧ (writeEach bufs os).2.2 = bufs.flatten) ∨
    ∃ k code, k < bufs.length ∧ (writeEach bufs os).2.1 = some (.other code) ∧ (writeEach bufs os).2.2 = (bufs.take k).flatten := by
  induction h with
  | nil os => exact .inl ⟨rfl, rfl, rfl⟩
  | @sent b bs os _ ih =>
    rcases ih with ⟨h1, h2, h3⟩ | ⟨k, code, h1, h2, h3⟩
    · exact .inl ⟨by simp [writeEach, h1], by simp [writeEach, h2, totalLen], by simp [writeEach, h3]⟩
    · exact .inr ⟨k + 1, code, by simp; omega, by simp [writeEach, h2], by simp [writeEach, h3]⟩
  | @failed b bs os code => exact .inr ⟨0, code, by simp, by simp [writeEach], by simp [writeEach]⟩

/-- **C111, sending.** Over the overlay a batch is transmitted up to some frame, each as one message, none of them in part, and all of
them if `writeBuffers` returns no error. (That it tells which ones is C22, and false here: C22_refuted_websocket.) -/
theorem C111_sent (timed : Bool) (bufs : List Bytes) (os : List WOut) (past done : Bool) (rs : List (WRound WTo)) (h : WsAnswers bufs os) :
    ∃ k res, k ≤ bufs.length ∧ (writerWriteBuffers timed (totalLen bufs) [] bufs 0 (⟨.each os, past, done⟩ :: rs)).1 = some res ∧
      (writerWriteBuffers timed (totalLen bufs) [] bufs 0 (⟨.each os, past, done⟩ :: rs)).2.1 = wsStream (wsWrites (bufs.take k)) ∧
      (res.err = none ↔ k = bufs.length) := by
  have hs : ∀ l : List Bytes, wsStream (wsWrites l) = l.flatten := by
    intro l
    induction l with
    | nil => rfl
    | cons b l ih => simp only [wsWrites, List.map_cons, wsStream, List.flatten_cons] at ih ⊢; rw [ih]
  rcases writeEach_ws h with ⟨h1, h2, h3⟩ | ⟨k, code, h1, h2, h3⟩
  · refine ⟨bufs.length, ⟨totalLen bufs, none⟩, Nat.le_refl _, ?_, ?_, by simp⟩ <;>
      simp [writerWriteBuffers, WTo.run, writeToEach, h1, h2, h3, afterWrite, hs]
  · refine ⟨k, ⟨(writeEach bufs os).1, some (.other code)⟩, by omega, ?_, ?_, ?_⟩
    · simp [writerWriteBuffers, WTo.run, writeToEach, h2, afterWrite]
    · simp [writerWriteBuffers, WTo.run, writeToEach, h2, h3, afterWrite, hs]
    · simp; omega

example : WsAnswers [[1, 2], [3], [4]] [⟨2, none, 2⟩, ⟨1, some (.other 7), 0⟩] ∧
    (writerWriteBuffers true 4 [] [[1, 2], [3], [4]] 0 [⟨.each [⟨2, none, 2⟩, ⟨1, some (.other 7), 0⟩], false, false⟩]).2.1 = [1, 2] :=
  ⟨.sent (.failed 7), by decide⟩

/-- Two frames, cut into three messages inside the header of the first and the payload of the second, with an empty and a text message
in between, and the second one still incomplete. -/
def wsFrIn : List WsIn :=
  [.msg .binary (hTwo.take 9) none, .msg .binary [] none, .msg .text [1] none, .msg .binary ((hTwo.drop 9).take 25) none, .err 5]

example : EncodesAll ⟨100, none⟩ [layout 3 1 8 [7], layout 5 2 0 [8, 9]] [⟨3, 8, 1, [7]⟩, ⟨5, 0, 2, [8, 9]⟩] ∧
    wsStream wsFrIn <+: [layout 3 1 8 [7], layout 5 2 0 [8, 9]].flatten ∧ [layout 3 1 8 [7]].flatten <+: wsStream wsFrIn ∧
    okFrames (readNW ⟨100, none⟩ 1 ⟨[], ⟨[], wsFrIn⟩⟩).1 = some [⟨3, 8, 1, [7]⟩] ∧
    okFrames (readNW ⟨100, none⟩ 2 ⟨[], ⟨[], wsFrIn⟩⟩).1 = none :=
  ⟨.cons ⟨1, [7], rfl, by decide, by decide, .inr (by decide), rfl⟩ (.cons ⟨2, [8, 9], rfl, by decide, by decide, .inr (by decide), rfl⟩ .nil),
    by decide +kernel, by decide +kernel, by decide +kernel, by decide +kernel⟩

/-- The hypotheses of C111_serves and C111_arrives are met by the executions of `Serves_example` and `Arrives_example`, over the overlay. -/
theorem ws_example : ServesWs ⟨100, none⟩ hTwo [⟨3, 8, 1, [7]⟩, ⟨5, 0, 2, [8, 9]⟩] ∧ ArrivesWs ⟨0, none⟩ rpcWire rpcAnswers rpcAnswers := by
  constructor
  · have h1 : okFrames (readNW ⟨100, none⟩ 2 ⟨[], ⟨[], wsWrites [hTwo.take 20, hTwo.drop 20]⟩⟩).1 = some [⟨3, 8, 1, [7]⟩, ⟨5, 0, 2, [8, 9]⟩] := by
      decide +kernel
    have h2 : (sRun SSt.init hStreams).map (fun t => (t.recv, returned t.log)) =
        some ([⟨3, 8, 1, [7]⟩, ⟨5, 0, 2, [8, 9]⟩], [⟨3, 8, 1, [7]⟩, ⟨5, 0, 2, [8, 9]⟩]) := by decide +kernel
    have h3 : (rdRun ⟨0, 0, 0, false⟩ 0 hDispatch).map (fun u => (u.arr.map Prod.fst, u.log.filterMap startOf)) =
        some ([Frame.toR ⟨3, 8, 1, [7]⟩, Frame.toR ⟨5, 0, 2, [8, 9]⟩], [0, 1]) := by decide +kernel
    obtain ⟨t, h5, h6⟩ := Option.map_eq_some_iff.1 h2
    obtain ⟨u, h7, h8⟩ := Option.map_eq_some_iff.1 h3
    simp only [Prod.mk.injEq] at h6 h8
    refine ⟨_, 2, _, hStreams, t, _, 0, hDispatch, u, ?_, okFrames_ok h1, h5, h6.1, h7, ?_, ?_⟩
    · exact (by decide +kernel : wsStream (wsWrites [hTwo.take 20, hTwo.drop 20]) = hTwo) ▸ List.prefix_refl _
    · rw [h8.1, h6.2]; exact List.prefix_refl _
    · rw [h8.2, h6.2]; rfl
  · have h1 : okFrames (readNW ⟨0, none⟩ 2 ⟨[], ⟨[], wsWrites [rpcWire.take 18, rpcWire.drop 18]⟩⟩).1 = some rpcAnswers := by decide +kernel
    have h3 : (sRun SSt.init rpcStreams).map (fun t => (t.recv, returned t.log)) = some (rpcAnswers, rpcAnswers) := by decide +kernel
    obtain ⟨t, h6, h7⟩ := Option.map_eq_some_iff.1 h3
    simp only [Prod.mk.injEq] at h7
    refine ⟨_, 2, rpcStreams, t, ?_, okFrames_ok h1, h6, h7.1, h7.2.symm⟩
    exact (by decide +kernel : wsStream (wsWrites [rpcWire.take 18, rpcWire.drop 18]) = rpcWire) ▸ List.prefix_refl _

end Qrpc
