import Verif.Lemmas.WriteFrame
import Verif.Model.FirstFrame
/-! # C05, C06, C07: commands and flags -/
namespace Qrpc
open Spec

theorem and_ffff (c : UInt32) : (c &&& (0xffff : UInt32)).toNat = c.toNat % 2 ^ 16 := by
  rw [UInt32.toNat_and]
  exact Nat.and_two_pow_sub_one_eq_mod c.toNat 16

theorem cmdWithOpaque_toNat (c : Cmd) (o : UInt8) :
    (cmdWithOpaque c o).toNat = o.toNat * 2 ^ 16 + c.toNat % 2 ^ 16 := by
  have ho := o.toNat_lt
  unfold cmdWithOpaque
  rw [UInt32.toNat_add, and_ffff, UInt32.toNat_shiftLeft, Nat.shiftLeft_eq, UInt8.toNat_toUInt32]
  simp only [UInt32.reduceToNat, Nat.reduceMod]
  omega

/-- **C05**. Packing a command and an opaque byte: `Routing` gives back the command's low 16 bits, `Opaque` the byte, and
the result is at most `MaxCmd`. -/
theorem C05_pack (c : Cmd) (o : UInt8) :
    (Cmd.routing (cmdWithOpaque c o)).toNat = c.toNat % 2 ^ 16 ∧
    Cmd.opaqueByte (cmdWithOpaque c o) = o ∧
    (cmdWithOpaque c o).toNat ≤ MaxCmd.toNat := by
  have ho := o.toNat_lt
  have h := cmdWithOpaque_toNat c o
  refine ⟨?_, ?_, ?_⟩
  · unfold Cmd.routing; rw [and_ffff, h]; omega
  · apply UInt8.toNat_inj.mp
    unfold Cmd.opaqueByte
    rw [UInt32.toNat_toUInt8, UInt32.toNat_shiftRight, Nat.shiftRight_eq_div_pow, h]
    simp only [UInt32.reduceToNat, Nat.reduceMod]; omega
  · rw [h]; unfold MaxCmd; simp only [UInt32.reduceToNat]; omega

/-- Every command is packed from its own routing part and opaque byte, up to the top 8 bits. -/
theorem C05_unpack (c : Cmd) :
    (cmdWithOpaque (Cmd.routing c) (Cmd.opaqueByte c)).toNat = c.toNat % 2 ^ 24 := by
  rw [cmdWithOpaque_toNat]
  unfold Cmd.routing Cmd.opaqueByte
  rw [and_ffff, UInt32.toNat_toUInt8, UInt32.toNat_shiftRight, Nat.shiftRight_eq_div_pow]
  simp only [UInt32.reduceToNat, Nat.reduceMod]; omega

/-- **C05**, on the wire: a command written with `StartWrite` (or `SetCmd`, as stream writers do) is read back by the
other side, and by the writer's own accessor, as its low 24 bits; in particular a packed command survives unchanged. -/
theorem C05_wire (d : DFW) (hd : d.Clean) (id : UInt64) (c : Cmd) (f : FrameFlag) (hf : FrameFlag.isCodec f = false) (p : Bytes)
    (hp : 12 + p.length < 2 ^ 32) (s : Src)
    (hs : srcBytes s = (writeUFrames none d [⟨id, c, f, [p]⟩]).1) :
    (∃ fr s', readFrame (clientReaderCfg none) s = (.ok fr, s') ∧ fr.cmd.toNat = c.toNat % 2 ^ 24 ∧
      (c.toNat ≤ MaxCmd.toNat → fr.cmd = c)) ∧
    (d.startWrite id c f).cmd.toNat = c.toNat % 2 ^ 24 ∧
    (∀ c0, ((d.startWrite id c0 f).setCmd c).cmd.toNat = c.toNat % 2 ^ 24) := by
  have hl : 16 ≤ d.wbuf.length := by unfold DFW.Clean at hd; omega
  have hpay : UFrame.payload ⟨id, c, f, [p]⟩ = p := by simp [UFrame.payload]
  refine ⟨?_, (DFW.startWrite_holds d id c f hl).cmd_eq, fun c0 => ((DFW.startWrite_holds d id c0 f hl).setCmd c).1.cmd_eq⟩
  have hsent : sentAs none f (UFrame.payload ⟨id, c, f, [p]⟩) = .ok (f, p) := by
    rw [hpay]; unfold sentAs; split
    · next h => rw [h, toNonCodec_of_not _ hf]
    · simp [hf]
  obtain ⟨⟨sub, e1, e2⟩, _, _⟩ := writeUFrame_ok none hd ⟨id, c, f, [p]⟩ hsent
  have hs2 : srcBytes s = layout id c f p ++ [] := by
    rw [hs]; simp [writeUFrames, e1, e2]
  obtain ⟨s', _, _, e⟩ := readFrame_layout (clientReaderCfg none) s id c f p [] hp (Or.inl (by decide)) hs2
  have hdec : decodePayload (clientReaderCfg none) f p = .ok p := by
    unfold decodePayload; split
    · next h => rw [h]
    · simp [hf]
  rw [hdec] at e
  refine ⟨_, s', e, ?_, ?_⟩
  · simp only [UInt32.toNat_ofNat']; omega
  · intro hle
    apply UInt32.toNat_inj.mp
    simp only [UInt32.toNat_ofNat']
    unfold MaxCmd at hle; simp only [UInt32.reduceToNat] at hle; omega

example : cmdWithOpaque 0xff001234 0x56 = 0x561234 ∧ Cmd.routing 0x561234 = 0x1234 ∧ Cmd.opaqueByte 0x561234 = 0x56 := by
  decide

/-- Bit `i` of a flag byte. -/
def bit (f : FrameFlag) (i : Nat) : Bool := f.toNat.testBit i

/-- Lift of a check over all 256 flag bytes. -/
theorem forallFlag {P : FrameFlag → Prop} (h : ∀ n : Fin 256, P (UInt8.ofFin n)) (f : FrameFlag) : P f := h f.toFin

/-- **C06**, the predicates in terms of bits (0 = stream, 1 = stream end, 2 = reset, 3 = nonblock, 4 = push, 5 = codec). -/
theorem C06_predicates (f : FrameFlag) :
    (FrameFlag.isStream f = true ↔ bit f 0 = true ∨ bit f 1 = true) ∧
    (FrameFlag.isDone f = true ↔ (bit f 0 = false ∧ bit f 1 = false) ∨ bit f 1 = true ∨ bit f 2 = true) ∧
    (FrameFlag.isNonBlock f = true ↔ bit f 0 = true ∨ bit f 1 = true ∨ bit f 3 = true) ∧
    FrameFlag.isRst f = bit f 2 ∧ FrameFlag.isPush f = bit f 4 ∧ FrameFlag.isCodec f = bit f 5 := by
  revert f; apply forallFlag; decide +kernel

/-- **C06**, the conversions other than `ToNonStream`: exactly the named bit is set / cleared, all other bits are kept,
and applying twice is the same as once. -/
theorem C06_conversions_partial (f : FrameFlag) :
    (∀ i, i < 8 → bit (FrameFlag.toStream f) i = (bit f i || i == 0)) ∧
    (∀ i, i < 8 → bit (FrameFlag.toEndStream f) i = (bit f i || i == 1)) ∧
    (∀ i, i < 8 → bit (FrameFlag.toCodec f) i = (bit f i || i == 5)) ∧
    (∀ i, i < 8 → bit (FrameFlag.toNonCodec f) i = (bit f i && i != 5)) ∧
    FrameFlag.toStream (FrameFlag.toStream f) = FrameFlag.toStream f ∧
    FrameFlag.toEndStream (FrameFlag.toEndStream f) = FrameFlag.toEndStream f ∧
    FrameFlag.toCodec (FrameFlag.toCodec f) = FrameFlag.toCodec f ∧
    FrameFlag.toNonCodec (FrameFlag.toNonCodec f) = FrameFlag.toNonCodec f ∧
    FrameFlag.toNonStream (FrameFlag.toNonStream f) = FrameFlag.toNonStream f := by
  revert f; apply forallFlag; decide +kernel

/-- **C06 fails for `ToNonStream`**: it changes no bit at all of any flag byte (`StreamFlag & StreamEndFlag = 0`,
qrpc.go:49). -/
theorem C06_refuted_toNonStream (f : FrameFlag) : FrameFlag.toNonStream f = f := by
  revert f; apply forallFlag; decide +kernel

/-- The user-level frame `Connection.Request` puts on the wire (id, cmd, flag byte, payload). -/
theorem clientRequest_layout {ε} (codec : Option Codec) (write : DFW → Option ε) (pooled : DFW) (hd : pooled.Clean)
    (id : UInt64) (r : Nat) (c : Cmd) (f : FrameFlag) (p : Bytes) (sub : DFW)
    (h : (clientRequest codec write pooled id r c f p).submitted = some sub) :
    ∃ f' p', sub.wbuf = layout id c f' p' ∧ (f' = f ∨ f' = FrameFlag.toNonCodec f) := by
  have h0 : FrameFlag.toNonStream f = f := C06_refuted_toNonStream f
  unfold clientRequest writeFirstFrame at h
  rw [h0] at h
  simp only at h
  generalize hw : (if FrameFlag.isPush f then pooled.fromPool else { pooled.fromPool with resp := some r }) = w at h
  have hl : w.wbuf = pooled.wbuf := by rw [← hw]; split <;> rfl
  have hwl : 16 ≤ w.wbuf.length := by rw [hl]; unfold DFW.Clean at hd; omega
  obtain ⟨h1, h2⟩ := (DFW.startWrite_holds w id c f hwl).writeBytes p
  cases hs : sentAs codec f ((w.startWrite id c f).writeBytes p).payload with
  | error e => rw [(endWrite_error h1 codec write hs).1] at h; simp at h
  | ok fp =>
    obtain ⟨f', p'⟩ := fp
    obtain ⟨sub', e1, e2, _⟩ := endWrite_ok h1 codec write hs
    rw [e1] at h; simp only [Option.some.injEq] at h; subst h
    refine ⟨f', p', e2, ?_⟩
    unfold sentAs at hs
    split at hs
    · simp only [Except.ok.injEq, Prod.mk.injEq] at hs; exact Or.inr hs.1.symm
    · split at hs
      · split at hs
        · simp at hs
        · split at hs
          · simp at hs
          · split at hs
            · simp only [Except.ok.injEq, Prod.mk.injEq] at hs; exact Or.inr hs.1.symm
            · simp only [Except.ok.injEq, Prod.mk.injEq] at hs; exact Or.inl hs.1.symm
      · simp only [Except.ok.injEq, Prod.mk.injEq] at hs; exact Or.inl hs.1.symm

/-- **C07, what does hold**: when the caller passes neither stream bit, the frame `Request` sends is not streamed.
Missing for the full claim: the same when the caller passes a stream bit (false, see below). -/
theorem C07_request_partial {ε} (codec : Option Codec) (write : DFW → Option ε) (pooled : DFW) (hd : pooled.Clean)
    (id : UInt64) (r : Nat) (c : Cmd) (f : FrameFlag) (hf : bit f 0 = false ∧ bit f 1 = false) (p : Bytes) (sub : DFW)
    (h : (clientRequest codec write pooled id r c f p).submitted = some sub) :
    ∃ f' p', sub.wbuf = layout id c f' p' ∧ bit f' 0 = false ∧ bit f' 1 = false := by
  obtain ⟨f', p', e, hf'⟩ := clientRequest_layout codec write pooled hd id r c f p sub h
  refine ⟨f', p', e, ?_⟩
  rcases hf' with rfl | rfl
  · exact hf
  · have hc := (C06_conversions_partial f).2.2.2.1
    rw [hc 0 (by decide), hc 1 (by decide), hf.1, hf.2]; simp

/-- **C07 refuted**: `Request` called with the stream flag sends a streamed, unfinished frame. -/
theorem C07_refuted :
    ∃ (f : FrameFlag) (sub : DFW),
      (clientRequest none (fun _ => (none : Option Unit)) DFW.new 3 0 1 f []).submitted = some sub ∧
      FrameFlag.isStream sub.flags = true ∧ FrameFlag.isDone sub.flags = false :=
  ⟨StreamFlag, _, rfl, by decide, by decide⟩

example : bit NBFlag 0 = false ∧ bit NBFlag 1 = false ∧
    (clientRequest none (fun _ => (none : Option Unit)) DFW.new 3 0 1 NBFlag [1]).submitted.map DFW.wbuf =
      some [0,0,0,13, 0,0,0,0,0,0,0,3, 8, 0,0,1, 1] := by decide

end Qrpc
