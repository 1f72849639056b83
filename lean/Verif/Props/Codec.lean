import Verif.Lemmas.WriteFrame
/-! # C08: compression is transparent -/
namespace Qrpc
open Spec

/-- A codec that loses nothing: decoding what `Encode` returned gives the payload back. -/
def Codec.Lossless (c : Codec) : Prop := ∀ p e, (c.encode p).2 = some e → c.decode e = some p

/-- What the reader must deliver for a user frame, up to the codec flag. -/
def Frame.mod5 (f : Frame) : UInt64 × FrameFlag × Cmd × Bytes :=
  (f.requestID, FrameFlag.toNonCodec f.flags, f.cmd, f.payload)

theorem toNonCodec_idem (f : FrameFlag) : FrameFlag.toNonCodec (FrameFlag.toNonCodec f) = FrameFlag.toNonCodec f := by
  rw [toNonCodec_of_not _ (isCodec_toNonCodec f)]

/-- One frame: what is sent decodes to what was written. -/
theorem sentAs_decode (c : Codec) (hl : c.Lossless)
    (hne : ∀ p e, p ≠ [] → (c.encode p).2 = some e → e ≠ [])
    (hpure : ∀ p e, (c.encode p).2 = some e → p.length < e.length → (c.encode p).1 = p)
    (mx : Int) (f : FrameFlag) (p : Bytes) (hok : FrameFlag.isCodec f = true → p ≠ [] → (c.encode p).2.isSome) :
    ∃ f' p', sentAs (some c) f p = .ok (f', p') ∧ p'.length ≤ p.length ∧
      decodePayload ⟨mx, some c⟩ f' p' = .ok p ∧ FrameFlag.toNonCodec f' = FrameFlag.toNonCodec f ∧
      (FrameFlag.isCodec f = false → f' = f ∧ p' = p) ∧ (p = [] → FrameFlag.isCodec f' = false) := by
  unfold sentAs
  by_cases hp : p = []
  · rw [if_pos hp]
    refine ⟨_, _, rfl, by simp, by simp [decodePayload, hp], toNonCodec_idem f, ?_, fun _ => isCodec_toNonCodec f⟩
    intro h; exact ⟨toNonCodec_of_not f h, hp.symm⟩
  · rw [if_neg hp]
    by_cases hc : FrameFlag.isCodec f = true
    · rw [if_pos hc]
      have := hok hc hp
      cases he : (c.encode p).2 with
      | none => simp [he] at this
      | some e =>
        simp only [he]
        by_cases hlen : e.length > p.length
        · rw [if_pos hlen]
          have hpp := hpure p e he hlen
          refine ⟨_, _, rfl, by rw [hpp]; omega, ?_, toNonCodec_idem f, by simp [hc], by simp [hp]⟩
          simp [decodePayload, hpp, hp, isCodec_toNonCodec]
        · rw [if_neg hlen]
          refine ⟨_, _, rfl, by omega, ?_, rfl, by simp [hc], by simp [hp]⟩
          simp [decodePayload, hne p e hp he, hc, hl p e he]
    · rw [if_neg hc]
      exact ⟨_, _, rfl, by omega, by simp [decodePayload, hp, hc], rfl, by simp, by simp [hp]⟩

/-- **C08, partial.** With the same lossless codec on both sides, frames written with or without the codec flag are
delivered with exactly the payload that was written (and the same id, command and flags up to the codec bit), whatever
the fragmentation; frames without the flag are delivered with unchanged flags.
Missing for the full claim (both refuted below): codecs that may encode a non-empty payload to the empty string
(`hne`), and codecs that encode in place and return something longer (`hpure`). `hok`: `Encode` does not report an error. -/
theorem C08_transparent_partial (c : Codec) (hl : c.Lossless)
    (hne : ∀ p e, p ≠ [] → (c.encode p).2 = some e → e ≠ [])
    (hpure : ∀ p e, (c.encode p).2 = some e → p.length < e.length → (c.encode p).1 = p)
    (mx : Int) (d : DFW) (hd : d.Clean) (us : List UFrame)
    (hok : ∀ u ∈ us, u.wantsCodec = true → u.payload ≠ [] → (c.encode u.payload).2.isSome)
    (hsize : ∀ u ∈ us, 12 + u.payload.length < 2 ^ 32)
    (hadm : ∀ u ∈ us, Admits ⟨mx, some c⟩ (12 + u.payload.length))
    (s : Src) (rest : Bytes) (hs : srcBytes s = (writeUFrames (some c) d us).1 ++ rest) :
    (writeUFrames (some c) d us).2 = true ∧
    ∃ fs s', readN ⟨mx, some c⟩ us.length s = (.ok fs, s') ∧ srcBytes s' = rest ∧
      fs.map Frame.mod5 = us.map (fun u => u.expected.mod5) ∧
      (∀ (i : Nat) (u : UFrame) (f : Frame), us[i]? = some u → fs[i]? = some f → u.wantsCodec = false → f = u.expected) := by
  induction us generalizing s d with
  | nil => exact ⟨rfl, [], s, rfl, by simpa [writeUFrames] using hs, rfl, by simp⟩
  | cons u us ih =>
    obtain ⟨f', p', h1, h2, h3, h4, h5, h6⟩ := sentAs_decode c hl hne hpure mx u.flags u.payload
      (fun h hp => hok u (by simp) (by rw [isCodec_testBit] at h; exact h) hp)
    obtain ⟨⟨sub, e1, e2⟩, e3, e4⟩ := writeUFrame_ok (some c) hd u h1
    simp only [writeUFrames, e1, e2, List.append_assoc] at hs
    obtain ⟨s1, r1, _, r3⟩ := readFrame_layout ⟨mx, some c⟩ s u.id u.cmd f' p' _
      (by have := hsize u (by simp); omega)
      (by rcases hadm u (by simp) with h | h
          · exact Or.inl h
          · right; omega) hs
    rw [h3] at r3
    obtain ⟨i1, fs, s', i2, i3, i4, i5⟩ := ih _ e4 (fun v hv => hok v (by simp [hv]))
      (fun v hv => hsize v (by simp [hv])) (fun v hv => hadm v (by simp [hv])) s1 r1
    refine ⟨by simp [writeUFrames, e3, i1], ?_⟩
    refine ⟨⟨u.id, f', UInt32.ofNat (u.cmd.toNat % 2 ^ 24), u.payload⟩ :: fs, s', ?_, i3, ?_, ?_⟩
    · simp only [List.length_cons, readN, r3, Except.map, i2]
    · simp only [List.map_cons, i4, List.cons.injEq, and_true]
      simp [Frame.mod5, UFrame.expected, h4]
    · intro i v f hv hf hw
      cases i with
      | zero =>
        simp only [List.getElem?_cons_zero, Option.some.injEq] at hv hf; subst hv; subst hf
        have hcu : FrameFlag.isCodec u.flags = false := by rw [isCodec_testBit]; exact hw
        simp [UFrame.expected, (h5 hcu).1]
      | succ i => exact i5 i v f (by simpa using hv) (by simpa using hf) hw

/-- **C08**: an empty payload never carries the codec flag after `EndWrite`, for any codec and any writer. -/
theorem C08_empty_no_codec_flag {ε} (codec : Option Codec) (write : DFW → Option ε) (d : DFW) (hd : d.Clean)
    (u : UFrame) (hu : u.payload = []) (sub : DFW)
    (h : ((u.chunks.foldl DFW.writeBytes (d.startWrite u.id u.cmd u.flags)).endWrite codec write).submitted = some sub) :
    FrameFlag.isCodec sub.flags = false ∧ sub.payload = [] := by
  have hlen : 16 ≤ d.wbuf.length := by unfold DFW.Clean at hd; omega
  obtain ⟨h1, h2⟩ := foldl_writeBytes (DFW.startWrite_holds d u.id u.cmd u.flags hlen) u.chunks
  rw [DFW.startWrite_payload d _ _ _ hlen, hd.payload_nil, List.nil_append] at h2
  change _ = u.payload at h2
  obtain ⟨sub', e1, e2, _⟩ := endWrite_ok h1 codec write (f' := FrameFlag.toNonCodec u.flags) (p' := [])
    (by rw [h2, hu]; simp [sentAs])
  rw [e1] at h; simp only [Option.some.injEq] at h; subst h
  constructor
  · unfold DFW.flags; rw [e2]; simp [layout, be, isCodec_toNonCodec]
  · unfold DFW.payload; rw [e2]; simp [layout, be]

/-- **C08**, `EndWriteCompressed`: the caller supplies the already encoded payload `q`; the reader delivers `decode q`. -/
theorem C08_end_write_compressed {ε} (c : Codec) (mx : Int) (write : DFW → Option ε) (d : DFW) (hd : d.Clean)
    (id : UInt64) (cmd : Cmd) (f : FrameFlag) (q p : Bytes) (hq : q ≠ []) (hdec : c.decode q = some p)
    (hsz : 12 + q.length < 2 ^ 32) (hadm : Admits ⟨mx, some c⟩ (12 + q.length)) :
    ∃ sub, (((d.startWrite id cmd f).writeBytes q).endWriteCompressed write).submitted = some sub ∧
      ∀ s rest, srcBytes s = sub.wbuf ++ rest → ∃ s', srcBytes s' = rest ∧
        readFrame ⟨mx, some c⟩ s =
          (.ok ⟨id, FrameFlag.toCodec f, UInt32.ofNat (cmd.toNat % 2 ^ 24), p⟩, s') := by
  have hlen : 16 ≤ d.wbuf.length := by unfold DFW.Clean at hd; omega
  obtain ⟨h1, h2⟩ := (DFW.startWrite_holds d id cmd f hlen).writeBytes q
  rw [DFW.startWrite_payload d _ _ _ hlen, hd.payload_nil, List.nil_append] at h2
  obtain ⟨h3, h4⟩ := h1.setFlags (FrameFlag.toCodec f)
  obtain ⟨sub, e1, e2, _⟩ := h3.endWriteRaw write
  refine ⟨sub, ?_, ?_⟩
  · unfold DFW.endWriteCompressed; rw [h1.flags_eq]; exact e1
  · intro s rest hs
    rw [e2, h4, h2] at hs
    obtain ⟨s', r1, _, r3⟩ := readFrame_layout ⟨mx, some c⟩ s _ _ _ _ _ hsz hadm hs
    refine ⟨s', r1, ?_⟩
    rw [r3]
    have hcf : ∀ f : FrameFlag, FrameFlag.isCodec (FrameFlag.toCodec f) = true := by
      intro f
      have : ∀ n : Fin 256, FrameFlag.isCodec (FrameFlag.toCodec (UInt8.ofFin n)) = true := by decide +kernel
      exact this f.toFin
    simp [decodePayload, hq, hcf, hdec, Except.map]

/-- A lossless codec used as an example: it shortens payloads starting with `7 7 7` and lengthens all others. -/
def sampleCodec : Codec where
  encode p := match p with
    | 7 :: 7 :: 7 :: r => (p, some (0 :: r))
    | p => (p, some (1 :: p))
  decode q := match q with
    | 0 :: r => some (7 :: 7 :: 7 :: r)
    | 1 :: r => some r
    | _ => none

/-- Non-trivial case: the sample codec satisfies every hypothesis of `C08_transparent_partial`; both branches of
`EndWrite` (compressed, raw because longer) occur. -/
example : sampleCodec.Lossless ∧ (∀ p e, p ≠ [] → (sampleCodec.encode p).2 = some e → e ≠ []) ∧
    (∀ p e, (sampleCodec.encode p).2 = some e → p.length < e.length → (sampleCodec.encode p).1 = p) ∧
    sentAs (some sampleCodec) CodecFlag [7, 7, 7, 9] = .ok (CodecFlag, [0, 9]) ∧
    sentAs (some sampleCodec) CodecFlag [7, 9] = .ok (0, [7, 9]) := by
  refine ⟨?_, ?_, ?_, by rfl, by rfl⟩
  · intro p e h
    unfold sampleCodec at h ⊢
    simp only at h ⊢
    split at h <;> (simp only [Option.some.injEq] at h; subst h; rfl)
  · intro p e hp h
    unfold sampleCodec at h
    simp only at h
    split at h <;> (simp only [Option.some.injEq] at h; subst h; simp)
  · intro p e h _
    unfold sampleCodec
    simp only
    split <;> rfl

/-- A lossless codec that maps the payload `[5]` to the empty string. -/
def emptyingCodec : Codec where
  encode p := (p, some (if p = [5] then [] else 0 :: p))
  decode q := some (match q with | [] => [5] | _ :: r => r)

/-- **C08 refuted, 1**: with a lossless codec that encodes a non-empty payload to nothing, the receiver gets an empty
payload (framereader.go:108 decodes only when the size exceeds 12). -/
theorem C08_refuted_empty_encoding :
    emptyingCodec.Lossless ∧
    ∃ (u : UFrame) (sub : DFW), u.payload = [5] ∧ (writeUFrame (some emptyingCodec) DFW.new u).submitted = some sub ∧
      ∀ s, srcBytes s = sub.wbuf → ∃ fr s', readFrame ⟨0, some emptyingCodec⟩ s = (.ok fr, s') ∧ fr.payload = [] := by
  constructor
  · intro p e h
    unfold emptyingCodec at h ⊢
    simp only [Option.some.injEq] at h
    subst h; simp only [Option.some.injEq]
    by_cases hp : p = [5]
    · subst hp; rfl
    · rw [if_neg hp]
  · refine ⟨⟨3, 1, CodecFlag, [[5]]⟩, _, rfl, rfl, ?_⟩
    intro s hs
    obtain ⟨s', _, _, e⟩ := readFrame_layout ⟨0, some emptyingCodec⟩ s 3 1 CodecFlag [] [] (by decide)
      (Or.inl (by decide)) (by rw [hs]; decide)
    exact ⟨_, s', e, rfl⟩

/-- A lossless codec that works in place (overwrites its argument) and may return something longer. -/
def inPlaceCodec : Codec where
  encode p := (p.map (fun b => b + 1), some (0 :: p.map (fun b => b + 1)))
  decode q := some (q.tail.map (fun b => b - 1))

/-- **C08 refuted, 2**: an in-place codec (as conf.go:14 invites) whose result is longer than the payload: `EndWrite` sends
the raw buffer, which the codec has already overwritten, without the codec flag. -/
theorem C08_refuted_in_place :
    inPlaceCodec.Lossless ∧
    ∃ (u : UFrame) (sub : DFW), u.payload = [5] ∧ (writeUFrame (some inPlaceCodec) DFW.new u).submitted = some sub ∧
      ∀ s, srcBytes s = sub.wbuf → ∃ fr s', readFrame ⟨0, some inPlaceCodec⟩ s = (.ok fr, s') ∧ fr.payload = [6] := by
  constructor
  · intro p e h
    unfold inPlaceCodec at h ⊢
    simp only [Option.some.injEq] at h
    subst h
    simp [Function.comp_def]
  · refine ⟨⟨3, 1, CodecFlag, [[5]]⟩, _, rfl, rfl, ?_⟩
    intro s hs
    obtain ⟨s', _, _, e⟩ := readFrame_layout ⟨0, some inPlaceCodec⟩ s 3 1 0 [6] [] (by decide)
      (Or.inl (by decide)) (by rw [hs]; decide)
    exact ⟨_, s', e, rfl⟩

end Qrpc
