import Verif.Lemmas.ReadFrame
import Verif.Spec.Frames
/-! What a writer with an empty payload area puts on the wire for a user frame. -/
namespace Qrpc
open Spec

/-- A writer ready for a new frame: header area only. -/
def DFW.Clean (d : DFW) : Prop := d.wbuf.length = 16

theorem DFW.Clean.payload_nil {d : DFW} (h : d.Clean) : d.payload = [] := by
  unfold DFW.payload; apply List.drop_eq_nil_of_le; unfold DFW.Clean at h; omega

theorem foldl_writeBytes {d : DFW} {id c f} (h : d.Holds id c f) (chunks : List Bytes) :
    (chunks.foldl DFW.writeBytes d).Holds id c f ∧
      (chunks.foldl DFW.writeBytes d).payload = d.payload ++ chunks.flatten := by
  induction chunks generalizing d with
  | nil => simpa using h
  | cons x xs ih =>
    obtain ⟨h1, h2⟩ := h.writeBytes x
    obtain ⟨h3, h4⟩ := ih h1
    simp only [List.foldl_cons]
    exact ⟨h3, by rw [h4, h2]; simp⟩

theorem Holds_clean {d : DFW} {id c f} (h : d.Holds id c f) (hp : d.payload = []) : d.Clean := by
  have := h.len
  have h2 : (d.wbuf.drop 16).length = 0 := by
    have : d.wbuf.drop 16 = [] := hp
    rw [this]; rfl
  simp at h2; unfold DFW.Clean; omega

/-- Payload and flags actually sent by `EndWrite` for payload `p` and flags `f`, if it gets that far. -/
def sentAs (codec : Option Codec) (f : FrameFlag) (p : Bytes) : Except (FwErr Empty) (FrameFlag × Bytes) :=
  if p = [] then .ok (FrameFlag.toNonCodec f, [])
  else if FrameFlag.isCodec f then
    match codec with
    | none => .error .noCodec
    | some c => match (c.encode p).2 with
      | none => .error .codec
      | some e => if e.length > p.length then .ok (FrameFlag.toNonCodec f, (c.encode p).1) else .ok (f, e)
  else .ok (f, p)

theorem endWrite_ok {ε} {d : DFW} {id c f} (h : d.Holds id c f) (codec : Option Codec) (write : DFW → Option ε)
    {f' : FrameFlag} {p' : Bytes} (hs : sentAs codec f d.payload = .ok (f', p')) :
    ∃ sub, (d.endWrite codec write).submitted = some sub ∧ sub.wbuf = layout id c f' p' ∧
      sub.resp = d.resp ∧ sub.checkExist = d.checkExist ∧
      (d.endWrite codec write).err = (write sub).map .write ∧
      (d.endWrite codec write).dfw.Holds id c f' ∧ (d.endWrite codec write).dfw.payload = [] := by
  have hf := h.flags_eq
  unfold sentAs at hs
  unfold DFW.endWrite
  simp only [hf]
  by_cases hp : d.payload = []
  · rw [if_pos hp] at hs
    simp only [Except.ok.injEq, Prod.mk.injEq] at hs; obtain ⟨rfl, rfl⟩ := hs
    rw [if_pos (by simp [hp])]
    obtain ⟨h1, h2⟩ := h.setFlags (FrameFlag.toNonCodec f)
    have := h1.endWriteRaw write
    rwa [h2, hp] at this
  · rw [if_neg hp] at hs
    rw [if_neg (by simpa using hp)]
    by_cases hc : FrameFlag.isCodec f
    · rw [if_pos hc] at hs; rw [if_pos hc]
      cases codec with
      | none => simp at hs
      | some cd =>
        simp only at hs ⊢
        cases he : (cd.encode d.payload).2 with
        | none => rw [he] at hs; simp at hs
        | some e =>
          rw [he] at hs; simp only at hs ⊢
          obtain ⟨h1, h2⟩ := h.setPayload (cd.encode d.payload).1
          split at hs
          · next hl =>
            simp only [Except.ok.injEq, Prod.mk.injEq] at hs; obtain ⟨rfl, rfl⟩ := hs
            rw [if_pos hl, h1.flags_eq]
            obtain ⟨h3, h4⟩ := h1.setFlags (FrameFlag.toNonCodec f)
            have := h3.endWriteRaw write
            rwa [h4, h2] at this
          · next hl =>
            simp only [Except.ok.injEq, Prod.mk.injEq] at hs; obtain ⟨rfl, rfl⟩ := hs
            rw [if_neg hl]
            obtain ⟨h3, h4⟩ := h1.setPayload e
            have := h3.endWriteRaw write
            rw [h4] at this
            exact this
    · rw [if_neg hc] at hs
      simp only [Except.ok.injEq, Prod.mk.injEq] at hs; obtain ⟨rfl, rfl⟩ := hs
      rw [if_neg hc]
      exact h.endWriteRaw write

theorem endWrite_error {ε} {d : DFW} {id c f} (h : d.Holds id c f) (codec : Option Codec) (write : DFW → Option ε)
    {e : FwErr Empty} (hs : sentAs codec f d.payload = .error e) :
    (d.endWrite codec write).submitted = none ∧
      (d.endWrite codec write).err = some (match e with | .noCodec => .noCodec | .codec => .codec) ∧
      (d.endWrite codec write).dfw.Holds id c f := by
  have hf := h.flags_eq
  unfold sentAs at hs
  unfold DFW.endWrite
  simp only [hf]
  by_cases hp : d.payload = []
  · rw [if_pos hp] at hs; simp at hs
  · rw [if_neg hp] at hs
    rw [if_neg (by simpa using hp)]
    by_cases hc : FrameFlag.isCodec f
    · rw [if_pos hc] at hs; rw [if_pos hc]
      cases codec with
      | none => simp only [Except.error.injEq] at hs; subst hs; exact ⟨rfl, rfl, h⟩
      | some cd =>
        simp only at hs ⊢
        cases he : (cd.encode d.payload).2 with
        | none =>
          rw [he] at hs; simp only [Except.error.injEq] at hs; subst hs
          exact ⟨rfl, rfl, (h.setPayload (cd.encode d.payload).1).1⟩
        | some e' => rw [he] at hs; simp only at hs; split at hs <;> simp at hs
    · rw [if_neg hc] at hs; simp at hs

/-- One user frame on a clean writer. -/
theorem writeUFrame_ok (codec : Option Codec) {d : DFW} (hd : d.Clean) (u : UFrame) {f' : FrameFlag} {p' : Bytes}
    (hs : sentAs codec u.flags u.payload = .ok (f', p')) :
    (∃ sub, (writeUFrame codec d u).submitted = some sub ∧ sub.wbuf = layout u.id u.cmd f' p') ∧
      (writeUFrame codec d u).err = none ∧ (writeUFrame codec d u).dfw.Clean := by
  have hl : 16 ≤ d.wbuf.length := by unfold DFW.Clean at hd; omega
  obtain ⟨h1, h2⟩ := foldl_writeBytes (DFW.startWrite_holds d u.id u.cmd u.flags hl) u.chunks
  rw [DFW.startWrite_payload d _ _ _ hl, hd.payload_nil, List.nil_append] at h2
  change _ = u.payload at h2
  obtain ⟨sub, e1, e2, _, _, e3, e4, e5⟩ := endWrite_ok h1 codec (fun _ => (none : Option Empty)) (by rw [h2]; exact hs)
  exact ⟨⟨sub, e1, e2⟩, e3, Holds_clean e4 e5⟩

theorem isCodec_testBit (f : FrameFlag) : FrameFlag.isCodec f = f.toNat.testBit 5 := by
  have : ∀ n : Fin 256, FrameFlag.isCodec (UInt8.ofFin n) = (UInt8.ofFin n).toNat.testBit 5 := by decide +kernel
  exact this f.toFin

theorem toNonCodec_of_not (f : FrameFlag) (h : FrameFlag.isCodec f = false) : FrameFlag.toNonCodec f = f := by
  have : ∀ n : Fin 256, FrameFlag.isCodec (UInt8.ofFin n) = false →
      FrameFlag.toNonCodec (UInt8.ofFin n) = UInt8.ofFin n := by decide +kernel
  exact this f.toFin h

theorem isCodec_toNonCodec (f : FrameFlag) : FrameFlag.isCodec (FrameFlag.toNonCodec f) = false := by
  have : ∀ n : Fin 256, FrameFlag.isCodec (FrameFlag.toNonCodec (UInt8.ofFin n)) = false := by decide +kernel
  exact this f.toFin

theorem new_clean : DFW.new.Clean := rfl

end Qrpc
