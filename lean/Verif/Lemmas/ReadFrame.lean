import Verif.Lemmas.Frame
/-! `readFrame` on the layout of a frame. -/
namespace Qrpc
open Spec

/-- The configured maximum lets a frame of this size pass (framereader.go:98 compares in 32 bits). -/
def Admits (cfg : FrameReaderCfg) (size : Nat) : Prop :=
  cfg.maxFrameSize ≤ 0 ∨ size ≤ cfg.maxFrameSize.toNat % 2 ^ 32

theorem checkSize_ok (cfg : FrameReaderCfg) (n : Nat) (h : 12 + n < 2 ^ 32) (ha : Admits cfg (12 + n)) :
    checkSize cfg (UInt32.ofNat (12 + n)) = .ok n := by
  have e : (UInt32.ofNat (12 + n)).toNat = 12 + n := by rw [UInt32.toNat_ofNat']; omega
  unfold checkSize
  rw [if_neg, if_neg]
  · congr 1
    rw [UInt32.toNat_sub_of_le _ _ (by rw [UInt32.le_iff_toNat_le, e]; simp), e]; simp
  · rw [UInt32.lt_iff_toNat_lt, e]; simp
  · rintro ⟨h1, h2⟩
    rw [gt_iff_lt, UInt32.lt_iff_toNat_lt, e, UInt32.toNat_ofNat'] at h2
    rcases ha with ha | ha <;> omega

/-- What the codec of a reader makes of a received payload. -/
def decodePayload (cfg : FrameReaderCfg) (flags : FrameFlag) (p : Bytes) : Except FrameErr Bytes :=
  if p = [] then .ok []
  else if FrameFlag.isCodec flags then
    match cfg.codec with
    | none => .error .noCodec
    | some c => match c.decode p with
      | none => .error .codec
      | some q => .ok q
  else .ok p

theorem layout_length (id : UInt64) (c : UInt32) (f : UInt8) (p : Bytes) :
    (layout id c f p).length = 16 + p.length := by
  simp [layout, be_length]; omega

theorem layout_drop (id : UInt64) (c : UInt32) (f : UInt8) (p : Bytes) : (layout id c f p).drop 16 = p := by
  simp [layout, be]

theorem readFrame_layout (cfg : FrameReaderCfg) (s : Src) (id : UInt64) (c : UInt32) (f : UInt8) (p rest : Bytes)
    (hp : 12 + p.length < 2 ^ 32) (ha : Admits cfg (12 + p.length))
    (hs : srcBytes s = layout id c f p ++ rest) :
    ∃ s', srcBytes s' = rest ∧ srcEnd s' = srcEnd s ∧
      readFrame cfg s = ((decodePayload cfg f p).map
        (fun q => { requestID := id, flags := f, cmd := UInt32.ofNat (c.toNat % 2 ^ 24), payload := q }), s') := by
  have hl := layout_length id c f p
  obtain ⟨s1, e1, e2, e3⟩ := readBytes_ok 16 s (by rw [hs]; simp [hl]; omega)
  have ht : (srcBytes s).take 16 = (layout id c f p).take 16 := by
    rw [hs, List.take_append_of_le_length (by omega)]
  have hd : (srcBytes s).drop 16 = p ++ rest := by
    rw [hs, List.drop_append_of_le_length (by omega), layout_drop]
  rw [ht] at e1; rw [hd] at e2
  unfold readFrame
  rw [e1]
  simp only [parseHeader_layout, checkSize_ok cfg _ hp ha]
  cases p with
  | nil => exact ⟨s1, by simpa using e2, e3, by simp [decodePayload, Except.map]⟩
  | cons x xs =>
    obtain ⟨s2, r1, r2, r3⟩ := readBytes_ok (x :: xs).length s1 (by rw [e2]; simp)
    rw [e2, List.take_left'] at r1
    · rw [e2, List.drop_left'] at r2
      · refine ⟨s2, r2, by rw [r3, e3], ?_⟩
        simp only [List.length_cons] at r1 ⊢
        rw [r1]
        simp only [decodePayload, reduceCtorEq, if_false]
        split
        · cases cfg.codec with
          | none => rfl
          | some cd => cases hq : cd.decode (x :: xs) with
            | none => simp [hq, Except.map]
            | some q => simp [hq, Except.map]
        · rfl
      · rfl
    · rfl

theorem endErr_conn (g : Bytes) (k : Nat) : endErr g (.conn k) = .conn k := by simp [endErr]

/-- Incomplete frame: the reader reports the end of the source and nothing else. -/
theorem readFrame_truncated (cfg : FrameReaderCfg) (s : Src) (id : UInt64) (c : UInt32) (f : UInt8) (p : Bytes)
    (k : Nat) (hk : k < (layout id c f p).length)
    (hp : 12 + p.length < 2 ^ 32) (ha : Admits cfg (12 + p.length))
    (hs : srcBytes s = (layout id c f p).take k) :
    ∃ s' g, readFrame cfg s = (.error (.read (endErr g (srcEnd s))), s') ∧
      (g = [] ↔ k = 0 ∨ k = 16) := by
  have hl := layout_length id c f p
  have hsl : (srcBytes s).length = k := by rw [hs, List.length_take]; omega
  by_cases h16 : k < 16
  · obtain ⟨s', e⟩ := readBytes_error 16 s (by omega)
    refine ⟨s', srcBytes s, by simp [readFrame, e], ?_⟩
    constructor
    · intro h; left; rw [h] at hsl; simpa using hsl.symm
    · intro h; apply List.eq_nil_of_length_eq_zero; omega
  · obtain ⟨s1, e1, e2, e3⟩ := readBytes_ok 16 s (by omega)
    have ht : (srcBytes s).take 16 = (layout id c f p).take 16 := by
      rw [hs, List.take_take, Nat.min_eq_left (by omega)]
    rw [ht] at e1
    have hs1l : (srcBytes s1).length = k - 16 := by rw [e2]; simp [hsl]
    cases p with
    | nil => simp at hl; omega
    | cons x xs =>
      obtain ⟨s', e⟩ := readBytes_error (x :: xs).length s1 (by omega)
      refine ⟨s', srcBytes s1, ?_, ?_⟩
      · unfold readFrame
        rw [e1]
        simp only [parseHeader_layout, checkSize_ok cfg _ hp ha]
        simp only [List.length_cons] at e ⊢
        rw [e, e3]
      · constructor
        · intro h; rw [h] at hs1l; simp at hs1l; omega
        · intro h; apply List.eq_nil_of_length_eq_zero; omega

end Qrpc
