import Verif.Lemmas.WriteFrame
/-! # C04: size limits -/
namespace Qrpc
open Spec

theorem getUint32_of_take {b : Bytes} {size : Nat} (h : b.take 4 = be 4 size) :
    getUint32 b = UInt32.ofNat size := by
  have : b = be 4 size ++ b.drop 4 := by rw [← h, List.take_append_drop]
  rw [this, getUint32_be]

theorem readFrame_header (cfg : FrameReaderCfg) (s : Src) (size : Nat) (hsz : size < 2 ^ 32)
    (hh : (srcBytes s).take 4 = be 4 size) (h16 : 16 ≤ (srcBytes s).length) :
    ∃ s1 hdr, readBytes 16 s = (.ok hdr, s1) ∧ (parseHeader hdr).size.toNat = size ∧
      srcBytes s1 = (srcBytes s).drop 16 ∧ srcEnd s1 = srcEnd s := by
  obtain ⟨s1, e1, e2, e3⟩ := readBytes_ok 16 s h16
  refine ⟨s1, _, e1, ?_, e2, e3⟩
  have : getUint32 ((srcBytes s).take 16) = UInt32.ofNat size := by
    apply getUint32_of_take; rw [List.take_take]; simpa using hh
  simp only [parseHeader, this, UInt32.toNat_ofNat']
  omega

/-- **C04**, rejection. With a positive maximum (below 2^32), a header announcing more than the maximum is rejected with
`ErrFrameTooLarge`, one announcing less than 12 with `ErrInvalidFrameSize`; exactly the 16 header bytes have been
consumed. -/
theorem C04_reject (cfg : FrameReaderCfg) (hpos : 0 < cfg.maxFrameSize) (hmax : cfg.maxFrameSize < 2 ^ 32)
    (s : Src) (size : Nat) (hsz : size < 2 ^ 32) (hh : (srcBytes s).take 4 = be 4 size)
    (h16 : 16 ≤ (srcBytes s).length) :
    (cfg.maxFrameSize < size →
      (readFrame cfg s).1 = .error .tooLarge ∧ srcBytes (readFrame cfg s).2 = (srcBytes s).drop 16) ∧
    (size ≤ cfg.maxFrameSize → size < 12 →
      (readFrame cfg s).1 = .error .invalidSize ∧ srcBytes (readFrame cfg s).2 = (srcBytes s).drop 16) := by
  obtain ⟨s1, hdr, e1, e2, e3, _⟩ := readFrame_header cfg s size hsz hh h16
  have hm : (UInt32.ofNat cfg.maxFrameSize.toNat).toNat = cfg.maxFrameSize.toNat := by
    rw [UInt32.toNat_ofNat']; omega
  constructor
  · intro hgt
    have hc : checkSize cfg (parseHeader hdr).size = .error .tooLarge := by
      unfold checkSize
      rw [if_pos]
      refine ⟨hpos, ?_⟩
      rw [gt_iff_lt, UInt32.lt_iff_toNat_lt, hm, e2]; omega
    simp [readFrame, e1, hc, e3]
  · intro hle hlt
    have hc : checkSize cfg (parseHeader hdr).size = .error .invalidSize := by
      unfold checkSize
      rw [if_neg, if_pos]
      · rw [UInt32.lt_iff_toNat_lt, e2]; simpa using hlt
      · rintro ⟨_, h⟩
        rw [gt_iff_lt, UInt32.lt_iff_toNat_lt, hm, e2] at h; omega
    simp [readFrame, e1, hc, e3]

/-- **C04**, acceptance. A header announcing between 12 and the maximum never causes a size error, and once the payload
bytes are there the only possible errors come from the codec. -/
theorem C04_accept (cfg : FrameReaderCfg) (hmax : cfg.maxFrameSize < 2 ^ 32)
    (s : Src) (size : Nat) (hsz : size < 2 ^ 32) (hh : (srcBytes s).take 4 = be 4 size)
    (h12 : 12 ≤ size) (hle : 0 < cfg.maxFrameSize → size ≤ cfg.maxFrameSize)
    (hbytes : 4 + size ≤ (srcBytes s).length) :
    srcBytes (readFrame cfg s).2 = (srcBytes s).drop (4 + size) ∧
    ((∃ f, (readFrame cfg s).1 = .ok f) ∨
      (cfg.codec = none ∧ (readFrame cfg s).1 = .error .noCodec) ∨
      (∃ c p, cfg.codec = some c ∧ c.decode p = none ∧ (readFrame cfg s).1 = .error .codec)) := by
  obtain ⟨s1, hdr, e1, e2, e3, _⟩ := readFrame_header cfg s size hsz hh (by omega)
  have hc : checkSize cfg (parseHeader hdr).size = .ok (size - 12) := by
    have : (parseHeader hdr).size = UInt32.ofNat (12 + (size - 12)) := by
      apply UInt32.toNat_inj.mp; rw [e2, UInt32.toNat_ofNat']; omega
    rw [this]
    apply checkSize_ok _ _ (by omega)
    by_cases h : 0 < cfg.maxFrameSize
    · right
      have := hle h
      rw [Nat.mod_eq_of_lt (by omega)]; omega
    · left; omega
  unfold readFrame
  simp only [e1, hc]
  by_cases h0 : size - 12 = 0
  · rw [h0]
    exact ⟨by show srcBytes s1 = _; rw [e3]; congr 1; omega, Or.inl ⟨_, rfl⟩⟩
  · obtain ⟨n, hn⟩ : ∃ n, size - 12 = n + 1 := ⟨size - 12 - 1, by omega⟩
    rw [hn]
    obtain ⟨s2, r1, r2, _⟩ := readBytes_ok (n + 1) s1 (by rw [e3]; simp; omega)
    have hd : srcBytes s2 = (srcBytes s).drop (4 + size) := by
      rw [r2, e3, List.drop_drop]; congr 1; omega
    simp only [r1]
    split
    · split
      · next h => exact ⟨hd, Or.inr (Or.inl ⟨h, rfl⟩)⟩
      · next c h =>
        split
        · next hdec => exact ⟨hd, Or.inr (Or.inr ⟨c, _, h, hdec, rfl⟩)⟩
        · exact ⟨hd, Or.inl ⟨_, rfl⟩⟩
    · exact ⟨hd, Or.inl ⟨_, rfl⟩⟩

/-- Its hypotheses: a frame of 13 bytes, in two pieces, with a byte more. -/
example : ∃ s : Src, (srcBytes s).take 4 = be 4 13 ∧ 4 + 13 ≤ (srcBytes s).length :=
  ⟨⟨[], [.data (be 4 13), .data (List.replicate 14 0)]⟩, by decide⟩

/-- **C04**, allocation. The payload buffer a server connection allocates (the `ok` of `checkSize`, passed to `make`) is
at most the effective maximum minus 12, which is 10 MiB - 12 when the binding sets none. -/
theorem C04_alloc (bindingMax : Int) (hmax : bindingMax < 2 ^ 32) (codec : Option Codec) (size : UInt32) (n : Nat)
    (h : checkSize (serveReaderCfg bindingMax codec) size = .ok n) :
    (n : Int) + 12 ≤ (if 0 < bindingMax then bindingMax else 10485760) := by
  unfold checkSize at h
  split at h
  · simp at h
  · next hn =>
    split at h
    · simp at h
    · next h12 =>
      simp only [Except.ok.injEq] at h
      have hle : ¬ size < 12 := h12
      rw [UInt32.lt_iff_toNat_lt] at hle
      simp only [UInt32.reduceToNat] at hle
      rw [UInt32.toNat_sub_of_le _ _ (by rw [UInt32.le_iff_toNat_le]; simp; omega)] at h
      simp only [UInt32.reduceToNat] at h
      have hpos : (serveReaderCfg bindingMax codec).maxFrameSize > 0 := by
        unfold serveReaderCfg defaultMaxFrameSize; simp only; split <;> omega
      have hlt : (serveReaderCfg bindingMax codec).maxFrameSize < 2 ^ 32 := by
        unfold serveReaderCfg defaultMaxFrameSize; simp only; split <;> omega
      have hsz : ¬ size > UInt32.ofNat (serveReaderCfg bindingMax codec).maxFrameSize.toNat := fun hh => hn ⟨hpos, hh⟩
      rw [gt_iff_lt, UInt32.lt_iff_toNat_lt, UInt32.toNat_ofNat'] at hsz
      have he : (serveReaderCfg bindingMax codec).maxFrameSize = (if 0 < bindingMax then bindingMax else 10485760) := by
        unfold serveReaderCfg defaultMaxFrameSize; simp
      rw [← he]; omega

/-- Concrete cases: the default server accepts 10 MiB, rejects 10 MiB + 1, rejects 11. -/
example : checkSize (serveReaderCfg 0 none) 10485760 = .ok 10485748 ∧
    checkSize (serveReaderCfg 0 none) 10485761 = .error .tooLarge ∧
    checkSize (serveReaderCfg 0 none) 11 = .error .invalidSize ∧
    checkSize (clientReaderCfg none) 0xffffffff = .ok 4294967283 := by
  refine ⟨by rfl, by rfl, by rfl, by rfl⟩

example : ∃ s : Src, (srcBytes s).take 4 = be 4 99 ∧ 16 ≤ (srcBytes s).length :=
  ⟨⟨[], [.data (be 4 99), .data (List.replicate 12 0)]⟩, by decide⟩

/-- **C04 fails for maxima of 2^32 and more**: the comparison is made after truncating the maximum to 32 bits
(framereader.go:98), so a server configured with `MaxFrameSize = 1<<32` rejects every frame, e.g. the smallest one. -/
theorem C04_refuted_large_max :
    ∃ (bindingMax : Int) (size : UInt32), 12 ≤ size.toNat ∧ (size.toNat : Int) ≤ bindingMax ∧
      checkSize (serveReaderCfg bindingMax none) size = .error .tooLarge :=
  ⟨2 ^ 32, 12, by decide, by decide, by rfl⟩

end Qrpc
