import Verif.Lemmas.Reader
/-! Header layout of the writer and parsing by the reader. -/
namespace Qrpc
open Spec

/-- A buffer of at least 16 bytes, spelled out. -/
theorem exists16 (w : Bytes) (h : 16 ≤ w.length) :
    ∃ a0 a1 a2 a3 a4 a5 a6 a7 a8 a9 a10 a11 a12 a13 a14 a15 r,
      w = a0 :: a1 :: a2 :: a3 :: a4 :: a5 :: a6 :: a7 :: a8 :: a9 :: a10 :: a11 :: a12 :: a13 :: a14 :: a15 :: r := by
  match w, h with
  | a0 :: a1 :: a2 :: a3 :: a4 :: a5 :: a6 :: a7 :: a8 :: a9 :: a10 :: a11 :: a12 :: a13 :: a14 :: a15 :: r, _ =>
    exact ⟨a0, a1, a2, a3, a4, a5, a6, a7, a8, a9, a10, a11, a12, a13, a14, a15, r, rfl⟩

theorem and_ffffff (c : UInt32) : (c &&& (0xffffff : UInt32)).toNat = c.toNat % 2 ^ 24 := by
  rw [UInt32.toNat_and]
  exact Nat.and_two_pow_sub_one_eq_mod c.toNat 24

/-- `uint32(flags)<<24 + uint32(cmd)&0xffffff` (framewriter.go:53) as a number. -/
theorem cmdAndFlags_toNat (f : UInt8) (c : UInt32) :
    ((f.toUInt32 <<< 24) + (c &&& (0xffffff : UInt32))).toNat = f.toNat * 2 ^ 24 + c.toNat % 2 ^ 24 := by
  have hf := f.toNat_lt
  rw [UInt32.toNat_add, and_ffffff, UInt32.toNat_shiftLeft, Nat.shiftLeft_eq, UInt8.toNat_toUInt32]
  simp only [UInt32.reduceToNat, Nat.reduceMod]
  omega

theorem putUint32_cmdAndFlags (f : UInt8) (c : UInt32) :
    putUint32 ((f.toUInt32 <<< 24) + (c &&& (0xffffff : UInt32))) = f :: be 3 c.toNat := by
  have hf := f.toNat_lt
  rw [putUint32_be, cmdAndFlags_toNat]
  simp only [be, List.cons.injEq]
  refine ⟨?_, ?_, ?_, ?_, trivial⟩ <;>
    (apply UInt8.toNat_inj.mp; simp only [UInt8.toNat_ofNat']; omega)

namespace DFW

theorem startWrite_wbuf (d : DFW) (id : UInt64) (c : Cmd) (f : FrameFlag) (h : 16 ≤ d.wbuf.length) :
    (d.startWrite id c f).wbuf = d.wbuf.take 4 ++ (be 8 id.toNat ++ (f :: (be 3 c.toNat ++ d.wbuf.drop 16))) := by
  unfold startWrite
  simp only [putUint32_cmdAndFlags, putUint64_be]
  obtain ⟨a0, a1, a2, a3, a4, a5, a6, a7, a8, a9, a10, a11, a12, a13, a14, a15, r, hw⟩ := exists16 _ h
  rw [hw]; simp [putAt, be]

theorem startWrite_length (d : DFW) (id : UInt64) (c : Cmd) (f : FrameFlag) (h : 16 ≤ d.wbuf.length) :
    (d.startWrite id c f).wbuf.length = d.wbuf.length := by
  rw [startWrite_wbuf d id c f h]; simp [be_length]; omega

theorem startWrite_payload (d : DFW) (id : UInt64) (c : Cmd) (f : FrameFlag) (h : 16 ≤ d.wbuf.length) :
    (d.startWrite id c f).payload = d.payload := by
  unfold payload; rw [startWrite_wbuf d id c f h]
  obtain ⟨a0, a1, a2, a3, a4, a5, a6, a7, a8, a9, a10, a11, a12, a13, a14, a15, r, hw⟩ := exists16 _ h
  rw [hw]; simp [be]

theorem startWrite_flags (d : DFW) (id : UInt64) (c : Cmd) (f : FrameFlag) (h : 16 ≤ d.wbuf.length) :
    (d.startWrite id c f).flags = f := by
  unfold flags; rw [startWrite_wbuf d id c f h]
  obtain ⟨a0, a1, a2, a3, a4, a5, a6, a7, a8, a9, a10, a11, a12, a13, a14, a15, r, hw⟩ := exists16 _ h
  rw [hw]; simp [be]

/-- The header fields a writer currently holds: request id, command, flags (payload = the rest). -/
def Holds (d : DFW) (id : UInt64) (c : Cmd) (f : FrameFlag) : Prop :=
  ∃ l4, l4.length = 4 ∧ d.wbuf = l4 ++ (be 8 id.toNat ++ (f :: (be 3 c.toNat ++ d.payload)))

theorem Holds.len {d : DFW} {id c f} (h : d.Holds id c f) : 16 ≤ d.wbuf.length := by
  obtain ⟨l4, h4, hw⟩ := h; rw [hw]; simp [be_length, h4]; omega

theorem startWrite_holds (d : DFW) (id : UInt64) (c : Cmd) (f : FrameFlag) (h : 16 ≤ d.wbuf.length) :
    (d.startWrite id c f).Holds id c f := by
  refine ⟨d.wbuf.take 4, by simp; omega, ?_⟩
  rw [startWrite_payload d id c f h]; exact startWrite_wbuf d id c f h

theorem Holds.flags_eq {d : DFW} {id c f} (h : d.Holds id c f) : d.flags = f := by
  obtain ⟨l4, h4, hw⟩ := h
  match l4, h4 with
  | [a, b, c', e], _ => unfold flags; rw [hw]; simp [be]

theorem Holds.requestID_eq {d : DFW} {id c f} (h : d.Holds id c f) : d.requestID = id := by
  obtain ⟨l4, h4, hw⟩ := h
  match l4, h4 with
  | [a, b, c', e], _ =>
    unfold requestID; rw [hw]
    simp only [List.cons_append, List.nil_append, List.drop_succ_cons, List.drop_zero]
    rw [getUint64_be]; simp

theorem Holds.cmd_eq {d : DFW} {id c f} (h : d.Holds id c f) : d.cmd.toNat = c.toNat % 2 ^ 24 := by
  obtain ⟨l4, h4, hw⟩ := h
  match l4, h4 with
  | [a, b, c', e], _ =>
    unfold cmd; rw [hw]
    simp only [be, List.cons_append, List.nil_append, List.getD_cons_succ, List.getD_cons_zero]
    have key : ∀ x y z : UInt8, ((x.toUInt32 <<< 16) ||| (y.toUInt32 <<< 8) ||| z.toUInt32).toNat =
        x.toNat * 2 ^ 16 + y.toNat * 2 ^ 8 + z.toNat := by
      intro x y z
      have hx := x.toNat_lt; have hy := y.toNat_lt; have hz := z.toNat_lt
      simp only [UInt32.toNat_or, UInt32.toNat_shiftLeft, Nat.shiftLeft_eq, UInt8.toNat_toUInt32]
      simp only [UInt32.reduceToNat, Nat.reduceMod]
      rw [Nat.mod_eq_of_lt (show y.toNat * 2 ^ 8 < 2 ^ 32 by omega),
        Nat.mod_eq_of_lt (show x.toNat * 2 ^ 16 < 2 ^ 32 by omega)]
      rw [Nat.or_assoc, Nat.or_comm, Nat.or_comm (y.toNat * 2 ^ 8)]
      rw [or_shl z.toNat y.toNat 8 (by omega)]
      rw [or_shl _ x.toNat 16 (by omega)]; omega
    rw [key]
    simp only [UInt8.toNat_ofNat']
    omega

theorem Holds.setFlags {d : DFW} {id c f} (h : d.Holds id c f) (f' : FrameFlag) :
    (d.setFlags f').Holds id c f' ∧ (d.setFlags f').payload = d.payload := by
  obtain ⟨l4, h4, hw⟩ := h
  match l4, h4 with
  | [a, b, c', e], _ =>
    have hp : (d.setFlags f').payload = d.payload := by
      unfold DFW.setFlags payload; rw [hw]; simp [putAt, be]
    refine ⟨⟨[a, b, c', e], rfl, ?_⟩, hp⟩
    rw [hp]; unfold DFW.setFlags; simp only []
    generalize d.payload = p at hw
    rw [hw]; simp [putAt, be]

theorem Holds.setCmd {d : DFW} {id c f} (h : d.Holds id c f) (c' : Cmd) :
    (d.setCmd c').Holds id c' f ∧ (d.setCmd c').payload = d.payload := by
  obtain ⟨l4, h4, hw⟩ := h
  have hb : ([(c' >>> 16).toUInt8, (c' >>> 8).toUInt8, c'.toUInt8] : Bytes) = be 3 c'.toNat := by
    simp only [be, List.cons.injEq]
    refine ⟨?_, ?_, ?_, trivial⟩ <;>
      (apply UInt8.toNat_inj.mp; simp [Nat.shiftRight_eq_div_pow])
  match l4, h4 with
  | [a, b, c'', e], _ =>
    have hp : (d.setCmd c').payload = d.payload := by
      unfold DFW.setCmd payload; rw [hw, hb]; simp [putAt, be]
    refine ⟨⟨[a, b, c'', e], rfl, ?_⟩, hp⟩
    rw [hp]; unfold DFW.setCmd; simp only [hb]
    generalize d.payload = p at hw
    rw [hw]; simp [putAt, be]

theorem Holds.writeBytes {d : DFW} {id c f} (h : d.Holds id c f) (v : Bytes) :
    (d.writeBytes v).Holds id c f ∧ (d.writeBytes v).payload = d.payload ++ v := by
  have hl := h.len
  have hp : (d.writeBytes v).payload = d.payload ++ v := by
    simp [DFW.writeBytes, payload, List.drop_append, show 16 - d.wbuf.length = 0 by omega]
  obtain ⟨l4, h4, hw⟩ := h
  refine ⟨⟨l4, h4, ?_⟩, hp⟩
  rw [hp]; simp only [DFW.writeBytes]
  generalize d.payload = p at hw
  rw [hw]; simp

/-- Replacing the payload region (in-place encode, truncation). -/
theorem Holds.setPayload {d : DFW} {id c f} (h : d.Holds id c f) (p : Bytes) :
    ({ d with wbuf := d.wbuf.take 16 ++ p } : DFW).Holds id c f ∧
    ({ d with wbuf := d.wbuf.take 16 ++ p } : DFW).payload = p := by
  have hl := h.len
  have hp : ({ d with wbuf := d.wbuf.take 16 ++ p } : DFW).payload = p := by
    simp [payload, List.drop_append, show min 16 d.wbuf.length = 16 by omega]
  obtain ⟨l4, h4, hw⟩ := h
  refine ⟨⟨l4, h4, ?_⟩, hp⟩
  rw [hp]; simp only []
  match l4, h4 with
  | [a, b, c'', e], _ => rw [hw]; simp [be]

theorem ofNat_shift_be (n : Nat) :
    ([UInt8.ofNat (n >>> 24), UInt8.ofNat (n >>> 16), UInt8.ofNat (n >>> 8), UInt8.ofNat n] : Bytes) = be 4 n := by
  simp only [be, Nat.shiftRight_eq_div_pow]; simp

/-- The bytes `endWrite` submits are the documented layout of what the writer holds. -/
theorem Holds.endWriteRaw {ε} {d : DFW} {id c f} (h : d.Holds id c f) (write : DFW → Option ε) :
    ∃ sub, (d.endWriteRaw write).submitted = some sub ∧ sub.wbuf = layout id c f d.payload ∧
      sub.resp = d.resp ∧ sub.checkExist = d.checkExist ∧
      (d.endWriteRaw write).err = (write sub).map .write ∧
      (d.endWriteRaw write).dfw.Holds id c f ∧ (d.endWriteRaw write).dfw.payload = [] := by
  obtain ⟨l4, h4, hw⟩ := h
  refine ⟨d.fillLength, rfl, ?_, rfl, rfl, rfl, ?_⟩
  · have hlen : d.wbuf.length - 4 = 12 + d.payload.length := by rw [hw]; simp [be_length, h4]; omega
    simp only [fillLength, ofNat_shift_be, hlen, layout]
    generalize hq : d.payload = p at hw
    match l4, h4 with
    | [a, b, c'', e], _ => rw [hw]; simp [be, putAt]
  · have e : (d.endWriteRaw write).dfw.wbuf =
        be 4 (d.wbuf.length - 4) ++ (be 8 id.toNat ++ (f :: be 3 c.toNat)) := by
      simp only [DFW.endWriteRaw, fillLength, ofNat_shift_be]
      generalize d.wbuf.length - 4 = n
      match l4, h4 with
      | [a, b, c'', e], _ => rw [hw]; simp [be, putAt]
    have hp : (d.endWriteRaw write).dfw.payload = [] := by
      simp only [payload]; rw [e]; simp [be]
    exact ⟨⟨be 4 (d.wbuf.length - 4), by simp [be_length], by rw [hp, e]; simp⟩, hp⟩

end DFW

theorem parseHeader_layout (id : UInt64) (c : UInt32) (f : UInt8) (p : Bytes) :
    parseHeader ((layout id c f p).take 16) =
      { size := UInt32.ofNat (12 + p.length), requestID := id, cmd := UInt32.ofNat (c.toNat % 2 ^ 24), flags := f } := by
  have ht : (layout id c f p).take 16 =
      be 4 (12 + p.length) ++ (be 8 id.toNat ++ (f :: (be 3 c.toNat ++ []))) := by simp [layout, be]
  rw [ht]
  simp only [parseHeader]
  have h12 : (be 4 (12 + p.length) ++ (be 8 id.toNat ++ (f :: (be 3 c.toNat ++ [])))).drop 12 =
      putUint32 ((f.toUInt32 <<< 24) + (c &&& (0xffffff : UInt32))) ++ [] := by
    rw [putUint32_cmdAndFlags]; simp [be]
  have h4 : (be 4 (12 + p.length) ++ (be 8 id.toNat ++ (f :: (be 3 c.toNat ++ [])))).drop 4 =
      be 8 id.toNat ++ (f :: (be 3 c.toNat ++ [])) := by simp [be]
  rw [h12, h4, getUint32_put, getUint64_be, getUint32_be]
  have hf := f.toNat_lt
  congr 1
  · simp
  · apply UInt32.toNat_inj.mp
    rw [and_ffffff, cmdAndFlags_toNat, UInt32.toNat_ofNat']; omega
  · apply UInt8.toNat_inj.mp
    rw [UInt32.toNat_toUInt8, UInt32.toNat_shiftRight, cmdAndFlags_toNat, Nat.shiftRight_eq_div_pow]
    simp only [UInt32.reduceToNat, Nat.reduceMod]
    omega

end Qrpc
