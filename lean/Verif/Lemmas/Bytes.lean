import Verif.Spec.Wire
/-! Big-endian facts. -/
namespace Qrpc
open Spec

theorem or_shl (x b k : Nat) (h : x < 2 ^ k) : x ||| (b * 2 ^ k) = x + b * 2 ^ k := by
  rw [Nat.or_comm, ← Nat.shiftLeft_eq, ← Nat.shiftLeft_add_eq_or_of_lt h]; omega

theorem getUint32_toNat (b0 b1 b2 b3 : UInt8) (r : Bytes) :
    (getUint32 (b0 :: b1 :: b2 :: b3 :: r)).toNat =
      b3.toNat + b2.toNat * 2 ^ 8 + b1.toNat * 2 ^ 16 + b0.toNat * 2 ^ 24 := by
  have h0 := b0.toNat_lt; have h1 := b1.toNat_lt; have h2 := b2.toNat_lt; have h3 := b3.toNat_lt
  simp only [getUint32, UInt32.toNat_or, UInt32.toNat_shiftLeft, Nat.shiftLeft_eq, UInt8.toNat_toUInt32]
  simp only [UInt32.reduceToNat, Nat.reduceMod]
  rw [Nat.mod_eq_of_lt (show b2.toNat * 2 ^ 8 < 2 ^ 32 by omega),
    Nat.mod_eq_of_lt (show b1.toNat * 2 ^ 16 < 2 ^ 32 by omega),
    Nat.mod_eq_of_lt (show b0.toNat * 2 ^ 24 < 2 ^ 32 by omega)]
  rw [or_shl b3.toNat b2.toNat 8 (by omega)]
  rw [or_shl _ b1.toNat 16 (by omega)]
  rw [or_shl _ b0.toNat 24 (by omega)]

theorem getUint64_toNat (b0 b1 b2 b3 b4 b5 b6 b7 : UInt8) (r : Bytes) :
    (getUint64 (b0 :: b1 :: b2 :: b3 :: b4 :: b5 :: b6 :: b7 :: r)).toNat =
      b7.toNat + b6.toNat * 2 ^ 8 + b5.toNat * 2 ^ 16 + b4.toNat * 2 ^ 24 +
      b3.toNat * 2 ^ 32 + b2.toNat * 2 ^ 40 + b1.toNat * 2 ^ 48 + b0.toNat * 2 ^ 56 := by
  have h0 := b0.toNat_lt; have h1 := b1.toNat_lt; have h2 := b2.toNat_lt; have h3 := b3.toNat_lt
  have h4 := b4.toNat_lt; have h5 := b5.toNat_lt; have h6 := b6.toNat_lt; have h7 := b7.toNat_lt
  simp only [getUint64, UInt64.toNat_or, UInt64.toNat_shiftLeft, Nat.shiftLeft_eq, UInt8.toNat_toUInt64]
  simp only [UInt64.reduceToNat, Nat.reduceMod]
  rw [Nat.mod_eq_of_lt (show b6.toNat * 2 ^ 8 < 2 ^ 64 by omega),
    Nat.mod_eq_of_lt (show b5.toNat * 2 ^ 16 < 2 ^ 64 by omega),
    Nat.mod_eq_of_lt (show b4.toNat * 2 ^ 24 < 2 ^ 64 by omega),
    Nat.mod_eq_of_lt (show b3.toNat * 2 ^ 32 < 2 ^ 64 by omega),
    Nat.mod_eq_of_lt (show b2.toNat * 2 ^ 40 < 2 ^ 64 by omega),
    Nat.mod_eq_of_lt (show b1.toNat * 2 ^ 48 < 2 ^ 64 by omega),
    Nat.mod_eq_of_lt (show b0.toNat * 2 ^ 56 < 2 ^ 64 by omega)]
  rw [or_shl b7.toNat b6.toNat 8 (by omega)]
  rw [or_shl _ b5.toNat 16 (by omega)]
  rw [or_shl _ b4.toNat 24 (by omega)]
  rw [or_shl _ b3.toNat 32 (by omega)]
  rw [or_shl _ b2.toNat 40 (by omega)]
  rw [or_shl _ b1.toNat 48 (by omega)]
  rw [or_shl _ b0.toNat 56 (by omega)]

theorem be_length (n v : Nat) : (be n v).length = n := by
  induction n generalizing v with
  | zero => rfl
  | succ n ih => simp [be, ih]

theorem putUint32_be (v : UInt32) : putUint32 v = be 4 v.toNat := by
  simp only [putUint32, be, List.cons.injEq]
  refine ⟨?_, ?_, ?_, ?_, trivial⟩ <;>
    (apply UInt8.toNat_inj.mp; simp [Nat.shiftRight_eq_div_pow])

theorem putUint64_be (v : UInt64) : putUint64 v = be 8 v.toNat := by
  simp only [putUint64, be, List.cons.injEq]
  refine ⟨?_, ?_, ?_, ?_, ?_, ?_, ?_, ?_, trivial⟩ <;>
    (apply UInt8.toNat_inj.mp; simp [Nat.shiftRight_eq_div_pow])

theorem getUint32_be (v : Nat) (r : Bytes) : getUint32 (be 4 v ++ r) = UInt32.ofNat v := by
  apply UInt32.toNat_inj.mp
  simp only [be, List.cons_append, List.nil_append]
  rw [getUint32_toNat]
  simp only [UInt8.toNat_ofNat', UInt32.toNat_ofNat']
  omega

theorem getUint64_be (v : Nat) (r : Bytes) : getUint64 (be 8 v ++ r) = UInt64.ofNat v := by
  apply UInt64.toNat_inj.mp
  simp only [be, List.cons_append, List.nil_append]
  rw [getUint64_toNat]
  simp only [UInt8.toNat_ofNat', UInt64.toNat_ofNat']
  omega

theorem getUint32_put (v : UInt32) (r : Bytes) : getUint32 (putUint32 v ++ r) = v := by
  rw [putUint32_be, getUint32_be]; simp

theorem getUint64_put (v : UInt64) (r : Bytes) : getUint64 (putUint64 v ++ r) = v := by
  rw [putUint64_be, getUint64_be]; simp

theorem putAt_length (b : Bytes) (o : Nat) (v : Bytes) (h : o + v.length ≤ b.length) :
    (putAt b o v).length = b.length := by
  simp [putAt]; omega

end Qrpc
