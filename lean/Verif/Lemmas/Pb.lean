import Verif.Model.Pb
/-! # Lemmas about the protobuf encoding -/
namespace Qrpc

/-- Base-128 numbers, least significant group first. -/
def Spec.varint (n : Nat) : Bytes :=
  if n < 128 then [UInt8.ofNat n] else UInt8.ofNat (n % 128 + 128) :: Spec.varint (n / 128)
termination_by n

theorem Spec.varint_lt {n : Nat} (h : n < 128) : Spec.varint n = [UInt8.ofNat n] := by rw [Spec.varint, if_pos h]
theorem Spec.varint_ge {n : Nat} (h : ¬ n < 128) :
    Spec.varint n = UInt8.ofNat (n % 128 + 128) :: Spec.varint (n / 128) := by rw [Spec.varint, if_neg h]

theorem Spec.varint_ne_nil (n : Nat) : Spec.varint n ≠ [] := by
  rw [Spec.varint]; split <;> simp

theorem pb_acc {acc : UInt64} {shift x : Nat} {b : UInt8} (hb : b.toNat % 128 = x) (hs : shift < 64) (ha : acc.toNat < 2 ^ shift)
    (hx : x * 2 ^ shift < 2 ^ 64) :
    (acc ||| ((b.toUInt64 &&& 0x7f) <<< UInt64.ofNat shift)).toNat = acc.toNat + x * 2 ^ shift := by
  rw [UInt64.toNat_or, UInt64.toNat_shiftLeft, UInt64.toNat_and, UInt8.toNat_toUInt64]
  have h1 : (UInt64.ofNat shift).toNat = shift := by
    rw [UInt64.toNat_ofNat']; omega
  have h2 : b.toNat &&& (0x7f : UInt64).toNat = x := by
    rw [show (0x7f : UInt64).toNat = 2 ^ 7 - 1 from rfl, Nat.and_two_pow_sub_one_eq_mod]; exact hb
  rw [h1, h2, Nat.mod_eq_of_lt hs, Nat.shiftLeft_eq, Nat.mod_eq_of_lt hx, Nat.or_comm, Nat.mul_comm,
    ← Nat.two_pow_add_eq_or_of_lt ha]
  omega

theorem pbVarint_spec (n : Nat) : ∀ (rest : Bytes) (shift : Nat) (acc : UInt64), shift < 64 → acc.toNat < 2 ^ shift →
    n * 2 ^ shift < 2 ^ 64 →
    pbVarint (Spec.varint n ++ rest) shift acc = .ok (UInt64.ofNat (acc.toNat + n * 2 ^ shift), rest) := by
  induction n using Nat.strongRecOn with
  | _ n ih =>
    intro rest shift acc hs ha hn
    by_cases h : n < 128
    · rw [Spec.varint_lt h, List.singleton_append, pbVarint, if_neg (by omega)]
      have hb : (UInt8.ofNat n).toNat = n := by rw [UInt8.toNat_ofNat']; omega
      have h1 : UInt8.ofNat n < 0x80 := by
        rw [UInt8.lt_iff_toNat_lt, hb]; exact h
      simp only [h1, if_true]
      congr 2
      rw [← UInt64.toNat_inj, pb_acc (by rw [hb, Nat.mod_eq_of_lt h]) hs ha hn, UInt64.toNat_ofNat']
      have : n * 2 ^ shift + acc.toNat < 2 ^ 64 := by
        have h3 : (n + 1) * 2 ^ shift ≤ 2 ^ 64 := by
          have h5 : 2 ^ 64 = 2 ^ (64 - shift) * 2 ^ shift := by rw [← Nat.pow_add]; congr 1; omega
          rw [h5] at hn ⊢
          exact Nat.mul_le_mul_right _ (Nat.lt_of_mul_lt_mul_right hn)
        rw [Nat.add_mul] at h3; omega
      omega
    · rw [Spec.varint_ge h, List.cons_append, pbVarint, if_neg (by omega)]
      have hb : (UInt8.ofNat (n % 128 + 128)).toNat = n % 128 + 128 := by rw [UInt8.toNat_ofNat']; omega
      have h1 : ¬ UInt8.ofNat (n % 128 + 128) < 0x80 := by
        rw [UInt8.lt_iff_toNat_lt, hb]; simp
      simp only [h1, if_false]
      have hsplit : n * 2 ^ shift = (n % 128) * 2 ^ shift + n / 128 * 2 ^ (shift + 7) := by
        rw [Nat.pow_add, show (2 : Nat) ^ 7 = 128 from rfl, Nat.mul_comm (2 ^ shift) 128, ← Nat.mul_assoc, ← Nat.add_mul]
        congr 1; omega
      have hx : n % 128 * 2 ^ shift < 2 ^ 64 := by omega
      have h7 : shift + 7 < 64 := by
        apply Classical.byContradiction
        intro hge
        have h2 : 1 ≤ n / 128 := by omega
        have h3 : 2 ^ 64 ≤ 2 ^ (shift + 7) := Nat.pow_le_pow_right (by omega) (by omega)
        have h4 : 1 * 2 ^ (shift + 7) ≤ n / 128 * 2 ^ (shift + 7) := Nat.mul_le_mul_right _ h2
        omega
      have hacc := pb_acc (acc := acc) (shift := shift) (x := n % 128) (b := UInt8.ofNat (n % 128 + 128))
        (by rw [hb]; omega) hs ha hx
      rw [ih (n / 128) (by omega) rest (shift + 7) _ h7 _ (by omega), hacc]
      · congr 3; omega
      · rw [hacc, Nat.pow_add]
        have : n % 128 * 2 ^ shift ≤ 127 * 2 ^ shift := Nat.mul_le_mul_right _ (by omega)
        omega

theorem pbVarint_zero (n : Nat) (rest : Bytes) (hn : n < 2 ^ 64) :
    pbVarint (Spec.varint n ++ rest) 0 0 = .ok (UInt64.ofNat n, rest) := by
  have := pbVarint_spec n rest 0 0 (by omega) (by simp) (by simpa using hn)
  simpa using this

/-! ## Encoding -/

theorem sov_eq (fuel : Nat) : ∀ v : UInt64, v.toNat < 2 ^ (7 * fuel) → 0 < fuel → sov fuel v = (Spec.varint v.toNat).length := by
  induction fuel with
  | zero => intro v _ h; omega
  | succ fuel ih =>
    intro v hv _
    have h7 : (v >>> 7).toNat = v.toNat / 128 := by
      rw [UInt64.toNat_shiftRight, Nat.shiftRight_eq_div_pow]; rfl
    simp only [sov]
    by_cases h : v.toNat < 128
    · rw [Spec.varint_lt h]
      have : v >>> 7 = 0 := by rw [← UInt64.toNat_inj, h7]; simp; omega
      simp [this]
    · rw [Spec.varint_ge h]
      have : ¬ v >>> 7 = 0 := by rw [← UInt64.toNat_inj, h7]; simp; omega
      simp only [this, if_false, List.length_cons]
      have hf : 0 < fuel := by
        apply Nat.pos_of_ne_zero
        intro h0; subst h0; simp at hv; omega
      rw [ih _ (by rw [h7]; rw [Nat.mul_add, Nat.pow_add] at hv; omega) hf, h7]
      omega

/-- Writing the bytes `l` one after the other. -/
def PbBuf.bytes (s : PbBuf) (l : Bytes) : PbBuf := l.foldl PbBuf.byte s

theorem PbBuf.bytes_append (s : PbBuf) (a b : Bytes) : s.bytes (a ++ b) = (s.bytes a).bytes b := by
  simp [PbBuf.bytes, List.foldl_append]

theorem PbBuf.varint_bytes (fuel : Nat) : ∀ (s : PbBuf) (v : UInt64), v.toNat < 2 ^ (7 * (fuel + 1)) →
    PbBuf.varint fuel s v = s.bytes (Spec.varint v.toNat) := by
  induction fuel with
  | zero =>
    intro s v hv
    rw [PbBuf.varint, Spec.varint_lt (by simpa using hv)]
    simp only [PbBuf.bytes, List.foldl]
    congr 1
  | succ fuel ih =>
    intro s v hv
    rw [PbBuf.varint]
    by_cases h : v.toNat < 128
    · have h1 : ¬ v ≥ 128 := by
        intro hge
        have := UInt64.le_iff_toNat_le.mp hge
        simp at this; omega
      rw [if_neg h1, Spec.varint_lt h]
      simp only [PbBuf.bytes, List.foldl]
      congr 1
    · have h1 : v ≥ 128 := by
        show (128 : UInt64) ≤ v
        rw [UInt64.le_iff_toNat_le]; simp; omega
      have h7 : (v >>> 7).toNat = v.toNat / 128 := by
        rw [UInt64.toNat_shiftRight, Nat.shiftRight_eq_div_pow]; rfl
      rw [if_pos h1, Spec.varint_ge h, ih _ _ (by rw [h7]; rw [Nat.mul_add, Nat.pow_add] at hv; omega), h7]
      simp only [PbBuf.bytes, List.foldl]
      congr 2
      rw [← UInt8.toNat_inj, UInt64.toNat_toUInt8, UInt8.toNat_ofNat', UInt64.toNat_or, UInt64.toNat_and,
        show (0x7f : UInt64).toNat = 2 ^ 7 - 1 from rfl, Nat.and_two_pow_sub_one_eq_mod, show (0x80 : UInt64).toNat = 2 ^ 7 * 1 from rfl,
        Nat.or_comm, ← Nat.two_pow_add_eq_or_of_lt (Nat.mod_lt _ (by omega))]
      omega

/-- Writing into a buffer in which the bytes before `i` are `pre`. -/
theorem PbBuf.bytes_spec (l : Bytes) : ∀ (pre post : Bytes), l.length ≤ post.length →
    PbBuf.bytes (some (pre ++ post, pre.length)) l = some (pre ++ l ++ post.drop l.length, pre.length + l.length) := by
  induction l with
  | nil => intro pre post _; simp [PbBuf.bytes]
  | cons b l ih =>
    intro pre post h
    cases post with
    | nil => simp at h
    | cons p post =>
      have := ih (pre ++ [b]) post (by simpa using h)
      simp only [PbBuf.bytes, List.foldl, PbBuf.byte] at *
      rw [if_pos (by simp)]
      have h2 : (pre ++ p :: post).set pre.length b = pre ++ [b] ++ post := by simp
      rw [h2]
      simp only [List.length_append, List.length_cons, List.length_nil] at this
      rw [this]
      simp; omega

theorem PbBuf.copy_spec (l pre post : Bytes) (h : l.length ≤ post.length) :
    PbBuf.copy (some (pre ++ post, pre.length)) l = some (pre ++ l ++ post.drop l.length, pre.length + l.length) := by
  simp only [PbBuf.copy, List.length_append]
  rw [if_pos (by omega)]
  have : min (pre.length + post.length - pre.length) l.length = l.length := by omega
  simp only [this, List.take_length, putAt]
  simp [List.drop_append]

/-- A field on the wire. -/
def Spec.field (tag : UInt8) (b : Bytes) : Bytes := tag :: (Spec.varint b.length ++ b)

/-- The fields that Marshal writes: those that are not empty. -/
def Spec.optField (tag : UInt8) (b : Bytes) : Bytes := if b = [] then [] else Spec.field tag b

theorem sovField_eq (tag : UInt8) (b : Bytes) (h : b.length < 2 ^ 63) : sovField b = (Spec.optField tag b).length := by
  rw [sovField, Spec.optField]
  cases b with
  | nil => rfl
  | cons x b =>
    have h1 : (UInt64.ofNat (x :: b).length).toNat = (x :: b).length := by rw [UInt64.toNat_ofNat']; omega
    rw [if_pos (by simp), if_neg (by simp), sov_eq 10 _ (by rw [h1]; omega) (by omega), h1, Spec.field]
    simp only [List.length_cons, List.length_append]; omega

theorem PbBuf.field_spec (tag : UInt8) (b pre post : Bytes) (hb : b.length < 2 ^ 63)
    (h : (Spec.optField tag b).length ≤ post.length) :
    PbBuf.field (some (pre ++ post, pre.length)) tag b =
      some (pre ++ Spec.optField tag b ++ post.drop (Spec.optField tag b).length, pre.length + (Spec.optField tag b).length) := by
  rw [PbBuf.field]
  by_cases hn : b = []
  · subst hn; simp [Spec.optField]
  · have hpos : b.length > 0 := List.length_pos_iff.mpr hn
    have h1 : (UInt64.ofNat b.length).toNat = b.length := by rw [UInt64.toNat_ofNat']; omega
    simp only [Spec.optField, if_neg hn] at h ⊢
    rw [if_pos hpos, PbBuf.varint_bytes 9 _ _ (by rw [h1]; omega), h1]
    have h2 : PbBuf.byte (some (pre ++ post, pre.length)) tag = PbBuf.bytes (some (pre ++ post, pre.length)) [tag] := rfl
    rw [h2, ← PbBuf.bytes_append]
    simp only [Spec.field, List.length_cons, List.length_append] at h
    rw [PbBuf.bytes_spec _ _ _ (by simp; omega)]
    rw [← List.length_append, PbBuf.copy_spec _ _ _ (by simp; omega)]
    simp only [Spec.field, List.append_assoc, List.cons_append, List.length_append, List.length_cons,
      List.drop_drop, List.nil_append, List.length_nil, Nat.zero_add]
    have e1 : (Spec.varint b.length).length + 1 + b.length = (Spec.varint b.length).length + b.length + 1 := by omega
    have e2 : pre.length + ((Spec.varint b.length).length + 1) + b.length = pre.length + ((Spec.varint b.length).length + b.length + 1) := by
      omega
    rw [e1, e2]

/-- What a message looks like on the wire. -/
def Spec.encode (m : RpcReq) : Bytes :=
  Spec.optField 0x0a m.ns ++ Spec.optField 0x12 m.method ++ Spec.optField 0x1a m.params ++ m.unrec

structure RpcReq.Small (m : RpcReq) : Prop where
  ns : m.ns.length < 2 ^ 63
  method : m.method.length < 2 ^ 63
  params : m.params.length < 2 ^ 63

theorem RpcReq.size_eq {m : RpcReq} (h : m.Small) : m.size = (Spec.encode m).length := by
  rw [RpcReq.size, sovField_eq 0x0a _ h.ns, sovField_eq 0x12 _ h.method, sovField_eq 0x1a _ h.params]
  simp [Spec.encode, Nat.add_assoc]

theorem RpcReq.marshal_eq {m : RpcReq} (h : m.Small) : m.marshal = some (Spec.encode m) := by
  rw [RpcReq.marshal, RpcReq.size_eq h, RpcReq.marshalTo]
  generalize hbuf : List.replicate (Spec.encode m).length (0 : UInt8) = buf
  have hl : buf.length = (Spec.encode m).length := by rw [← hbuf]; simp
  simp only [Spec.encode, List.length_append] at hl
  have e0 : (some (buf, 0) : PbBuf) = some ([] ++ buf, ([] : Bytes).length) := rfl
  rw [e0, PbBuf.field_spec _ _ _ _ h.ns (by omega), ← List.length_append, PbBuf.field_spec _ _ _ _ h.method (by simp; omega),
    ← List.length_append, PbBuf.field_spec _ _ _ _ h.params (by simp; omega), ← List.length_append,
    PbBuf.copy_spec _ _ _ (by simp; omega)]
  simp only [Option.map_some, Option.some.injEq]
  rw [← List.length_append, List.take_left]
  simp [Spec.encode]

/-! ## Decoding -/

theorem wrap64_of {x : Int} (h0 : 0 ≤ x) (h1 : x < 2 ^ 63) : wrap64 x = x := by
  rw [wrap64]
  exact Int.bmod_eq_of_le (by simp; omega) (by simp; omega)

theorem toInt64_ofNat {n : Nat} (h : n < 2 ^ 63) : (UInt64.ofNat n).toInt64.toInt = n := by
  rw [UInt64.toInt64, Int64.toInt, Int64.toBitVec]
  simp only [UInt64.toBitVec_ofNat', BitVec.toInt_ofNat']
  exact Int.bmod_eq_of_le (by simp) (by simp; omega)

theorem pbBytes_spec (l pos : Nat) (b rest : Bytes) (hl : l < 2 ^ 63)
    (h : pos + (Spec.varint b.length ++ b ++ rest).length = l) :
    pbBytes l pos (Spec.varint b.length ++ b ++ rest) = .ok (b, pos + (Spec.varint b.length).length + b.length, rest) := by
  simp only [List.length_append] at h
  rw [pbBytes, List.append_assoc, pbVarint_zero _ _ (by omega)]
  simp only [toInt64_ofNat (n := b.length) (by omega), List.length_append]
  have e : pos + ((Spec.varint b.length).length + (b.length + rest.length) - (b.length + rest.length)) =
    pos + (Spec.varint b.length).length := by omega
  rw [e]
  have hw : wrap64 (((pos + (Spec.varint b.length).length : Nat) : Int) + (b.length : Int)) =
      ((pos + (Spec.varint b.length).length + b.length : Nat) : Int) := by
    rw [wrap64_of (by omega) (by omega)]; omega
  rw [hw, if_neg (by omega), if_neg (by omega), if_neg (by omega)]
  have e2 : (((pos + (Spec.varint b.length).length + b.length : Nat) : Int)).toNat - (pos + (Spec.varint b.length).length) = b.length := by
    omega
  rw [e2, List.take_left, List.drop_left, Int.toNat_natCast]

/-- The three fields. -/
inductive Spec.PbField where
  | ns | method | params
deriving DecidableEq, Repr

def Spec.PbField.tag : Spec.PbField → UInt8
  | .ns => 0x0a | .method => 0x12 | .params => 0x1a

def Spec.PbField.num : Spec.PbField → Int
  | .ns => 1 | .method => 2 | .params => 3

def Spec.PbField.put (m : RpcReq) (b : Bytes) : Spec.PbField → RpcReq
  | .ns => { m with ns := b } | .method => { m with method := b } | .params => { m with params := b }

/-- Fields on the wire, in any order and any number. -/
def Spec.encodeFields (fs : List (Spec.PbField × Bytes)) : Bytes := (fs.map fun f => Spec.field f.1.tag f.2).flatten

/-- What they mean: the last one of each counts. -/
def Spec.putAll (m : RpcReq) (fs : List (Spec.PbField × Bytes)) : RpcReq := fs.foldl (fun m f => f.1.put m f.2) m

theorem pbVarint_tag (f : Spec.PbField) (rest : Bytes) :
    pbVarint (f.tag :: rest) 0 0 = .ok (f.tag.toUInt64, rest) := by
  cases f
  · exact pbVarint_zero 10 rest (by omega) ▸ by rw [Spec.varint_lt (by omega)]; rfl
  · exact pbVarint_zero 18 rest (by omega) ▸ by rw [Spec.varint_lt (by omega)]; rfl
  · exact pbVarint_zero 26 rest (by omega) ▸ by rw [Spec.varint_lt (by omega)]; rfl

theorem pbLoop_fields (stack l : Nat) (hl : l < 2 ^ 63) (fs : List (Spec.PbField × Bytes)) : ∀ (fuel : Nat) (m : RpcReq) (pos : Nat),
    pos + (Spec.encodeFields fs).length = l → fs.length ≤ fuel →
    pbLoop stack l fuel m pos (Spec.encodeFields fs) = .ok (Spec.putAll m fs) := by
  induction fs with
  | nil =>
    intro fuel m pos h hf
    simp only [Spec.encodeFields, List.map_nil, List.flatten_nil, List.length_nil] at h ⊢
    cases fuel with
    | zero => rfl
    | succ fuel => rw [pbLoop, if_pos (by omega)]; rfl
  | cons f fs ih =>
    intro fuel m pos h hf
    cases fuel with
    | zero => simp at hf
    | succ fuel =>
      have e : Spec.encodeFields (f :: fs) = f.1.tag :: (Spec.varint f.2.length ++ f.2 ++ Spec.encodeFields fs) := by
        simp [Spec.encodeFields, Spec.field]
      rw [e] at h ⊢
      simp only [List.length_cons] at h hf
      rw [pbLoop, if_neg (by omega), pbVarint_tag]
      simp only [List.length_cons]
      have e1 : pos + ((Spec.varint f.2.length ++ f.2 ++ Spec.encodeFields fs).length + 1 -
        (Spec.varint f.2.length ++ f.2 ++ Spec.encodeFields fs).length) = pos + 1 := by omega
      rw [e1, pbBytes_spec l (pos + 1) f.2 _ hl (by omega)]
      have hrec : ∀ m', pbLoop stack l fuel m' (pos + 1 + (Spec.varint f.2.length).length + f.2.length) (Spec.encodeFields fs) =
          .ok (Spec.putAll m' fs) := fun m' => ih fuel m' _ (by simp only [List.length_append] at h; omega) (by omega)
      obtain ⟨f, b⟩ := f
      have hw : f.tag.toUInt64 &&& 7 = 2 := by cases f <;> decide
      have hn : (f.tag.toUInt64 >>> 3).toUInt32.toInt32.toInt = f.num := by cases f <;> decide
      simp only [hw, hn] at *
      cases f
      · exact hrec { m with ns := b }
      · exact hrec { m with method := b }
      · exact hrec { m with params := b }

theorem encodeFields_length (fs : List (Spec.PbField × Bytes)) : fs.length ≤ (Spec.encodeFields fs).length := by
  induction fs with
  | nil => simp
  | cons f fs ih =>
    simp only [Spec.encodeFields, Spec.field, List.map_cons, List.flatten_cons, List.length_append, List.length_cons] at *
    omega

theorem pbUnmarshal_fields (stack : Nat) (fs : List (Spec.PbField × Bytes)) (h : (Spec.encodeFields fs).length < 2 ^ 63) :
    pbUnmarshal stack (Spec.encodeFields fs) = .ok (Spec.putAll .zero fs) := by
  rw [pbUnmarshal]
  exact pbLoop_fields stack _ h fs _ _ 0 (by omega) (encodeFields_length fs)

end Qrpc
