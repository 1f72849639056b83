import Verif.Lemmas.Pb
/-! # C53, C54: encoding and decoding of RpcRequest -/
namespace Qrpc

/-! ## C53 -/

/-- **C53, size.** For every message (of lengths that fit in an `int`): Marshal does not panic, produces the wire format, and Size
is its exact length. -/
theorem C53_size {m : RpcReq} (h : m.Small) : m.marshal = some (Spec.encode m) ∧ m.size = (Spec.encode m).length :=
  ⟨RpcReq.marshal_eq h, RpcReq.size_eq h⟩

theorem encode_fields (m : RpcReq) (hu : m.unrec = []) : Spec.encode m = Spec.encodeFields
    ([(Spec.PbField.ns, m.ns), (.method, m.method), (.params, m.params)].filter (fun f => f.2 ≠ [])) := by
  simp only [Spec.encode, Spec.optField, hu, List.append_nil]
  by_cases h1 : m.ns = [] <;> by_cases h2 : m.method = [] <;> by_cases h3 : m.params = [] <;>
    simp [h1, h2, h3, Spec.encodeFields, Spec.PbField.tag]

/-- **C53, round trip.** For every request a client builds (namespace, method and parameters; no unrecognized bytes), of a total
size that fits in an `int`: decoding what Marshal produced gives the request back. -/
theorem C53 {m : RpcReq} (stack : Nat) (hu : m.unrec = []) (h : (Spec.encode m).length < 2 ^ 63) :
    ∃ d, m.marshal = some d ∧ pbUnmarshal stack d = .ok m := by
  have h' := h
  have hs : m.Small := by
    simp only [Spec.encode, List.length_append] at h
    have key : ∀ tag b, b.length ≤ (Spec.optField tag b).length := by
      intro tag b
      rw [Spec.optField]
      split
      · next h => simp [h]
      · simp [Spec.field]; omega
    have k1 := key 0x0a m.ns
    have k2 := key 0x12 m.method
    have k3 := key 0x1a m.params
    exact ⟨by omega, by omega, by omega⟩
  refine ⟨_, RpcReq.marshal_eq hs, ?_⟩
  rw [encode_fields m hu] at h' ⊢
  rw [pbUnmarshal_fields stack _ h']
  obtain ⟨a, b, c, u⟩ := m
  simp only at hu
  subst hu
  cases a <;> cases b <;> cases c <;> simp [Spec.putAll, Spec.PbField.put, RpcReq.zero]

/-- More generally, fields may come in any order and any number of times (as protobuf allows); the last one counts. -/
theorem C53_fields (stack : Nat) (fs : List (Spec.PbField × Bytes)) (h : (Spec.encodeFields fs).length < 2 ^ 63) :
    pbUnmarshal stack (Spec.encodeFields fs) = .ok (Spec.putAll .zero fs) := pbUnmarshal_fields stack fs h

def exRpc : RpcReq := { ns := [0x61], method := [0x62, 0x63], params := List.replicate 200 7, unrec := [] }
example : exRpc.unrec = [] ∧ exRpc.size = 210 ∧ (exRpc.marshal.map (pbUnmarshal 0)) = some (.ok exRpc) := by decide +kernel

/-! ## C54 -/

/-- **C54 is false of the code**: ten bytes, a namespace of declared length 2^63-1: the sum at line 223 overflows, passes the
comparison with the length and the slice expression panics. -/
theorem C54_refuted : pbUnmarshal 100 [0x0a, 0xff, 0xff, 0xff, 0xff, 0xff, 0xff, 0xff, 0xff, 0x7f] = .panic := by decide +kernel

/-- The same for an unknown field, through skipRpc (301), and inside a group (381). -/
theorem C54_refuted_unknown :
    pbUnmarshal 100 ([0x0a, 0] ++ [0x22, 0xfd, 0xff, 0xff, 0xff, 0xff, 0xff, 0xff, 0xff, 0x7f]) = .err .invalidLen ∧
    pbUnmarshal 100 ([0x0a, 0, 0x0a, 0, 0x0a, 0, 0x0a, 0, 0x0a, 0, 0x0a, 0] ++ [0x22, 0xf5, 0xff, 0xff, 0xff, 0xff, 0xff, 0xff, 0xff, 0x7f]) = .panic ∧
    pbUnmarshal 100 [0x23, 0x22, 0xff, 0xff, 0xff, 0xff, 0xff, 0xff, 0xff, 0xff, 0x7f] = .panic := by decide +kernel

theorem pbVarint_0x23 (rest : Bytes) : pbVarint (0x23 :: rest) 0 0 = .ok (0x23, rest) := by
  have := pbVarint_zero 0x23 rest (by omega)
  rw [Spec.varint_lt (by omega)] at this
  exact this

theorem pbSkip_deep (k : Nat) : ∀ n, k < n → pbSkip k (List.replicate n 0x23) = .fatal := by
  induction k with
  | zero => intro n _; rfl
  | succ k ih =>
    intro n hn
    obtain ⟨n, rfl⟩ : ∃ j, n = j + 2 := ⟨n - 2, by omega⟩
    rw [pbSkip, if_neg (by simp), List.replicate_succ, pbVarint_0x23]
    simp only [show ((0x23 : UInt64) &&& 7).toNat = 3 from by decide]
    rw [pbGroup, List.replicate_succ, pbVarint_0x23]
    simp only [show ¬ ((0x23 : UInt64) &&& 7) = 4 from by decide, if_false]
    rw [← List.replicate_succ, ih (n + 1) (by omega)]

/-- **C54 is false of the code**, worse: however large the stack, a message one byte longer than the number of calls that fit on
it - a run of start-group tags - exhausts it, which no `recover` can catch. -/
theorem C54_refuted_stack (stack : Nat) : pbUnmarshal stack (List.replicate (stack + 1) 0x23) = .fatal := by
  rw [pbUnmarshal, List.length_replicate, pbLoop, if_neg (by omega), List.replicate_succ, pbVarint_0x23]
  simp only [show ¬ ((0x23 : UInt64) &&& 7) = 4 from by decide, if_false,
    show ((0x23 : UInt64) >>> 3).toUInt32.toInt32.toInt = 4 from by decide]
  rw [← List.replicate_succ, pbSkip_deep stack (stack + 1) (by omega)]
  rfl

/-- No eight consecutive bytes with the high bit set, so that no varint reaches 2^56. -/
def NoRun (d : Bytes) : Prop := ∀ pre mid post, d = pre ++ mid ++ post → mid.length = 8 → ∃ b ∈ mid, b < 0x80

theorem NoRun.suffix {d pre post : Bytes} (h : NoRun d) (he : d = pre ++ post) : NoRun post := by
  intro a b c h1 h2
  exact h (pre ++ a) b c (by rw [he, h1]; simp) h2

theorem pbVarint_cases (d : Bytes) : ∀ (shift : Nat) (acc : UInt64), acc.toNat < 2 ^ shift →
    (∃ e, pbVarint d shift acc = .err e) ∨
    ∃ pre last rest v, d = pre ++ last :: rest ∧ (∀ b ∈ pre, ¬ b < 0x80) ∧ pbVarint d shift acc = .ok (v, rest) ∧
      (shift + 7 * (pre.length + 1) ≤ 63 → v.toNat < 2 ^ (shift + 7 * (pre.length + 1))) := by
  induction d with
  | nil =>
    intro shift acc _
    left; rw [pbVarint]; split
    · exact ⟨_, rfl⟩
    · exact ⟨_, rfl⟩
  | cons b d ih =>
    intro shift acc ha
    rw [pbVarint]
    split
    · exact .inl ⟨_, rfl⟩
    · next hs =>
      simp only []
      have hacc : shift + 7 ≤ 63 →
          (acc ||| ((b.toUInt64 &&& 0x7f) <<< UInt64.ofNat shift)).toNat < 2 ^ (shift + 7) := by
        intro h7
        have hlt : b.toNat % 128 * 2 ^ shift ≤ 127 * 2 ^ shift := Nat.mul_le_mul_right _ (by omega)
        have hp : 2 ^ (shift + 7) ≤ 2 ^ 63 := Nat.pow_le_pow_right (by omega) h7
        have he : 2 ^ (shift + 7) = 128 * 2 ^ shift := by rw [Nat.pow_add]; omega
        rw [pb_acc rfl (by omega) ha (by omega)]
        omega
      split
      · refine .inr ⟨[], b, d, _, rfl, by simp, rfl, ?_⟩
        simpa using hacc
      · next hb =>
        by_cases h7 : shift + 7 ≤ 63
        · rcases ih (shift + 7) _ (hacc h7) with ⟨e, h1⟩ | ⟨pre, last, rest, v, h1, h2, h3, h4⟩
          · exact .inl ⟨e, h1⟩
          · refine .inr ⟨b :: pre, last, rest, v, by rw [h1]; rfl, ?_, h3, ?_⟩
            · intro x hx
              rcases List.mem_cons.mp hx with rfl | hx
              · exact hb
              · exact h2 x hx
            · intro hle
              simp only [List.length_cons] at hle ⊢
              rw [show shift + 7 * (pre.length + 1 + 1) = shift + 7 + 7 * (pre.length + 1) by omega]
              exact h4 (by omega)
        · -- at most one more byte
          cases d with
          | nil => left; rw [pbVarint]; split <;> exact ⟨_, rfl⟩
          | cons c d =>
            rw [pbVarint]
            split
            · exact .inl ⟨_, rfl⟩
            · simp only []
              split
              · refine .inr ⟨[b], c, d, _, rfl, by simpa using hb, rfl, ?_⟩
                intro hle; simp at hle; omega
              · left
                rw [pbVarint.eq_def]; simp only []
                rw [if_pos (by omega)]; exact ⟨_, rfl⟩

theorem pbVarint_safe {d : Bytes} (h : NoRun d) :
    (∃ e, pbVarint d 0 0 = .err e) ∨
    ∃ pre rest v, d = pre ++ rest ∧ 0 < pre.length ∧ pbVarint d 0 0 = .ok (v, rest) ∧ v.toNat < 2 ^ 56 := by
  rcases pbVarint_cases d 0 0 (by simp) with h1 | ⟨pre, last, rest, v, h1, h2, h3, h4⟩
  · exact .inl h1
  · refine .inr ⟨pre ++ [last], rest, v, by simp [h1], by simp, h3, ?_⟩
    have h5 : pre.length ≤ 7 := by
      apply Classical.byContradiction
      intro h6
      obtain ⟨b, hb, hlt⟩ := h [] (pre.take 8) (pre.drop 8 ++ last :: rest) (by rw [h1, List.nil_append, ← List.append_assoc, List.take_append_drop]) (by simp; omega)
      exact h2 b (List.mem_of_mem_take hb) hlt
    have := h4 (by omega)
    have h6 : 2 ^ (0 + 7 * (pre.length + 1)) ≤ 2 ^ 56 := Nat.pow_le_pow_right (by omega) (by omega)
    omega

theorem pbSkipVarint_safe (d : Bytes) : ∀ shift, (∃ e, pbSkipVarint d shift = .err e) ∨
    ∃ pre rest, d = pre ++ rest ∧ 0 < pre.length ∧ pbSkipVarint d shift = .ok rest := by
  induction d with
  | nil => intro shift; left; rw [pbSkipVarint]; split <;> exact ⟨_, rfl⟩
  | cons b d ih =>
    intro shift
    rw [pbSkipVarint]
    split
    · exact .inl ⟨_, rfl⟩
    · split
      · exact .inr ⟨[b], d, rfl, by simp, rfl⟩
      · rcases ih (shift + 7) with h | ⟨pre, rest, h1, h2, h3⟩
        · exact .inl h
        · exact .inr ⟨b :: pre, rest, by simp [h1], by simp, h3⟩

theorem toInt64_small {v : UInt64} (h : v.toNat < 2 ^ 63) : v.toInt64.toInt = v.toNat := by
  have := toInt64_ofNat h
  rwa [UInt64.ofNat_toNat] at this

/-- A result of skipRpc that is harmless. -/
def SkipOk (d : Bytes) : PbRes Int → Prop
  | .ok n => 1 ≤ n ∧ n < d.length + 2 ^ 57
  | .err _ => True
  | _ => False

theorem pbGroup_safe {skip : Bytes → PbRes Int} (l k : Nat) (hl : l < 2 ^ 62)
    (hskip : ∀ d, NoRun d → d.length ≤ k → 0 < d.length → SkipOk d (skip d)) : ∀ (fuel pos : Nat) (d : Bytes), NoRun d → d.length ≤ k →
    0 < pos → pos + d.length = l → (∃ e, pbGroup skip l fuel pos d = .err e) ∨ ∃ n : Nat, pbGroup skip l fuel pos d = .ok n ∧ 0 < n ∧ n ≤ l := by
  intro fuel
  induction fuel with
  | zero => intro pos d _ _ _ _; exact .inl ⟨_, rfl⟩
  | succ fuel ih =>
    intro pos d hn hk hp hpl
    rw [pbGroup]
    rcases pbVarint_safe hn with ⟨e, h1⟩ | ⟨pre, rest, v, h1, h2, h3, _⟩
    · rw [h1]; exact .inl ⟨e, rfl⟩
    · rw [h3]
      simp only []
      have hdl : d.length = pre.length + rest.length := by rw [h1]; simp
      split
      · exact .inr ⟨_, rfl, by omega, by omega⟩
      · have hs := hskip d hn hk (by omega)
        cases hr : skip d with
        | err e => exact .inl ⟨e, rfl⟩
        | panic => rw [hr] at hs; exact hs.elim
        | fatal => rw [hr] at hs; exact hs.elim
        | ok next =>
          rw [hr] at hs
          obtain ⟨hs1, hs2⟩ := hs
          have hw : wrap64 (pos + next) = pos + next := wrap64_of (by omega) (by omega)
          simp only [hw]
          rw [if_neg (by omega)]
          split
          · exact .inl ⟨_, rfl⟩
          · refine ih _ _ (hn.suffix (List.take_append_drop _ d).symm) (by simp; omega) (by omega) (by simp; omega)

theorem pbSkip_safe (stack : Nat) : ∀ d, NoRun d → d.length ≤ stack → 0 < d.length → d.length < 2 ^ 62 → SkipOk d (pbSkip stack d) := by
  induction stack with
  | zero => intro d _ h1 h2; omega
  | succ stack ih =>
    intro d hn hk hp hl
    rw [pbSkip, if_neg (by omega)]
    rcases pbVarint_safe hn with ⟨e, h1⟩ | ⟨pre, d', v, h1, h2, h3, _⟩
    · rw [h1]; trivial
    · rw [h3]
      have hdl : d.length = pre.length + d'.length := by rw [h1]; simp
      have hn' : NoRun d' := hn.suffix h1
      simp only []
      split
      · rcases pbSkipVarint_safe d' 0 with ⟨e, h4⟩ | ⟨pre2, d'', h4, h5, h6⟩
        · rw [h4]; trivial
        · rw [h6]
          have : d'.length = pre2.length + d''.length := by rw [h4]; simp
          exact ⟨by omega, by omega⟩
      · exact ⟨by omega, by omega⟩
      · rcases pbVarint_safe hn' with ⟨e, h4⟩ | ⟨pre2, d'', w, h4, h5, h6, h7⟩
        · rw [h4]; trivial
        · rw [h6]
          have hd' : d'.length = pre2.length + d''.length := by rw [h4]; simp
          simp only [toInt64_small (v := w) (by omega)]
          rw [if_neg (by omega), wrap64_of (by omega) (by omega)]
          exact ⟨by omega, by omega⟩
      · rcases pbGroup_safe (skip := pbSkip stack) d.length d'.length hl
          (fun x hx hxk hx0 => ih x hx (by omega) hx0 (by omega)) (d'.length + 1) (d.length - d'.length) d' hn' (Nat.le_refl _)
          (by omega) (by omega) with ⟨e, h4⟩ | ⟨n, h4, h5, h6⟩
        · rw [h4]; trivial
        · rw [h4]; exact ⟨by omega, by omega⟩
      · exact ⟨by omega, by omega⟩
      · exact ⟨by omega, by omega⟩
      · trivial

theorem pbBytes_safe (l pos : Nat) (d : Bytes) (hn : NoRun d) (hl : l < 2 ^ 62) (hpl : pos + d.length = l) :
    (∃ e, pbBytes l pos d = .err e) ∨ ∃ b i d2, pbBytes l pos d = .ok (b, i, d2) ∧ NoRun d2 ∧ i + d2.length = l := by
  rw [pbBytes]
  rcases pbVarint_safe hn with ⟨e, h4⟩ | ⟨pre2, d'', w, h4, h5, h6, h7⟩
  · rw [h4]; exact .inl ⟨e, rfl⟩
  · rw [h6]
    have hd' : d.length = pre2.length + d''.length := by rw [h4]; simp
    simp only [toInt64_small (v := w) (by omega)]
    rw [if_neg (by omega), wrap64_of (by omega) (by omega)]
    split
    · exact .inl ⟨_, rfl⟩
    · rw [if_neg (by omega)]
      refine .inr ⟨_, _, _, rfl, (hn.suffix h4).suffix (List.take_append_drop _ d'').symm, ?_⟩
      simp only [List.length_drop]; omega

/-- A result that is a message or an error. -/
def PbRes.Proper {α : Type} : PbRes α → Prop
  | .ok _ | .err _ => True
  | _ => False

theorem pbLoop_safe (stack l : Nat) (hs : l ≤ stack) (hl : l < 2 ^ 62) : ∀ (fuel : Nat) (m : RpcReq) (pos : Nat) (d : Bytes), NoRun d →
    pos + d.length = l → (pbLoop stack l fuel m pos d).Proper := by
  intro fuel
  induction fuel with
  | zero => intro m pos d _ _; trivial
  | succ fuel ih =>
    intro m pos d hn hpl
    rw [pbLoop]
    split
    · trivial
    · rcases pbVarint_safe hn with ⟨e, h1⟩ | ⟨pre, d', v, h1, h2, h3, _⟩
      · rw [h1]; trivial
      · rw [h3]
        have hdl : d.length = pre.length + d'.length := by rw [h1]; simp
        have hn' : NoRun d' := hn.suffix h1
        simp only []
        split
        · trivial
        · split
          · trivial
          · split
            · split
              · trivial
              · rcases pbBytes_safe l (pos + (d.length - d'.length)) d' hn' hl (by omega) with ⟨e, h4⟩ | ⟨b, i, d2, h4, h5, h6⟩
                · rw [h4]; trivial
                · rw [h4]; exact ih _ _ _ h5 h6
            · have hsk := pbSkip_safe stack d hn (by omega) (by omega) (by omega)
              cases hr : pbSkip stack d with
              | err e => trivial
              | panic => rw [hr] at hsk; exact hsk.elim
              | fatal => rw [hr] at hsk; exact hsk.elim
              | ok next =>
                rw [hr] at hsk
                obtain ⟨hs1, hs2⟩ := hsk
                simp only []
                rw [if_neg (by omega), wrap64_of (by omega) (by omega)]
                split
                · trivial
                · rw [if_neg (by omega)]
                  exact ih _ _ _ (hn.suffix (List.take_append_drop _ d).symm) (by simp only [List.length_drop]; omega)

/-- **C54 (partial).** Unmarshal returns a message or an error for every byte string shorter than 2^62 that has no eight
consecutive bytes with the high bit set, if as many calls of skipRpc as there are bytes fit on the stack. Missing: see the
refutations. -/
theorem C54_partial (stack : Nat) (d : Bytes) (hn : NoRun d) (hl : d.length < 2 ^ 62) (hs : d.length ≤ stack) :
    (pbUnmarshal stack d).Proper := pbLoop_safe stack d.length hs hl _ _ 0 d hn (by omega)

example : NoRun [0x23, 0x2a, 0x81, 5, 0x24, 0x0a, 1, 1] := by
  intro pre mid post h hm
  have h1 : 8 = pre.length + mid.length + post.length := by rw [← List.length_append, ← List.length_append, ← h]; rfl
  have h2 : pre = [] := List.length_eq_zero_iff.mp (by omega)
  have h3 : post = [] := List.length_eq_zero_iff.mp (by omega)
  subst h2 h3
  simp only [List.nil_append, List.append_nil] at h
  exact ⟨0x23, by rw [← h]; simp, by decide⟩

end Qrpc
