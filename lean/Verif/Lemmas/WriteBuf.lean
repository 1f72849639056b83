import Verif.Model.WriteBuf
/-! Lemmas about `net.Buffers` and the write loops. -/
namespace Qrpc

theorem consume_flatten (n : Nat) (bufs : List Bytes) : (consume n bufs).flatten = bufs.flatten.drop n := by
  fun_induction consume n bufs with
  | case1 => simp
  | case2 n b bs h => simp [List.drop_append, Nat.sub_eq_zero_of_le (Nat.le_of_lt h)]
  | case3 n b bs h ih =>
    have : b.length ≤ n := by omega
    simp [List.drop_append, List.drop_eq_nil_of_le this, ih]

theorem consume_zero (bufs : List Bytes) : consume 0 bufs = bufs := by
  induction bufs with
  | nil => rfl
  | cons b bs ih =>
    by_cases h : b.length > 0
    · simp [consume, h]
    · have : b = [] := by cases b <;> simp_all
      subst this
      simp [consume, ih]

theorem consume_empty_iff (k : Nat) (bufs : List Bytes) (i : Nat) (hi : i < bufs.length) (hne : bufs.getD i [] ≠ []) :
    (consume k bufs).getD i [] = [] ↔ (bufs.take (i + 1)).flatten.length ≤ k := by
  induction bufs generalizing k i with
  | nil => simp at hi
  | cons b bs ih =>
    by_cases h : b.length > k
    · rw [consume, if_pos h]
      cases i with
      | zero => simp
      | succ i =>
        have : ¬ b.length + (List.take (i + 1) bs).flatten.length ≤ k := by omega
        simp only [List.getD_cons_succ] at hne ⊢
        simp only [List.take_succ_cons, List.flatten_cons, List.length_append]
        simp only [this, iff_false]
        exact hne
    · rw [consume, if_neg h]
      cases i with
      | zero => simp; omega
      | succ i =>
        simp only [List.getD_cons_succ] at hne ⊢
        rw [ih (k - b.length) i (by simpa using hi) hne]
        rw [List.take_succ_cons, List.flatten_cons, List.length_append]
        omega

theorem consume_length (n : Nat) (bufs : List Bytes) : (consume n bufs).length = bufs.length := by
  fun_induction consume n bufs <;> simp_all

theorem consume_consume (m n : Nat) (bufs : List Bytes) : consume n (consume m bufs) = consume (m + n) bufs := by
  induction bufs generalizing m n with
  | nil => simp [consume]
  | cons b bs ih =>
    by_cases h : b.length > m
    · rw [consume, if_pos h]
      by_cases h2 : b.length > m + n
      · rw [consume, if_pos (by simp; omega), consume, if_pos h2, List.drop_drop]
      · rw [consume, if_neg (by simp; omega), consume, if_neg h2]
        simp only [List.length_drop]
        congr 2
        omega
    · rw [consume, if_neg h, consume, if_neg (by simp), consume, if_neg (by omega), ih]
      simp only [List.length_nil, Nat.sub_zero]
      congr 2
      omega

/-- Skipping the emptied buffers does not change what a later `consume` does. -/
theorem consume_skip (n m : Nat) (bufs : List Bytes) :
    (consume n bufs).take (consumed n bufs) ++ consume m ((consume n bufs).drop (consumed n bufs)) =
      consume m (consume n bufs) := by
  induction bufs generalizing n with
  | nil => simp [consume, consumed]
  | cons b bs ih =>
    by_cases h : b.length > n
    · simp [consume, consumed, h]
    · simp only [consume, consumed, h, if_false, List.take_succ_cons, List.drop_succ_cons, List.cons_append, ih,
        List.length_nil]
      simp

theorem skip_flatten (n : Nat) (bufs : List Bytes) :
    ((consume n bufs).take (consumed n bufs)).flatten = [] := by
  induction bufs generalizing n with
  | nil => simp [consume, consumed]
  | cons b bs ih =>
    by_cases h : b.length > n
    · simp [consume, consumed, h]
    · simp [consume, consumed, h, ih]

theorem rest_flatten (n : Nat) (bufs : List Bytes) :
    ((consume n bufs).drop (consumed n bufs)).flatten = bufs.flatten.drop n := by
  rw [← consume_flatten]
  conv => rhs; rw [← List.take_append_drop (consumed n bufs) (consume n bufs)]
  rw [List.flatten_append, skip_flatten, List.nil_append]

theorem totalLen_eq (bufs : List Bytes) : totalLen bufs = bufs.flatten.length := by
  simp [totalLen, List.length_flatten]

/-- Honest answers for one `WriteTo`. -/
def WTo.Honest (bufs : List Bytes) : WTo → Prop
  | .vec o => o.Honest bufs.flatten.length
  | .each os => bufs.length ≤ os.length ∧ ∀ p ∈ bufs.zip os, p.2.Honest p.1.length

theorem writeEach_honest (bufs : List Bytes) (os : List WOut) (hl : bufs.length ≤ os.length)
    (h : ∀ p ∈ bufs.zip os, p.2.Honest p.1.length) :
    (writeEach bufs os).1 ≤ bufs.flatten.length ∧
    ((writeEach bufs os).2.1 = none → (writeEach bufs os).1 = bufs.flatten.length) ∧
    (writeEach bufs os).2.2 = bufs.flatten.take (writeEach bufs os).1 := by
  induction bufs generalizing os with
  | nil => simp [writeEach]
  | cons b bs ih =>
    cases os with
    | nil => simp at hl
    | cons o os =>
      have ho : o.Honest b.length := h (b, o) (by simp)
      have ih := ih os (by simpa using hl) (fun p hp => h p (by simp [hp]))
      obtain ⟨h1, h2, h3⟩ := ho
      rw [writeEach]
      cases he : o.err with
      | some e =>
        simp only [List.flatten_cons, List.length_append, h2]
        refine ⟨by omega, by simp, ?_⟩
        rw [List.take_append_of_le_length h1]
      | none =>
        have := h3 he
        simp only [List.flatten_cons, List.length_append, h2]
        obtain ⟨i1, i2, i3⟩ := ih
        refine ⟨by omega, fun hn => by rw [this, i2 hn], ?_⟩
        rw [i3, this]
        simp [List.take_append, List.take_of_length_le]

theorem WTo.run_honest {bufs : List Bytes} {w : WTo} (h : w.Honest bufs) :
    ∃ n err, w.run bufs = (n, err, bufs.flatten.take n, consume n bufs) ∧ n ≤ bufs.flatten.length ∧
      (err = none → n = bufs.flatten.length) := by
  cases w with
  | vec o =>
    obtain ⟨h1, h2, h3⟩ := h
    exact ⟨o.n, o.err, by simp [WTo.run, writeToVec, h2], h1, h3⟩
  | each os =>
    obtain ⟨i1, i2, i3⟩ := writeEach_honest bufs os h.1 h.2
    refine ⟨(writeEach bufs os).1, (writeEach bufs os).2.1, ?_, i1, i2⟩
    simp only [WTo.run, writeToEach]
    rw [← i3]

end Qrpc
