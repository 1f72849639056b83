import Verif.Lemmas.Bytes
/-! `readBytes` delivers exactly the next bytes of the source, whatever the fragmentation. -/
namespace Qrpc
open Spec

/-- The error `io.ReadFull` gives when the source ends with `e` after `got`. -/
def endErr (got : Bytes) (e : ReadErr) : ReadErr :=
  if e = .eof then (if got = [] then .eof else .unexpectedEOF) else e

theorem connRead_ok {n : Nat} {c c' : List Seg} {b : Bytes} (h : connRead n c = (.ok b, c')) :
    segBytes c = b ++ segBytes c' ∧ segEnd c' = segEnd c ∧ b.length ≤ n := by
  cases c with
  | nil => simp [connRead] at h
  | cons x xs =>
    cases x with
    | err => simp [connRead] at h
    | data d =>
      simp only [connRead] at h
      split at h
      · simp only [Prod.mk.injEq, Except.ok.injEq] at h; obtain ⟨rfl, rfl⟩ := h
        exact ⟨rfl, rfl, by assumption⟩
      · simp only [Prod.mk.injEq, Except.ok.injEq] at h; obtain ⟨rfl, rfl⟩ := h
        refine ⟨?_, rfl, by simp; omega⟩
        simp only [segBytes]; rw [← List.append_assoc, List.take_append_drop]

theorem connRead_error {n : Nat} {c c' : List Seg} {e : ReadErr} (h : connRead n c = (.error e, c')) :
    segBytes c = [] ∧ segEnd c = e := by
  cases c with
  | nil => simp [connRead] at h; simp [segBytes, segEnd, h.1]
  | cons x xs =>
    cases x with
    | err => simp [connRead] at h; simp [segBytes, segEnd, h.1]
    | data d => simp only [connRead] at h; split at h <;> simp at h

theorem bufioRead_ok {n : Nat} {s s' : Src} {b : Bytes} (h : bufioRead n s = (.ok b, s')) :
    srcBytes s = b ++ srcBytes s' ∧ srcEnd s' = srcEnd s ∧ b.length ≤ n := by
  unfold bufioRead at h
  split at h
  · next hb =>
    split at h
    · split at h
      · simp at h
      · next hc =>
        simp only [Prod.mk.injEq, Except.ok.injEq] at h; obtain ⟨rfl, rfl⟩ := h
        obtain ⟨h1, h2, h3⟩ := connRead_ok hc
        exact ⟨by simp [srcBytes, hb, h1], h2, h3⟩
    · split at h
      · simp at h
      · next hc =>
        simp only [Prod.mk.injEq, Except.ok.injEq] at h; obtain ⟨rfl, rfl⟩ := h
        obtain ⟨h1, h2, h3⟩ := connRead_ok hc
        refine ⟨?_, h2, by simp; omega⟩
        simp only [srcBytes, hb, h1, List.nil_append]
        rw [← List.append_assoc, List.take_append_drop]
  · simp only [Prod.mk.injEq, Except.ok.injEq] at h; obtain ⟨rfl, rfl⟩ := h
    refine ⟨?_, rfl, by simp; omega⟩
    simp only [srcBytes]; rw [← List.append_assoc, List.take_append_drop]

theorem bufioRead_error {n : Nat} {s s' : Src} {e : ReadErr} (h : bufioRead n s = (.error e, s')) :
    srcBytes s = [] ∧ srcEnd s = e := by
  unfold bufioRead at h
  split at h
  · next hb =>
    split at h <;>
    · split at h
      · next hc =>
        simp only [Prod.mk.injEq, Except.error.injEq] at h; obtain ⟨rfl, _⟩ := h
        obtain ⟨h1, h2⟩ := connRead_error hc
        exact ⟨by simp [srcBytes, hb, h1], h2⟩
      · simp at h
  · simp at h

theorem readFullAux_spec (n : Nat) (s : Src) (got : Bytes) :
    if n ≤ (srcBytes s).length then
      ∃ s', readFullAux n s got = (.ok (got ++ (srcBytes s).take n), s') ∧
        srcBytes s' = (srcBytes s).drop n ∧ srcEnd s' = srcEnd s
    else ∃ s', readFullAux n s got = (.error (endErr (got ++ srcBytes s) (srcEnd s)), s') := by
  fun_induction readFullAux n s got with
  | case1 s got => exact ⟨s, by simp⟩
  | case2 s got n s' h =>
    obtain ⟨h1, h2⟩ := bufioRead_error h
    rw [if_neg (by simp [h1]), h1, h2]
    exact ⟨s', by simp [endErr]⟩
  | case3 s got n e s' h hne =>
    obtain ⟨h1, h2⟩ := bufioRead_error hne
    rw [if_neg (by simp [h1]), h1, h2]
    refine ⟨s', ?_⟩
    have : e ≠ .eof := by intro he; exact h he
    simp [endErr, this]
  | case4 s got n b s' h ih =>
    obtain ⟨h1, h2, h3⟩ := bufioRead_ok h
    rw [h2] at ih
    rw [h1]
    by_cases hle : n + 1 ≤ (b ++ srcBytes s').length
    · have hle' : n + 1 - b.length ≤ (srcBytes s').length := by simp at hle; omega
      rw [if_pos hle'] at ih; rw [if_pos hle]
      obtain ⟨s2, e1, e2, e3⟩ := ih
      refine ⟨s2, ?_, ?_, e3⟩
      · rw [e1]
        rw [List.take_append, List.take_of_length_le h3, List.append_assoc]
      · rw [e2, List.drop_append, List.drop_of_length_le h3]; simp
    · have hle' : ¬ n + 1 - b.length ≤ (srcBytes s').length := by simp at hle; omega
      rw [if_neg hle'] at ih; rw [if_neg hle]
      obtain ⟨s2, e1⟩ := ih
      exact ⟨s2, by rw [e1, List.append_assoc]⟩

theorem readBytes_ok (n : Nat) (s : Src) (h : n ≤ (srcBytes s).length) :
    ∃ s', readBytes n s = (.ok ((srcBytes s).take n), s') ∧
      srcBytes s' = (srcBytes s).drop n ∧ srcEnd s' = srcEnd s := by
  have := readFullAux_spec n s []
  rw [if_pos h] at this
  simpa [readBytes] using this

theorem readBytes_error (n : Nat) (s : Src) (h : (srcBytes s).length < n) :
    ∃ s', readBytes n s = (.error (endErr (srcBytes s) (srcEnd s)), s') := by
  have := readFullAux_spec n s []
  rw [if_neg (by omega)] at this
  simpa [readBytes] using this

end Qrpc
