import Verif.Lemmas.WriteBuf
/-! # C57: bytes are transmitted once and in order despite partial writes and timeouts -/
namespace Qrpc

/-- Every answer of the environment honours the `net.Conn` contract for the bytes still to be written. -/
def Spec.HonestRounds (bytes : Bytes) : Nat → List (WRound WOut) → Prop
  | _, [] => True
  | offset, r :: rs => r.out.Honest (bytes.drop offset).length ∧ HonestRounds bytes (offset + r.out.n) rs

/-- The same for vectored writes: in each round the slice still to be written is the caller's buffers minus what was
written so far. -/
def Spec.HonestVec : (bufs : List Bytes) → List (WRound WTo) → Prop
  | _, [] => True
  | bufs, r :: rs => r.out.Honest bufs ∧
      HonestVec ((consume (r.out.run bufs).1 bufs).drop (consumed (r.out.run bufs).1 bufs)) rs

open Spec

theorem afterWrite_offset {timed : Bool} {size offset : Nat} {err : Option WErr} {past done : Bool} {res : WRes}
    (h : afterWrite timed size offset err past done = some res) :
    res.offset = offset ∧ (res.err = none → offset ≥ size) := by
  simp only [afterWrite] at h
  split at h
  · repeat' (split at h)
    all_goals simp only [Option.some.injEq, reduceCtorEq] at h
    all_goals subst h
    all_goals simp_all
  · simp only [Option.some.injEq] at h; subst h; simp
  · repeat' (split at h)
    all_goals simp only [Option.some.injEq, reduceCtorEq] at h
    all_goals subst h
    all_goals simp_all

theorem writerWrite_prefix (timed : Bool) (bytes : Bytes) (rounds : List (WRound WOut)) (offset : Nat)
    (hle : offset ≤ bytes.length) (h : HonestRounds bytes offset rounds) :
    ∃ k, offset + k ≤ bytes.length ∧ (writerWrite timed bytes offset rounds).2 = (bytes.drop offset).take k ∧
      ∀ res, (writerWrite timed bytes offset rounds).1 = some res →
        res.offset = offset + k ∧ (res.err = none → offset + k = bytes.length) := by
  induction rounds generalizing offset with
  | nil => exact ⟨0, by omega, by simp [writerWrite], by simp [writerWrite]⟩
  | cons r rs ih =>
    obtain ⟨⟨h1, h2, h3⟩, hrest⟩ := h
    simp only [List.length_drop] at h1 h3
    rw [writerWrite]
    cases ha : afterWrite timed bytes.length (offset + r.out.n) r.out.err r.past r.done with
    | some res =>
      obtain ⟨a1, a2⟩ := afterWrite_offset ha
      refine ⟨r.out.n, by omega, by simp [h2], ?_⟩
      intro res' hr
      simp only [Option.some.injEq] at hr
      subst hr
      exact ⟨a1, fun he => by have := a2 he; omega⟩
    | none =>
      obtain ⟨k, k1, k2, k3⟩ := ih (offset + r.out.n) (by omega) hrest
      refine ⟨r.out.n + k, by omega, ?_, ?_⟩
      · simp only [k2, h2]
        rw [List.take_add, List.drop_drop]
      · intro res hr
        have := k3 res hr
        exact ⟨by omega, fun he => by have := this.2 he; omega⟩

/-- **C57, `Writer.Write`.** Whatever partial writes, timeouts, errors and cancellations occur, the bytes handed to the
connection are a prefix of the given bytes (in order, no repetition, no gap); if the call returns, the count it returns is
the number of bytes handed over, and it returns nil only if that is all of them. -/
theorem C57_write (timed : Bool) (bytes : Bytes) (rounds : List (WRound WOut)) (h : HonestRounds bytes 0 rounds) :
    ∃ k, k ≤ bytes.length ∧ (writerWrite timed bytes 0 rounds).2 = bytes.take k ∧
      ∀ res, (writerWrite timed bytes 0 rounds).1 = some res → res.offset = k ∧ (res.err = none → k = bytes.length) := by
  obtain ⟨k, h1, h2, h3⟩ := writerWrite_prefix timed bytes rounds 0 (by omega) h
  exact ⟨k, by omega, by simpa using h2, by simpa using h3⟩

theorem writerWriteBuffers_prefix (timed : Bool) (size : Nat) (skipped bufs : List Bytes) (rounds : List (WRound WTo))
    (offset : Nat) (hsize : size = offset + bufs.flatten.length) (h : HonestVec bufs rounds) :
    ∃ k, k ≤ bufs.flatten.length ∧
      (writerWriteBuffers timed size skipped bufs offset rounds).2.1 = bufs.flatten.take k ∧
      (writerWriteBuffers timed size skipped bufs offset rounds).2.2 = skipped ++ consume k bufs ∧
      ∀ res, (writerWriteBuffers timed size skipped bufs offset rounds).1 = some res →
        res.offset = offset + k ∧ (res.err = none → k = bufs.flatten.length) := by
  induction rounds generalizing offset skipped bufs with
  | nil =>
    refine ⟨0, by omega, by simp [writerWriteBuffers], ?_, by simp [writerWriteBuffers]⟩
    simp [writerWriteBuffers, consume_zero]
  | cons r rs ih =>
    obtain ⟨h1, hrest⟩ := h
    obtain ⟨n, err, hrun, hn, herr⟩ := WTo.run_honest h1
    rw [writerWriteBuffers, hrun]
    rw [hrun] at hrest
    simp only at hrest ⊢
    cases ha : afterWrite timed size (offset + n) err r.past r.done with
    | some res =>
      obtain ⟨a1, a2⟩ := afterWrite_offset ha
      refine ⟨n, by omega, by simp, by simp, ?_⟩
      intro res' hr
      simp only [Option.some.injEq] at hr
      subst hr
      exact ⟨a1, fun he => by have := a2 he; omega⟩
    | none =>
      have hfl := rest_flatten n bufs
      obtain ⟨k, k1, k2, k3, k4⟩ := ih (skipped ++ (consume n bufs).take (consumed n bufs))
        ((consume n bufs).drop (consumed n bufs)) (offset + n) (by rw [hfl, List.length_drop]; omega) hrest
      rw [hfl, List.length_drop] at k1
      refine ⟨n + k, by omega, ?_, ?_, ?_⟩
      · simp only [k2, hfl]
        rw [List.take_add]
      · simp only [k3]
        rw [List.append_assoc, consume_skip, consume_consume]
      · intro res hr
        have := k4 res hr
        rw [hfl, List.length_drop] at this
        exact ⟨by omega, fun he => by have := this.2 he; omega⟩

/-- **C57, vectored writes.** The same for a list of buffers: what reaches the connection is a prefix of their
concatenation, whichever way `net.Buffers.WriteTo` writes them and however often the loop goes round; the returned count is
its length and nil means everything. Afterwards the caller finds in its slice exactly the bytes not written: buffer `i` is
empty iff all its bytes were written. -/
theorem C57_vectored (timed : Bool) (bufs : List Bytes) (rounds : List (WRound WTo)) (h : HonestVec bufs rounds) :
    ∃ k, k ≤ bufs.flatten.length ∧
      (writerWriteBuffers timed (totalLen bufs) [] bufs 0 rounds).2.1 = bufs.flatten.take k ∧
      (writerWriteBuffers timed (totalLen bufs) [] bufs 0 rounds).2.2.flatten = bufs.flatten.drop k ∧
      (∀ i, i < bufs.length → bufs.getD i [] ≠ [] →
        ((writerWriteBuffers timed (totalLen bufs) [] bufs 0 rounds).2.2.getD i [] = [] ↔
          (bufs.take (i + 1)).flatten.length ≤ k)) ∧
      ∀ res, (writerWriteBuffers timed (totalLen bufs) [] bufs 0 rounds).1 = some res →
        res.offset = k ∧ (res.err = none → k = bufs.flatten.length) := by
  obtain ⟨k, h1, h2, h3, h4⟩ := writerWriteBuffers_prefix timed (totalLen bufs) [] bufs rounds 0
    (by rw [totalLen_eq]; omega) h
  rw [List.nil_append] at h3
  refine ⟨k, h1, h2, by rw [h3, consume_flatten], ?_, by simpa using h4⟩
  intro i hi hne
  rw [h3]
  exact consume_empty_iff k bufs i hi hne

/-- A 5-byte write over a slow connection: 2 bytes then a timeout, a timeout with nothing, then the rest. -/
def exRounds : List (WRound WOut) :=
  [⟨⟨2, some .timeout, 2⟩, false, false⟩, ⟨⟨0, some .timeout, 0⟩, false, false⟩, ⟨⟨3, none, 3⟩, false, false⟩]

example : HonestRounds [1, 2, 3, 4, 5] 0 exRounds ∧
    writerWrite true [1, 2, 3, 4, 5] 0 exRounds = (some ⟨5, none⟩, [1, 2, 3, 4, 5]) := by
  refine ⟨?_, by decide⟩
  simp [HonestRounds, exRounds, WOut.Honest]

/-- Two buffers; the first round writes 4 of 5 bytes and times out, then the connection breaks. -/
def exVecRounds : List (WRound WTo) :=
  [⟨.vec ⟨4, some .timeout, 4⟩, false, false⟩, ⟨.each [⟨0, some (.other 7), 0⟩], false, false⟩]

example : HonestVec [[1, 2, 3], [4, 5]] exVecRounds ∧
    writerWriteBuffers false 5 [] [[1, 2, 3], [4, 5]] 0 exVecRounds =
      (some ⟨4, some (.other 7)⟩, [1, 2, 3, 4], [[], [5]]) := by
  refine ⟨?_, by decide⟩
  simp [HonestVec, exVecRounds, WTo.Honest, WOut.Honest, WTo.run, writeToVec, consume, consumed]

/-- **C57 needs the contract**: a transport that reports more than it took (the WebSocket overlay after an error, see C22)
loses bytes silently only together with an error. -/
example : writerWriteBuffers false 5 [] [[1, 2, 3], [4, 5]] 0 [⟨.each [⟨3, some (.other 1), 0⟩], false, false⟩] =
    (some ⟨3, some (.other 1)⟩, [], [[], [4, 5]]) := by decide

end Qrpc
