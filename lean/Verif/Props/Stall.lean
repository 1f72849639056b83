import Verif.Model.Stall
import Verif.Lemmas.WriteBuf
/-!
# C120 A write waits for a slow peer
-/
namespace Qrpc

theorem tcp_run (bufs : List Bytes) (k : Nat) : (Carrier.tcp.round bufs k).out.run bufs =
    (min k bufs.flatten.length, (if bufs.flatten.length ≤ k then none else some .timeout), bufs.flatten.take (min k bufs.flatten.length),
      consume (min k bufs.flatten.length) bufs) := by
  by_cases h : bufs.flatten.length ≤ k
  · simp only [Carrier.round, Carrier.write, WTo.run, writeToVec, if_pos h, Nat.min_eq_right h]
  · simp only [Carrier.round, Carrier.write, WTo.run, writeToVec, if_neg h, Nat.min_eq_left (Nat.le_of_lt (Nat.lt_of_not_le h)), Carrier.late]

theorem tcp_slow (timed : Bool) (size : Nat) : ∀ (takes : List Nat) (skipped bufs : List Bytes) (offset : Nat),
    size = offset + bufs.flatten.length → takes ≠ [] →
    (writerWriteBuffers timed size skipped bufs offset (Carrier.tcp.rounds bufs takes)).1 =
      (if bufs.flatten.length ≤ takes.sum then some ⟨size, none⟩ else none) ∧
    (writerWriteBuffers timed size skipped bufs offset (Carrier.tcp.rounds bufs takes)).2.1 = bufs.flatten.take takes.sum
  | [], _, _, _, _, hn => absurd rfl hn
  | k :: ks, skipped, bufs, offset, hs, _ => by
    simp only [Carrier.rounds, writerWriteBuffers, tcp_run]
    by_cases h : bufs.flatten.length ≤ k
    · have h1 : offset + min k bufs.flatten.length ≥ size := by omega
      have h2 : bufs.flatten.length ≤ (k :: ks).sum := by simp only [List.sum_cons]; omega
      simp only [if_pos h, afterWrite, if_pos h1]
      refine ⟨?_, ?_⟩
      · rw [if_pos h2]
        have : offset + min k bufs.flatten.length = size := by omega
        rw [this]
      · rw [Nat.min_eq_right h, List.take_of_length_le (Nat.le_refl _), List.take_of_length_le h2]
    · have hm : min k bufs.flatten.length = k := by omega
      have h1 : ¬ offset + k ≥ size := by omega
      rw [hm]
      simp only [if_neg h, afterWrite, Carrier.round, Bool.and_false, Bool.false_eq_true, if_false, if_neg h1]
      have hfl := rest_flatten k bufs
      by_cases hk : ks = []
      · subst hk
        have h3 : ¬ bufs.flatten.length ≤ [k].sum := by simp only [List.sum_cons, List.sum_nil]; omega
        refine ⟨?_, ?_⟩
        · rw [if_neg h3]; rfl
        · simp [Carrier.rounds, writerWriteBuffers]
      · obtain ⟨k1, k2⟩ := tcp_slow timed size ks (skipped ++ (consume k bufs).take (consumed k bufs))
          ((consume k bufs).drop (consumed k bufs)) (offset + k) (by rw [hfl, List.length_drop]; omega) hk
        rw [hfl, List.length_drop] at k1
        rw [hfl] at k2
        refine ⟨?_, ?_⟩
        · rw [k1, List.sum_cons]
          by_cases h4 : bufs.flatten.length - k ≤ ks.sum
          · rw [if_pos h4, if_pos (by omega)]
          · rw [if_neg h4, if_neg (by omega)]
        · rw [k2, List.sum_cons, List.take_add]

/-- **C120** over TCP: however long and often the peer stalls, a write goes on, in order, and returns nil as soon as the peer has taken all
bytes, and not before. -/
theorem C120_tcp_partial (timed : Bool) (bufs : List Bytes) {takes : List Nat} (hn : takes ≠ []) :
    (slowWrite .tcp timed bufs takes).1 = (if bufs.flatten.length ≤ takes.sum then some ⟨bufs.flatten.length, none⟩ else none) ∧
    (slowWrite .tcp timed bufs takes).2 = bufs.flatten.take takes.sum := by
  have := tcp_slow timed (totalLen bufs) takes [] bufs 0 (by rw [totalLen_eq]; omega) hn
  rw [totalLen_eq] at this
  simpa only [slowWrite, totalLen_eq] using this

theorem each_fails {c : Carrier} (hc : c ≠ .tcp) : ∀ (bufs : List Bytes) (k : Nat), k < bufs.flatten.length →
    (writeEach bufs (c.writes bufs k)).2.1 = some (.other 1) ∧
    ∃ j, j ≤ k ∧ (c = .tls → j = k) ∧ (writeEach bufs (c.writes bufs k)).2.2 = bufs.flatten.take j
  | [], k, h => by simp at h
  | b :: bs, k, h => by
    simp only [List.flatten_cons, List.length_append] at h
    by_cases hb : b.length ≤ k
    · obtain ⟨h1, j, h2, h3, h4⟩ := each_fails hc bs (k - b.length) (by omega)
      simp only [Carrier.writes, Carrier.write, if_pos hb, writeEach]
      refine ⟨h1, b.length + j, by omega, fun e => by have := h3 e; omega, ?_⟩
      rw [h4, List.flatten_cons, List.take_append, List.take_of_length_le (Nat.le_refl _), List.take_of_length_le (Nat.le_add_right _ _),
        Nat.add_sub_cancel_left]
    · have h3 : (c.write b k).err = some (.other 1) ∧ (c.write b k).sent ≤ k ∧ (c = .tls → (c.write b k).sent = k) := by
        cases c with
        | tcp => exact absurd rfl hc
        | tls => simp only [Carrier.write, if_neg hb]; exact ⟨rfl, Nat.le_refl _, fun _ => trivial⟩
        | ws => simp only [Carrier.write, if_neg hb]; exact ⟨rfl, Nat.zero_le _, fun e => by cases e⟩
      simp only [Carrier.writes, if_neg hb, writeEach, h3.1]
      refine ⟨trivial, _, h3.2.1, h3.2.2, ?_⟩
      have := h3.2.1
      rw [List.flatten_cons, List.take_append, show (c.write b k).sent - b.length = 0 by omega]; simp

theorem each_ok {c : Carrier} : ∀ (bufs : List Bytes) (k : Nat), bufs.flatten.length ≤ k →
    writeEach bufs (c.writes bufs k) = (bufs.flatten.length, none, bufs.flatten)
  | [], k, h => by simp [writeEach]
  | b :: bs, k, h => by
    simp only [List.flatten_cons, List.length_append] at h
    have hb : b.length ≤ k := by omega
    have := each_ok (c := c) bs (k - b.length) (by omega)
    simp only [Carrier.writes, Carrier.write, if_pos hb, writeEach, this]
    simp

/-- Over TLS and WebSocket it returns nil exactly if the peer takes everything within the first three seconds; **C120 is false**: otherwise
it fails at once, with and without a write timeout. -/
theorem C120_refuted_wrapped {c : Carrier} (hc : c ≠ .tcp) (timed : Bool) (bufs : List Bytes) (k : Nat) (ks : List Nat) :
    (k < bufs.flatten.length → (slowWrite c timed bufs (k :: ks)).1.map WRes.err = some (some (.other 1)) ∧
      ∃ j, j ≤ k ∧ (c = .tls → j = k) ∧ (slowWrite c timed bufs (k :: ks)).2 = bufs.flatten.take j) ∧
    (bufs.flatten.length ≤ k → slowWrite c timed bufs (k :: ks) = (some ⟨bufs.flatten.length, none⟩, bufs.flatten)) := by
  have hr : (c.round bufs k).out = .each (c.writes bufs k) := by
    cases c with
    | tcp => exact absurd rfl hc
    | tls => rfl
    | ws => rfl
  refine ⟨fun h => ?_, fun h => ?_⟩
  · obtain ⟨h1, j, h2, h3, h4⟩ := each_fails hc bufs k h
    simp only [slowWrite, Carrier.rounds, writerWriteBuffers, hr, WTo.run, writeToEach, h1, h4, afterWrite]
    exact ⟨rfl, j, h2, h3, rfl⟩
  · have h1 := each_ok (c := c) bufs k h
    simp only [slowWrite, Carrier.rounds, writerWriteBuffers, hr, WTo.run, writeToEach, h1, afterWrite, totalLen_eq, Nat.zero_add,
      ge_iff_le, Nat.le_refl, if_true]

/-- Two frames, and a peer that takes three bytes, then none for two rounds, then the rest. -/
example : slowWrite .tcp false [[1, 2], [3, 4, 5]] [3, 0, 0, 9] = (some ⟨5, none⟩, [1, 2, 3, 4, 5]) ∧
    slowWrite .tcp false [[1, 2], [3, 4, 5]] [3, 0, 0] = (none, [1, 2, 3]) ∧
    slowWrite .tls false [[1, 2], [3, 4, 5]] [3, 0, 0, 9] = (some ⟨3, some (.other 1)⟩, [1, 2, 3]) ∧
    slowWrite .ws false [[1, 2], [3, 4, 5]] [3, 0, 0, 9] = (some ⟨5, some (.other 1)⟩, [1, 2]) := by decide

end Qrpc
