import Verif.Lemmas.GroupD
import Verif.Lemmas.WriteBuf
/-! Write path: nil results only for frames on the wire. -/
namespace Qrpc

theorem DeliveredIn.grow {fs : List SFrame} {sent : List Nat} {n t : Nat} (f : SFrame) (hlt : ∀ t ∈ sent, t < fs.length)
    (h : DeliveredIn fs sent n t) : DeliveredIn (fs ++ [f]) sent n t := by
  obtain ⟨pre, post, h1, h2⟩ := h
  refine ⟨pre, post, h1, ?_⟩
  rw [flatOf_grow]
  · exact h2
  · intro u hu
    apply hlt
    rw [h1]
    simp only [List.mem_append, List.mem_cons, List.not_mem_nil, or_false] at hu ⊢
    grind

theorem DeliveredIn.more {fs : List SFrame} {sent : List Nat} {n t : Nat} (b : List Nat) (x : Bytes)
    {w : Bytes} (hn : n = w.length) (h : DeliveredIn fs sent n t) : DeliveredIn fs (sent ++ b) (w ++ x).length t := by
  obtain ⟨pre, post, h1, h2⟩ := h
  refine ⟨pre, post ++ b, by simp [h1], ?_⟩
  simp only [List.length_append]
  omega

theorem getD_eq_getElem' {α : Type} (l : List α) (d : α) {i : Nat} (h : i < l.length) : l.getD i d = l[i] := by
  simp [List.getD, List.getElem?_eq_getElem h]

/-- The batch rule (serveconn.go:602-616): a nil result means that the buffer was written completely. -/
theorem batch_ok_delivered {fs : List SFrame} {sent batch : List Nat} {w : Bytes} {ok : Bool} {k t : Nat}
    (hw : w = flatOf fs sent) (hlt : ∀ u ∈ batch, u < fs.length) (hb : ∀ f ∈ fs, f.bytes ≠ [])
    (hk : k ≤ (flatOf fs batch).length) (hok : ok = true → k = (flatOf fs batch).length)
    (h : (t, SRes.ok) ∈ batch.zip (batchResults ok (consume k (batch.map fun u => (frameOf fs u).bytes)))) :
    DeliveredIn fs (sent ++ batch) (w ++ (flatOf fs batch).take k).length t := by
  obtain ⟨i, hi, hget⟩ := List.mem_iff_getElem.1 h
  rw [List.getElem_zip] at hget
  simp only [Prod.mk.injEq] at hget
  obtain ⟨ht, hr⟩ := hget
  have hib : i < batch.length := by simp at hi; omega
  have hlen : (consume k (batch.map fun u => (frameOf fs u).bytes)).length = batch.length := by
    have := batchResults_length ok k (batch.map fun u => (frameOf fs u).bytes)
    simpa [batchResults] using this
  have hle : (flatOf fs (batch.take (i + 1))).length ≤ k := by
    by_cases hok' : ok = true
    · rw [hok hok', ← List.take_append_drop (i + 1) batch, flatOf_append]
      simp
    · simp only [batchResults, List.getElem_map, hok'] at hr
      have hne : (batch.map fun u => (frameOf fs u).bytes).getD i [] ≠ [] := by
        rw [getD_eq_getElem' _ _ (by simpa using hib), List.getElem_map]
        have hl := hlt batch[i] (List.getElem_mem hib)
        rw [frameOf, getD_eq_getElem' _ _ hl]
        exact hb _ (List.getElem_mem hl)
      have hemp : (consume k (batch.map fun u => (frameOf fs u).bytes)).getD i [] = [] := by
        rw [getD_eq_getElem' _ _ (by omega)]
        apply Classical.byContradiction
        intro hc
        have : (consume k (batch.map fun u => (frameOf fs u).bytes))[i].length ≠ 0 := by
          intro h0; exact hc (List.length_eq_zero_iff.1 h0)
        simp [this] at hr
      have := (consume_empty_iff k _ i (by simpa using hib) hne).1 hemp
      rw [← List.map_take] at this
      exact this
  refine ⟨sent ++ batch.take i, batch.drop (i + 1), ?_, ?_⟩
  · rw [List.append_assoc, ← ht]
    congr 1
    rw [List.getElem_cons_drop, List.take_append_drop]
  · have : batch.take (i + 1) = batch.take i ++ [t] := by
      rw [List.take_succ_eq_append_getElem hib, ht]
    rw [List.append_assoc, ← this, flatOf_append, hw]
    simp only [List.length_append, List.length_take]
    omega

theorem serveDecide_not_ok {f ex add} : serveDecide f ex add ≠ some .ok := by
  unfold serveDecide
  repeat' split
  all_goals simp

set_option maxHeartbeats 4000000 in
theorem GInvE.step {cap s a s'} (hA : GInvA cap s) (hB : GInvB s) (hD : GInvD s) (h : GInvE s)
    (hs : gStep cap s a = some s') : GInvE s' := by
  obtain ⟨h1, h2, h3, h4⟩ := h
  obtain ⟨b1, b2, -, -, -, -, b7, -, -, b10, -⟩ := hB
  obtain ⟨a1, -, -, a4, -, a6, -⟩ := hA
  have hg : ∀ f t, DeliveredIn s.frames s.sent s.wire.length t → DeliveredIn (s.frames ++ [f]) s.sent s.wire.length t :=
    fun f t => DeliveredIn.grow f fun t ht => Nat.lt_of_lt_of_le (hD.sentLt t ht) a4
  have hm : ∀ x t, DeliveredIn s.frames s.sent s.wire.length t → DeliveredIn s.frames (s.sent ++ s.batch) (s.wire ++ x).length t :=
    fun x t => DeliveredIn.more s.batch x rfl
  have hw : ∀ i t, s.pc i = .write t → s.wire = flatOf s.frames s.sent :=
    fun i t hp => hD.whole (hD.healthy i (by simp [hp, TPc.healthy]))
  have hd := @serveDecide_not_ok
  gstep_cases hs a
  all_goals constructor
  all_goals simp only []
  all_goals try first
    | assumption
    | grind [setAt, TPc.res]
    | (intro t ht
       refine batch_ok_delivered (hw _ _ ‹_›) (fun u hu => Nat.lt_of_lt_of_le (b2 u hu) a4) a6 ?_ ?_ ht
       · exact (by assumption : _ ∧ _).1
       · exact (by assumption : _ ∧ _).2)

end Qrpc
