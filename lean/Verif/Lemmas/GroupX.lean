import Verif.Lemmas.GroupE
import Verif.Lemmas.ClientW
/-! Write path: error results only for frames not on the wire. -/
namespace Qrpc

/-- ... and any other result that it was not. -/
theorem batch_fail_undelivered {fs : List SFrame} {out batch : List Nat} {w : Bytes} {ok : Bool} {k t : Nat} {r : SRes}
    (hw : w = flatOf fs out) (hn : (out ++ batch).Nodup)
    (hk : k ≤ (flatOf fs batch).length) (hr : r ≠ .ok)
    (h : (t, r) ∈ batch.zip (batchResults ok (consume k (batch.map fun u => (frameOf fs u).bytes)))) :
    ¬ DeliveredIn fs (out ++ batch) (w ++ (flatOf fs batch).take k).length t := by
  rintro ⟨pre, post, h1, h2⟩
  obtain ⟨i, hi, hget⟩ := List.mem_iff_getElem.1 h
  rw [List.getElem_zip] at hget
  simp only [Prod.mk.injEq] at hget
  obtain ⟨ht, hri⟩ := hget
  have hib : i < batch.length := by simp at hi; omega
  have hlen : (consume k (batch.map fun u => (frameOf fs u).bytes)).length = batch.length := by
    rw [consume_length]; simp
  simp only [batchResults, List.getElem_map] at hri
  have hemp : (consume k (batch.map fun u => (frameOf fs u).bytes))[i] ≠ [] := by
    intro h0
    rw [h0] at hri
    cases ok <;> simp at hri <;> exact hr hri.symm
  have hne : (batch.map fun u => (frameOf fs u).bytes).getD i [] ≠ [] := by
    intro h0
    apply hemp
    have hz : ∀ (bs : List Bytes) (k i : Nat) (hi : i < (consume k bs).length), bs.getD i [] = [] → (consume k bs)[i] = [] := by
      intro bs
      induction bs with
      | nil => intro k i hi; simp [consume] at hi
      | cons b bs ih =>
        intro k i hi h0
        by_cases hb : b.length > k
        · simp only [consume, if_pos hb] at hi ⊢
          cases i with
          | zero => simp at h0; subst h0; simp at hb
          | succ i =>
            simp only [List.getElem_cons_succ]
            simp only [List.length_cons] at hi
            have := getD_eq_getElem' bs [] (i := i) (by omega)
            simp only [List.getD_cons_succ] at h0
            rw [← this]; exact h0
        · simp only [consume, if_neg hb] at hi ⊢
          cases i with
          | zero => rfl
          | succ i => exact ih _ _ _ (by simpa using h0)
    exact hz _ _ _ (by omega) h0
  have hgt : ¬ (flatOf fs (batch.take (i + 1))).length ≤ k := by
    intro hle
    have := (consume_empty_iff k (batch.map fun u => (frameOf fs u).bytes) i (by simpa using hib) hne).2
      (by rw [← List.map_take]; exact hle)
    rw [getD_eq_getElem' _ _ (by omega)] at this
    exact hemp this
  have hp : pre = out ++ batch.take i := by
    refine split_unique (b := post) (b' := batch.drop (i + 1)) hn h1 ?_
    rw [List.append_assoc, ← ht]
    congr 1
    rw [List.getElem_cons_drop, List.take_append_drop]
  have : batch.take (i + 1) = batch.take i ++ [t] := by
    rw [List.take_succ_eq_append_getElem hib, ht]
  rw [hp, List.append_assoc, ← this, flatOf_append, hw] at h2
  simp only [List.length_append, List.length_take] at h2
  omega


theorem DeliveredIn.shrink {fs : List SFrame} {ts : List Nat} {n t : Nat} (f : SFrame) (hlt : ∀ t ∈ ts, t < fs.length)
    (h : DeliveredIn (fs ++ [f]) ts n t) : DeliveredIn fs ts n t := by
  obtain ⟨pre, post, h1, h2⟩ := h
  refine ⟨pre, post, h1, ?_⟩
  rw [flatOf_grow] at h2
  · exact h2
  · intro u hu
    apply hlt
    rw [h1]
    simp only [List.mem_append, List.mem_cons, List.not_mem_nil, or_false] at hu ⊢
    grind

theorem DeliveredIn.mem {fs : List SFrame} {ts : List Nat} {n t : Nat} (h : DeliveredIn fs ts n t) : t ∈ ts := by
  obtain ⟨pre, post, h1, -⟩ := h
  simp [h1]

theorem DeliveredIn.whole {fs : List SFrame} {ts : List Nat} {t : Nat} (h : t ∈ ts) : DeliveredIn fs ts (flatOf fs ts).length t := by
  obtain ⟨pre, post, h1⟩ := List.append_of_mem h
  refine ⟨pre, post, h1, ?_⟩
  rw [h1, show pre ++ t :: post = (pre ++ [t]) ++ post by simp, flatOf_append _ (pre ++ [t]) post, List.length_append]
  omega

/-- X: a frame with a result other than ok is not on the wire, not whole. -/
structure GInvX (s : GSt) : Prop where
  coll : ∀ i t n, s.pc i = .collect t n → t ∉ s.sent
  resOk : ∀ i t r, (s.pc i).res = some (t, r) → (t < s.deq ∧ t ∉ s.batch) ∨ (s.pc i).healthy = false
  retOk : ∀ t r, (t, r) ∈ s.rets → (t < s.deq ∧ t ∉ s.batch) ∨ s.lock = .dead
  slot : ∀ t r, s.slot t = some r → r ≠ .ok → ¬ DeliveredIn s.frames s.sent s.wire.length t
  send : ∀ t r, (t, r) ∈ s.toSend → r ≠ .ok → ¬ DeliveredIn s.frames s.sent s.wire.length t
  res : ∀ i t r, (s.pc i).res = some (t, r) → r ≠ .ok → ¬ DeliveredIn s.frames s.sent s.wire.length t
  rets : ∀ t r, (t, r) ∈ s.rets → r ≠ .ok → ¬ DeliveredIn s.frames s.sent s.wire.length t

theorem GInvX.init : GInvX GSt.init := by
  constructor <;> simp [GSt.init, TPc.res]

set_option maxHeartbeats 4000000 in
theorem GInvX.step {cap s a s'} (hA : GInvA cap s) (hB : GInvB s) (hC : GInvC s) (hD : GInvD s) (h : GInvX s)
    (hs : gStep cap s a = some s') : GInvX s' := by
  obtain ⟨h1, h2, h3, h4, h5, h6, h7⟩ := h
  have a4 := hA.deq
  have hl : ∀ t ∈ s.sent, t < s.frames.length := fun t ht => Nat.lt_of_lt_of_le (hD.sentLt t ht) a4
  have hsh : ∀ f t, ¬ DeliveredIn s.frames s.sent s.wire.length t → ¬ DeliveredIn (s.frames ++ [f]) s.sent s.wire.length t :=
    fun f t h hd => h (hd.shrink f hl)
  have hns : ∀ t, t ∉ s.sent → ¬ DeliveredIn s.frames s.sent s.wire.length t := fun t h hd => h hd.mem
  have hnq : ∀ t, s.deq ≤ t → t ∉ s.sent := fun t ht hm => by have := hD.sentLt t hm; omega
  have hnb : ∀ t ∈ s.batch, t ∉ s.sent := fun t ht hm => Nat.lt_irrefl _ (hD.sentBatch t hm t ht)
  have hw : ∀ i t, s.pc i = .write t → s.wire = flatOf s.frames s.sent :=
    fun i t hp => hD.whole (hD.healthy i (by simp [hp, TPc.healthy]))
  have hnodup : (s.sent ++ s.batch).Nodup := by
    rw [List.nodup_append]
    exact ⟨hD.sorted.imp Nat.ne_of_lt, hB.sorted.imp Nat.ne_of_lt, fun t ht u hu => Nat.ne_of_lt (hD.sentBatch t ht u hu)⟩
  have hwr : ∀ i t k u, s.pc i = .write t → u ∉ s.batch → ¬ DeliveredIn s.frames s.sent s.wire.length u →
      ¬ DeliveredIn s.frames (s.sent ++ s.batch) (s.wire ++ s.bufs.flatten.take k).length u := by
    intro i t k u hp hu hn hd
    rcases List.mem_append.1 hd.mem with hm | hm
    · apply hn
      rw [hw i t hp]
      exact .whole hm
    · exact hu hm
  have u := hA.unique
  have hrh : ∀ p : TPc, p.res ≠ none → p.holds = true := by
    intro p h
    cases p <;> simp [TPc.res, TPc.holds] at h ⊢
  have hlk := hA.lock
  have c1 := hC.pending
  have c2 := hC.infl
  have b1 := hB.queued
  have b3 := hB.batchSlot
  have b9 := hB.clean
  have bd := hB.dist
  have bu := hB.unlocked
  have hcp : ∀ i t, s.pc i = .infl t → t ∉ s.sent := by
    intro i t hp
    have := c1 i t (by simp [hp, TPc.tk])
    have := c2 i t hp
    have := b9 i (by simp [hp, TPc.clean])
    apply hnq
    grind
  have c5 := hC.collDone
  clear hA hB hC hD c1
  gstep_cases hs a
  all_goals constructor
  all_goals simp only []
  all_goals try first
    | assumption
    | exact fun t r ht hr => hsh _ t (h4 t r ht hr)
    | exact fun t r ht hr => hsh _ t (h5 t r ht hr)
    | exact fun t r ht hr => hsh _ t (h7 t r ht hr)
    | grind [setAt, TPc.res, TPc.healthy, TPc.holds]
    | exact fun t r ht hr => batch_fail_undelivered (hw _ _ ‹_›) hnodup (And.left ‹_›) hr ht
    | (intro j t r hres hr
       unfold setAt at hres
       split at hres
       · simp [TPc.res] at hres
       · next hne =>
         refine absurd (u j _ (hrh _ (by simp [hres])) ?_) hne
         simp [*, TPc.holds])

end Qrpc
