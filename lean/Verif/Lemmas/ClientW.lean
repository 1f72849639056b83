import Verif.Lemmas.ClientN
import Verif.Lemmas.GroupE
/-! Client: what reaches the transport. -/
namespace Qrpc

/-- The bytes of a list of submitted frames. -/
def cflat (fs : List CFrame) (ts : List Nat) : Bytes := (ts.map fun t => (cframeOf fs t).bytes).flatten

theorem cflat_append (fs : List CFrame) (a b : List Nat) : cflat fs (a ++ b) = cflat fs a ++ cflat fs b := by
  simp [cflat]

theorem cflat_grow (fs : List CFrame) (f : CFrame) {ts : List Nat} (h : ∀ t ∈ ts, t < fs.length) :
    cflat (fs ++ [f]) ts = cflat fs ts := by
  simp only [cflat]
  congr 1
  apply List.map_congr_left
  intro t ht
  rw [cframeOf_append f (h t ht)]

/-- Frame `t` is among `ts`, and the first `n` bytes of `ts` contain it whole. -/
def CDelivered (fs : List CFrame) (ts : List Nat) (n t : Nat) : Prop :=
  ∃ pre post, ts = pre ++ t :: post ∧ (cflat fs (pre ++ [t])).length ≤ n

theorem CDelivered.grow {fs : List CFrame} {ts : List Nat} {n t : Nat} (f : CFrame) (hlt : ∀ t ∈ ts, t < fs.length)
    (h : CDelivered fs ts n t) : CDelivered (fs ++ [f]) ts n t := by
  obtain ⟨pre, post, h1, h2⟩ := h
  refine ⟨pre, post, h1, ?_⟩
  rw [cflat_grow]
  · exact h2
  · intro u hu
    apply hlt
    rw [h1]
    simp only [List.mem_append, List.mem_cons, List.not_mem_nil, or_false] at hu ⊢
    grind

theorem CDelivered.more {fs : List CFrame} {ts : List Nat} {n m t : Nat} (b : List Nat) (hm : n ≤ m) (h : CDelivered fs ts n t) :
    CDelivered fs (ts ++ b) m t := by
  obtain ⟨pre, post, h1, h2⟩ := h
  exact ⟨pre, post ++ b, by simp [h1], by omega⟩

/-- The batch rule (clientconn.go:752-771): a nil result means that the buffer was written completely. -/
theorem cbatch_ok_delivered {fs : List CFrame} {out batch : List Nat} {w : Bytes} {ok : Bool} {k t : Nat}
    (hw : w = cflat fs out) (hlt : ∀ u ∈ batch, u < fs.length) (hb : ∀ f ∈ fs, f.bytes ≠ [])
    (hk : k ≤ (cflat fs batch).length) (hok : ok = true → k = (cflat fs batch).length)
    (h : (t, CRes.ok) ∈ batch.zip ((batchResults ok (consume k (batch.map fun u => (cframeOf fs u).bytes))).map SRes.toC)) :
    CDelivered fs (out ++ batch) (w ++ (cflat fs batch).take k).length t := by
  obtain ⟨i, hi, hget⟩ := List.mem_iff_getElem.1 h
  rw [List.getElem_zip] at hget
  simp only [Prod.mk.injEq, List.getElem_map] at hget
  obtain ⟨ht, hr⟩ := hget
  have hib : i < batch.length := by simp at hi; omega
  have hlen : (consume k (batch.map fun u => (cframeOf fs u).bytes)).length = batch.length := by
    rw [consume_length]; simp
  have hle : (cflat fs (batch.take (i + 1))).length ≤ k := by
    by_cases hok' : ok = true
    · rw [hok hok', ← List.take_append_drop (i + 1) batch, cflat_append]
      simp
    · simp only [batchResults, List.getElem_map, hok'] at hr
      have hne : (batch.map fun u => (cframeOf fs u).bytes).getD i [] ≠ [] := by
        rw [getD_eq_getElem' _ _ (by simpa using hib), List.getElem_map]
        have hl := hlt batch[i] (List.getElem_mem hib)
        rw [cframeOf, getD_eq_getElem' _ _ hl]
        exact hb _ (List.getElem_mem hl)
      have hemp : (consume k (batch.map fun u => (cframeOf fs u).bytes)).getD i [] = [] := by
        rw [getD_eq_getElem' _ _ (by omega)]
        apply Classical.byContradiction
        intro hc
        have : (consume k (batch.map fun u => (cframeOf fs u).bytes))[i].length ≠ 0 := by
          intro h0; exact hc (List.length_eq_zero_iff.1 h0)
        simp [this, SRes.toC] at hr
      have := (consume_empty_iff k _ i (by simpa using hib) hne).1 hemp
      rw [← List.map_take] at this
      exact this
  refine ⟨out ++ batch.take i, batch.drop (i + 1), ?_, ?_⟩
  · rw [List.append_assoc, ← ht]
    congr 1
    rw [List.getElem_cons_drop, List.take_append_drop]
  · have : batch.take (i + 1) = batch.take i ++ [t] := by
      rw [List.take_succ_eq_append_getElem hib, ht]
    rw [List.append_assoc, ← this, cflat_append, hw]
    simp only [List.length_append, List.length_take]
    omega

theorem CDelivered.shrink {fs : List CFrame} {ts : List Nat} {n t : Nat} (f : CFrame) (hlt : ∀ t ∈ ts, t < fs.length)
    (h : CDelivered (fs ++ [f]) ts n t) : CDelivered fs ts n t := by
  obtain ⟨pre, post, h1, h2⟩ := h
  refine ⟨pre, post, h1, ?_⟩
  rw [cflat_grow] at h2
  · exact h2
  · intro u hu
    apply hlt
    rw [h1]
    simp only [List.mem_append, List.mem_cons, List.not_mem_nil, or_false] at hu ⊢
    grind

theorem CDelivered.mem {fs : List CFrame} {ts : List Nat} {n t : Nat} (h : CDelivered fs ts n t) : t ∈ ts := by
  obtain ⟨pre, post, h1, -⟩ := h
  simp [h1]

theorem CDelivered.whole {fs : List CFrame} {ts : List Nat} {t : Nat} (h : t ∈ ts) : CDelivered fs ts (cflat fs ts).length t := by
  obtain ⟨pre, post, h1⟩ := List.append_of_mem h
  refine ⟨pre, post, h1, ?_⟩
  rw [h1, show pre ++ t :: post = (pre ++ [t]) ++ post by simp, cflat_append _ (pre ++ [t]) post, List.length_append]
  omega

theorem split_unique {α : Type} {l a b a' b' : List α} {t : α} (hn : l.Nodup) (h : l = a ++ t :: b) (h' : l = a' ++ t :: b') : a = a' := by
  subst h
  induction a generalizing a' with
  | nil =>
    cases a' with
    | nil => rfl
    | cons x xs =>
      simp only [List.nil_append, List.cons_append, List.cons.injEq] at h'
      obtain ⟨rfl, h'⟩ := h'
      simp [h'] at hn
  | cons y ys ih =>
    cases a' with
    | nil =>
      simp only [List.nil_append, List.cons_append, List.cons.injEq] at h'
      obtain ⟨rfl, h'⟩ := h'
      simp at hn
    | cons x xs =>
      simp only [List.cons_append, List.cons.injEq] at h'
      obtain ⟨rfl, h'⟩ := h'
      simp only [List.cons_append, List.nodup_cons] at hn
      rw [ih hn.2 h']

/-- ... and any other result that it was not. -/
theorem cbatch_fail_undelivered {fs : List CFrame} {out batch : List Nat} {w : Bytes} {ok : Bool} {k t : Nat} {r : CRes}
    (hw : w = cflat fs out) (hn : (out ++ batch).Nodup)
    (hk : k ≤ (cflat fs batch).length) (hr : r ≠ .ok)
    (h : (t, r) ∈ batch.zip ((batchResults ok (consume k (batch.map fun u => (cframeOf fs u).bytes))).map SRes.toC)) :
    ¬ CDelivered fs (out ++ batch) (w ++ (cflat fs batch).take k).length t := by
  rintro ⟨pre, post, h1, h2⟩
  obtain ⟨i, hi, hget⟩ := List.mem_iff_getElem.1 h
  rw [List.getElem_zip] at hget
  simp only [Prod.mk.injEq, List.getElem_map] at hget
  obtain ⟨ht, hri⟩ := hget
  have hib : i < batch.length := by simp at hi; omega
  have hlen : (consume k (batch.map fun u => (cframeOf fs u).bytes)).length = batch.length := by
    rw [consume_length]; simp
  simp only [batchResults, List.getElem_map] at hri
  have hemp : (consume k (batch.map fun u => (cframeOf fs u).bytes))[i] ≠ [] := by
    intro h0
    rw [h0] at hri
    cases ok <;> simp [SRes.toC] at hri <;> exact hr hri.symm
  have hne : (batch.map fun u => (cframeOf fs u).bytes).getD i [] ≠ [] := by
    intro h0
    apply hemp
    have hz : ∀ (bs : List Bytes) (k i : Nat) (hi : i < (consume k bs).length), bs.getD i [] = [] → (consume k bs)[i] = [] := by
      intro bs
      induction bs with
      | nil => intro k i hi; simp [consume] at hi
      | cons b bs ih =>
        intro k i hi h0
        by_cases hb : b.length > k
        · simp only [consume, if_pos hb] at hi ⊢
          cases i with
          | zero => simp at h0; subst h0; simp at hb
          | succ i =>
            simp only [List.getElem_cons_succ]
            simp only [List.length_cons] at hi
            have := getD_eq_getElem' bs [] (i := i) (by omega)
            simp only [List.getD_cons_succ] at h0
            rw [← this]; exact h0
        · simp only [consume, if_neg hb] at hi ⊢
          cases i with
          | zero => rfl
          | succ i => exact ih _ _ _ (by simpa using h0)
    exact hz _ _ _ (by omega) h0
  have hgt : ¬ (cflat fs (batch.take (i + 1))).length ≤ k := by
    intro hle
    have := (consume_empty_iff k (batch.map fun u => (cframeOf fs u).bytes) i (by simpa using hib) hne).2
      (by rw [← List.map_take]; exact hle)
    rw [getD_eq_getElem' _ _ (by omega)] at this
    exact hemp this
  have hp : pre = out ++ batch.take i := by
    refine split_unique (b := post) (b' := batch.drop (i + 1)) hn h1 ?_
    rw [List.append_assoc, ← ht]
    congr 1
    rw [List.getElem_cons_drop, List.take_append_drop]
  have : batch.take (i + 1) = batch.take i ++ [t] := by
    rw [List.take_succ_eq_append_getElem hib, ht]
  rw [hp, List.append_assoc, ← this, cflat_append, hw] at h2
  simp only [List.length_append, List.length_take] at h2
  omega

/-- No write has failed on the current connection. -/
def CWr.whole : CWr → Bool
  | .first | .more _ | .register | .write | .dist false => true
  | _ => false

structure CInvW (s : CSt) : Prop where
  bytes : ∀ f ∈ s.frames, f.bytes ≠ []
  pcBytes : ∀ i f, (s.pc i).own = some f → f.bytes ≠ []
  pcReq : ∀ i p b, s.pc i = .check p b ∨ s.pc i = .genId p b → b ≠ []
  sorted : ∀ g, (s.outs g).Pairwise (· < ·)
  lt : ∀ g, ∀ t ∈ s.outs g, t < s.deq
  batchSorted : s.batch.Pairwise (· < ·)
  above : ∀ g, ∀ t ∈ s.outs g, ∀ u ∈ s.batch, t < u
  disj : ∀ g g' t, t ∈ s.outs g → t ∈ s.outs g' → g = g'
  order : ∀ g g' t t', g < g' → t ∈ s.outs g → t' ∈ s.outs g' → t < t'
  pre : ∀ g, s.wires g <+: cflat s.frames (s.outs g)
  whole : s.wr.whole = true → s.wires s.gen = cflat s.frames (s.outs s.gen)
  future : ∀ g, s.gen < g → s.outs g = [] ∧ s.wires g = []
  fresh : s.loop = .spawn ∨ (s.loop = .connect ∧ s.rwc = true) → s.outs s.gen = [] ∧ s.wires s.gen = []
  okSend : ∀ t, (t, CRes.ok) ∈ s.toSend → ∃ g, CDelivered s.frames (s.outs g) (s.wires g).length t
  okSlot : ∀ t, s.slot t = some .ok → ∃ g, CDelivered s.frames (s.outs g) (s.wires g).length t
  okRets : ∀ t, (t, CRes.ok) ∈ s.rets → ∃ g, CDelivered s.frames (s.outs g) (s.wires g).length t

theorem CInvW.init (d : Bool) : CInvW (CSt.init d) := by
  constructor <;> simp [CSt.init, CPc.own, cflat]

/-- What the transport has of a batch of which it took `k` bytes. -/
theorem wires_write {s : CSt} {k g : Nat} (h10 : ∀ g, s.wires g <+: cflat s.frames (s.outs g))
    (h11 : s.wires s.gen = cflat s.frames (s.outs s.gen)) :
    setAt s.wires s.gen (s.wires s.gen ++ (cflat s.frames s.batch).take k) g <+:
      cflat s.frames (setAt s.outs s.gen (s.outs s.gen ++ s.batch) g) := by
  by_cases hg : g = s.gen
  · subst hg
    simp only [setAt, if_true, cflat_append, ← h11]
    exact (List.prefix_append_right_inj _).2 (List.take_prefix _ _)
  · simp only [setAt, hg, if_false]
    exact h10 g

theorem delivered_write {s : CSt} {k t : Nat} (h : ∃ g, CDelivered s.frames (s.outs g) (s.wires g).length t) :
    ∃ g, CDelivered s.frames (setAt s.outs s.gen (s.outs s.gen ++ s.batch) g)
      (setAt s.wires s.gen (s.wires s.gen ++ (cflat s.frames s.batch).take k) g).length t := by
  obtain ⟨g, h⟩ := h
  refine ⟨g, ?_⟩
  by_cases hg : g = s.gen
  · subst hg
    simp only [setAt, if_true]
    exact h.more _ (by simp)
  · simpa only [setAt, hg, if_false] using h

theorem outs_write_order {s : CSt} (h9 : ∀ g g' t t', g < g' → t ∈ s.outs g → t' ∈ s.outs g' → t < t')
    (h7 : ∀ g, ∀ t ∈ s.outs g, ∀ u ∈ s.batch, t < u) (h12 : ∀ g, s.gen < g → s.outs g = []) (g g' t t' : Nat) (hlt : g < g')
    (ht : t ∈ setAt s.outs s.gen (s.outs s.gen ++ s.batch) g) (ht' : t' ∈ setAt s.outs s.gen (s.outs s.gen ++ s.batch) g') : t < t' := by
  unfold setAt at ht ht'
  split at ht <;> split at ht'
  · omega
  · subst g; rw [h12 g' hlt] at ht'; cases ht'
  · subst g'
    rcases List.mem_append.1 ht' with h | h
    · exact h9 _ _ _ _ hlt ht h
    · exact h7 _ _ ht _ h
  · exact h9 _ _ _ _ hlt ht ht'

set_option maxHeartbeats 4000000 in
theorem CInvW.step {c s a s'} (hA : CInvA s) (hL : CInvL c s) (h : CInvW s) (hs : cStep c s a = some s') : CInvW s' := by
  obtain ⟨h1, h2, h3, h4, h5, h6, h7, h8, h9, h10, h11, h12, h13, h14, h15, h16⟩ := h
  have a3 := hA.deq
  have a5 := hA.batchLt
  have hl : ∀ g, ∀ t ∈ s.outs g, t < s.frames.length := fun g t ht => Nat.lt_of_lt_of_le (h5 g t ht) a3
  have hgr : ∀ f g, cflat (s.frames ++ [f]) (s.outs g) = cflat s.frames (s.outs g) := fun f g => cflat_grow _ f (hl g)
  have hgd : ∀ f t, (∃ g, CDelivered s.frames (s.outs g) (s.wires g).length t) →
      ∃ g, CDelivered (s.frames ++ [f]) (s.outs g) (s.wires g).length t := fun f t ⟨g, h⟩ => ⟨g, h.grow f (hl g)⟩
  have hd1 : ∀ f ex add r, clientDecideFirst f ex add = some r → r.toC ≠ .ok := fun _ _ _ _ h => serveDecide_toC_ne_ok h
  have hd2 : ∀ f ex add r, clientDecideMore f ex add = some r → r.toC ≠ .ok := fun _ _ _ _ h => serveDecide_toC_ne_ok h
  have l1 := hL.noConn
  have l2 := hL.idle
  have hbl : ∀ u ∈ s.batch, u < s.frames.length := fun u hu => Nat.lt_of_lt_of_le (a5 u hu) a3
  have hcf : (s.batch.map fun t => (cframeOf s.frames t).bytes).flatten = cflat s.frames s.batch := rfl
  have nilP : List.Pairwise (fun x1 x2 : Nat => x1 < x2) [] := List.Pairwise.nil
  have hcn : cflat s.frames [] = [] := rfl
  cstep_cases hs a
  all_goals try simp only [hcf] at *
  all_goals try (refine ⟨?_, ?_, ?_, ?_, ?_, ?_, ?_, ?_, ?_, ?_, ?_, ?_, ?_, ?_, ?_, ?_⟩ <;> first | assumption | skip)
  all_goals try simp only []
  all_goals try first
    | assumption
    | grind [setAt, CWr.whole, CPc.own]
    | exact fun t ht => hgd _ t (h14 t ht)
    | exact fun t ht => hgd _ t (h15 t ht)
    | exact fun t ht => hgd _ t (h16 t ht)
    | exact outs_write_order h9 h7 (fun g hg => (h12 g hg).1)
    | exact fun g => wires_write h10 (h11 (by simp [*, CWr.whole]))
    | exact fun t ht => delivered_write (h15 t ht)
    | exact fun t ht => delivered_write (h16 t ht)
    | (intro _; rw [(h13 (by simp [*])).1, (h13 (by simp [*])).2]; rfl)
    | (intro hw; exact h11 (by simp_all [CWr.whole]))
    | (intro t ht
       refine ⟨s.gen, ?_⟩
       simp only [setAt, if_true]
       exact cbatch_ok_delivered (h11 (by simp [*, CWr.whole])) hbl h1 (And.left ‹_›) (And.right ‹_›) ht)
  · rename_i k ok _ hwr hk
    intro hw
    cases ok with
    | false => simp [CWr.whole] at hw
    | true => simp only [setAt, if_true, cflat_append, h11 (by simp [hwr, CWr.whole]), hk.2 rfl, List.take_length]
  · intro hl0
    have := (l2 (by rcases hl0 with h | h <;> simp [h, CLp.running])).2.1
    simp_all
  · rintro (h | ⟨-, h⟩)
    · cases h
    · have := l1 (by simp [*]) (by simp [*, CLp.connected])
      simp_all

theorem CInvW.reach {c d acts s} (h : cRun c d acts = some s) : CInvW s := by
  suffices CInv c s ∧ CInvW s from this.2
  exact runActs_inv (P := fun s => CInv c s ∧ CInvW s) (fun _ _ _ hp hs => ⟨hp.1.step hs, hp.2.step hp.1.a hp.1.l hs⟩)
    ⟨CInv.init c d, CInvW.init d⟩ h

/-- X: a frame with a result other than ok was not taken whole by the transport. -/
structure CInvX (s : CSt) : Prop where
  slot : ∀ t r, s.slot t = some r → r ≠ .ok → ∀ g, ¬ CDelivered s.frames (s.outs g) (s.wires g).length t
  send : ∀ t r, (t, r) ∈ s.toSend → r ≠ .ok → ∀ g, ¬ CDelivered s.frames (s.outs g) (s.wires g).length t
  rets : ∀ t r, (t, r) ∈ s.rets → r ≠ .ok → ∀ g, ¬ CDelivered s.frames (s.outs g) (s.wires g).length t

theorem CInvX.init (d : Bool) : CInvX (CSt.init d) := by
  constructor <;> simp [CSt.init]

theorem undelivered_write {s : CSt} {k t : Nat} (hw : s.wires s.gen = cflat s.frames (s.outs s.gen)) (hb : t ∉ s.batch)
    (h : ∀ g, ¬ CDelivered s.frames (s.outs g) (s.wires g).length t) (g : Nat) :
    ¬ CDelivered s.frames (setAt s.outs s.gen (s.outs s.gen ++ s.batch) g)
      (setAt s.wires s.gen (s.wires s.gen ++ (cflat s.frames s.batch).take k) g).length t := by
  intro hd
  by_cases hg : g = s.gen
  · subst hg
    simp only [setAt, if_true] at hd
    rcases List.mem_append.1 hd.mem with hm | hm
    · apply h s.gen
      rw [hw]
      exact .whole hm
    · exact hb hm
  · simp only [setAt, hg, if_false] at hd
    exact h g hd

set_option maxHeartbeats 4000000 in
theorem CInvX.step {c s a s'} (hA : CInvA s) (hW : CInvW s) (h : CInvX s) (hs : cStep c s a = some s') : CInvX s' := by
  obtain ⟨h1, h2, h3⟩ := h
  have a3 := hA.deq
  have hl : ∀ g, ∀ t ∈ s.outs g, t < s.frames.length := fun g t ht => Nat.lt_of_lt_of_le (hW.lt g t ht) a3
  have hsh : ∀ f t, (∀ g, ¬ CDelivered s.frames (s.outs g) (s.wires g).length t) →
      ∀ g, ¬ CDelivered (s.frames ++ [f]) (s.outs g) (s.wires g).length t := fun f t h g hd => h g (hd.shrink f (hl g))
  have hnd : ∀ g, ¬ CDelivered s.frames (s.outs g) (s.wires g).length s.deq :=
    fun g hd => Nat.lt_irrefl _ (hW.lt g _ hd.mem)
  have hnb : ∀ t ∈ s.batch, ∀ g, ¬ CDelivered s.frames (s.outs g) (s.wires g).length t :=
    fun t ht g hd => Nat.lt_irrefl _ (hW.above g t hd.mem t ht)
  have hreg : ∀ t ∈ (registerAll s.frames s.respes s.batch).2, t ∈ s.batch := fun t ht => (registerAll_sublist _ _ _).mem ht
  have hnodup : (s.outs s.gen ++ s.batch).Nodup := by
    rw [List.nodup_append]
    refine ⟨(hW.sorted s.gen).imp Nat.ne_of_lt, hA.batchNodup, fun t ht u hu => Nat.ne_of_lt (hW.above _ t ht u hu)⟩
  have hslb : ∀ t, s.slot t ≠ none → t ∉ s.batch := fun t ht => hA.sendsBatch t (hA.slot t ht)
  have hreb : ∀ p ∈ s.rets, p.1 ∉ s.batch := fun p hp => hA.sendsBatch _ (hA.rets p hp).1
  have hwh := hW.whole
  have hcf : (s.batch.map fun t => (cframeOf s.frames t).bytes).flatten = cflat s.frames s.batch := rfl
  clear hA hW
  cstep_cases hs a
  all_goals try simp only [hcf] at *
  all_goals try (refine ⟨?_, ?_, ?_⟩ <;> first | assumption | skip)
  all_goals try simp only []
  all_goals try first
    | assumption
    | exact fun t r ht hr => hsh _ t (h1 t r ht hr)
    | exact fun t r ht hr => hsh _ t (h2 t r ht hr)
    | exact fun t r ht hr => hsh _ t (h3 t r ht hr)
    | exact fun t r ht hr => undelivered_write (hwh (by simp [*, CWr.whole])) (hslb t (by simp [ht])) (h1 t r ht hr)
    | exact fun t r ht hr => undelivered_write (hwh (by simp [*, CWr.whole])) (hreb _ ht) (h3 t r ht hr)
    | grind [setAt]
  rename_i k ok _ hwr hk
  intro t r ht hr g hd
  by_cases hg : g = s.gen
  · subst hg
    simp only [setAt, if_true] at hd
    exact cbatch_fail_undelivered (hwh (by simp [hwr, CWr.whole])) hnodup hk.1 hr ht hd
  · simp only [setAt, hg, if_false] at hd
    exact hnb t (List.of_mem_zip ht).1 g hd

theorem CInvX.reach {c d acts s} (h : cRun c d acts = some s) : CInvX s := by
  suffices CInv c s ∧ CInvW s ∧ CInvX s from this.2.2
  exact runActs_inv (P := fun s => CInv c s ∧ CInvW s ∧ CInvX s)
    (fun _ _ _ hp hs => ⟨hp.1.step hs, hp.2.1.step hp.1.a hp.1.l hs, hp.2.2.step hp.1.a hp.2.1 hs⟩)
    ⟨CInv.init c d, CInvW.init d, CInvX.init d⟩ h

/-- Y: with reconnect a dequeued write has its result or is going to get it. -/
def CInvY (s : CSt) : Prop := ∀ t, t < s.deq → t ∈ s.sends ∨ t ∈ s.batch ∨ t ∈ s.toSend.map Prod.fst

set_option maxHeartbeats 4000000 in
theorem CInvY.step {c s a s'} (hc : c.reconnect = true) (hA : CInvA s) (h : CInvY s) (hs : cStep c s a = some s') : CInvY s' := by
  have a9 := hA.noBatch
  have a10 := hA.noSend
  have hcl : ∀ b : List Nat, (b.map fun t => (t, CRes.connClosed)).map Prod.fst = b := fun b => by simp [Function.comp_def]
  have hz : ∀ ok k, (s.batch.zip ((batchResults ok (consume k (s.batch.map fun t => (cframeOf s.frames t).bytes))).map SRes.toC)).map
      Prod.fst = s.batch := fun ok k => List.map_fst_zip (by simp [batchResults, consume_length])
  clear hA
  unfold CInvY at *
  cstep_cases hs a
  all_goals try simp only []
  all_goals try first
    | assumption
    | grind [CWr.collecting, CWr.distributing]

theorem CInvY.reach {c d acts s} (hc : c.reconnect = true) (h : cRun c d acts = some s) : CInvY s := by
  suffices CInv c s ∧ CInvY s from this.2
  exact runActs_inv (P := fun s => CInv c s ∧ CInvY s) (fun _ _ _ hp hs => ⟨hp.1.step hs, hp.2.step hc hp.1.a hs⟩)
    ⟨CInv.init c d, by simp [CInvY, CSt.init]⟩ h

end Qrpc
