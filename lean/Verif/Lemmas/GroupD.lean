import Verif.Lemmas.GroupInv
/-! Write path: the wire carries the frames of the batches. -/
namespace Qrpc

theorem frameOf_append {fs : List SFrame} {t : Nat} (f : SFrame) (h : t < fs.length) :
    frameOf (fs ++ [f]) t = frameOf fs t := by
  simp [frameOf, List.getElem?_append_left h, List.getD]

theorem flatOf_grow {fs : List SFrame} {ts : List Nat} (f : SFrame) (h : ∀ t ∈ ts, t < fs.length) :
    flatOf (fs ++ [f]) ts = flatOf fs ts := by
  unfold flatOf
  rw [List.map_congr_left]
  intro t ht
  rw [frameOf_append f (h t ht)]

theorem flatOf_append (fs : List SFrame) (a b : List Nat) : flatOf fs (a ++ b) = flatOf fs a ++ flatOf fs b := by
  simp [flatOf]

theorem flat_batch (s : GSt) : flatOf s.frames s.batch = s.bufs.flatten := rfl

theorem healthy_holds (p : TPc) : p.healthy = true → p.holds = true := by
  cases p <;> simp [TPc.healthy, TPc.holds]

set_option maxHeartbeats 4000000 in
theorem GInvD.step {cap s a s'} (hA : GInvA cap s) (hB : GInvB s) (h : GInvD s) (hs : gStep cap s a = some s') : GInvD s' := by
  obtain ⟨h1, h2, h3, h4, h5, h6, h7⟩ := h
  have u := hA.unique
  have hh := healthy_holds
  obtain ⟨b1, b2, -, -, -, -, b7, -, -, -, -⟩ := hB
  obtain ⟨a1, -, -, a4, -, -, -⟩ := hA
  have hnew : ∀ f, flatOf (s.frames ++ [f]) s.sent = flatOf s.frames s.sent :=
    fun f => flatOf_grow f fun t ht => Nat.lt_of_lt_of_le (h1 t ht) a4
  have hbr : ∀ i t, s.pc i = .write t → s.wire = flatOf s.frames s.sent := fun i t hp => h5 (h6 i (by simp [hp, TPc.healthy]))
  gstep_cases hs a
  all_goals constructor
  all_goals simp only [hnew]
  all_goals try first
    | assumption
    | grind [setAt, TPc.holds, TPc.healthy]
    | (have hx := hbr _ _ (by assumption); rw [flatOf_append, ← hx, flat_batch, List.length_append, List.take_length_add_append, List.length_take, Nat.min_eq_left (by omega)])
    | (intro hb; rw [hbr _ _ ‹_›, flatOf_append, flat_batch]; have hk := (by assumption : _ ∧ (_ → _)).2; simp only [Bool.or_eq_false_iff, Bool.not_eq_false'] at hb; rw [hk hb.2, List.take_length])

end Qrpc
