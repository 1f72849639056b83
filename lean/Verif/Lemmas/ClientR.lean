import Verif.Lemmas.ClientInv
/-! Client: results are received once; ids; sleeping between dial attempts. -/
namespace Qrpc

set_option maxHeartbeats 4000000 in
theorem CInvR.step {c s a s'} (hA : CInvA s) (h : CInvR s) (hs : cStep c s a = some s') : CInvR s' := by
  obtain ⟨h1, h2⟩ := h
  have hsub := (registerAll_sublist s.frames s.respes s.batch).subset
  obtain ⟨a1, a2, a3, a4, a5, a6, a7, a8, a9, a10, -, a12, a13, a14, a15, a16⟩ := hA
  cstep_cases hs a
  all_goals constructor
  all_goals try simp only []
  all_goals try first
    | assumption
    | grind [setAt]

theorem clientRid_inj {g g' : Nat} (h : g < 2 ^ 63) (h' : g' < 2 ^ 63) (he : clientRid g = clientRid g') : g = g' := by
  have := congrArg UInt64.toNat he
  simp only [clientRid, UInt64.toNat_ofNat'] at this
  omega

set_option maxHeartbeats 4000000 in
theorem CInvI.step {c s a s'} (h : CInvI s) (hs : cStep c s a = some s') : CInvI s' := by
  obtain ⟨h1, h2, h3, h4, h5⟩ := h
  have hinj := @clientRid_inj
  cstep_cases hs a
  all_goals constructor
  all_goals try simp only []
  all_goals try first
    | assumption
    | grind [setAt, CPc.own]

theorem trail_fail (l : List Dial) (d : Dial) (h : d.ok = false) : trail (l ++ [d]) = trail l + 1 := by
  simp [trail, h]

theorem trail_ok (l : List Dial) (d : Dial) (h : d.ok = true) : trail (l ++ [d]) = 0 := by
  simp [trail, h]

theorem slept_snoc {n : Nat} {l : List Dial} {d : Dial}
    (h : ∀ k, k < l.length → (l.getD k ⟨0, false, false⟩).slept =
      (!(l.getD k ⟨0, false, false⟩).ok && decide (n ≤ trail (l.take (k + 1)))))
    (hd : d.slept = (!d.ok && decide (n ≤ trail (l ++ [d])))) :
    ∀ k, k < (l ++ [d]).length → ((l ++ [d]).getD k ⟨0, false, false⟩).slept =
      (!((l ++ [d]).getD k ⟨0, false, false⟩).ok && decide (n ≤ trail ((l ++ [d]).take (k + 1)))) := by
  intro k hk
  by_cases he : k < l.length
  · have := h k he
    rw [List.take_append_of_le_length (by omega)]
    simpa [List.getD, List.getElem?_append_left he] using this
  · have : k = l.length := by simp at hk; omega
    subst this
    rw [List.take_of_length_le (by simp)]
    simpa [List.getD] using hd

set_option maxHeartbeats 4000000 in
theorem CInvS.step {c s a s'} (h : CInvS c s) (hs : cStep c s a = some s') : CInvS c s' := by
  obtain ⟨h1, h2⟩ := h
  cstep_cases hs a
  all_goals constructor
  all_goals try simp only []
  all_goals try first
    | assumption
    | grind [CLp.count, trail_fail, trail_ok]
    | (apply slept_snoc h2; simp only [trail_ok]; simp; done)
    | (apply slept_snoc h2; rw [trail_fail _ _ rfl, h1 _ (by rw [‹s.loop = _›]; rfl)]; simp; done)

end Qrpc
