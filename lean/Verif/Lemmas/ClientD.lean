import Verif.Lemmas.ClientInv
/-! Client: successful first frames are registered. -/
namespace Qrpc

theorem serveDecide_toC_ne_ok {f : SFrame} {ex add : Bool} {r : SRes} (h : serveDecide f ex add = some r) : r.toC ≠ .ok := by
  unfold serveDecide at h
  repeat' (split at h)
  all_goals try simp only [Option.some.injEq, reduceCtorEq] at h
  all_goals (subst h; simp [SRes.toC])

set_option maxHeartbeats 4000000 in
theorem CInvD.step {c s a s'} (hA : CInvA s) (h : CInvD s) (hs : cStep c s a = some s') : CInvD s' := by
  obtain ⟨h1, h2, h3, h4⟩ := h
  obtain ⟨a1, a2, a3, a4, a5, a6, a7, a8, a9, a10, -, a12, -, -, a15, a16⟩ := hA
  have hfr : ∀ f t, t < s.deq → cframeOf (s.frames ++ [f]) t = cframeOf s.frames t :=
    fun f t ht => cframeOf_append f (Nat.lt_of_lt_of_le ht a3)
  have hd1 : ∀ f ex add r, clientDecideFirst f ex add = some r → r.toC ≠ .ok := fun _ _ _ _ h => serveDecide_toC_ne_ok h
  have hd2 : ∀ f ex add r, clientDecideMore f ex add = some r → r.toC ≠ .ok := fun _ _ _ _ h => serveDecide_toC_ne_ok h
  cstep_cases hs a
  all_goals constructor
  all_goals try simp only []
  all_goals try first
    | assumption
    | grind [setAt, CWr.collecting, CWr.distributing]
    | (intro t ht; have := (List.of_mem_zip ht).1; grind)

end Qrpc
