import Verif.Lemmas.GroupInv
/-! Write path: a refused frame is never sent and its caller is told so; reachable states. -/
namespace Qrpc

/-- H: results belong to dequeued tickets (except the context's error). -/
structure GInvH (s : GSt) : Prop where
  pc : ∀ i t r, (s.pc i).res = some (t, r) → r = .fail .ctx ∨ t < s.deq
  rets : ∀ t r, (t, r) ∈ s.rets → r = .fail .ctx ∨ t < s.deq

theorem GInvH.init : GInvH GSt.init := by
  constructor <;> simp [GSt.init, TPc.res]

set_option maxHeartbeats 4000000 in
theorem GInvH.step {cap s a s'} (hB : GInvB s) (h : GInvH s) (hs : gStep cap s a = some s') : GInvH s' := by
  obtain ⟨h1, h2⟩ := h
  obtain ⟨b1, -, -, -, -, -, -, -, -, -, -⟩ := hB
  gstep_cases hs a
  all_goals constructor
  all_goals simp only []
  all_goals try first
    | assumption
    | grind [setAt, TPc.res]

/-- Ticket `t` was refused with result `r`. -/
structure Refused (t : Nat) (r : SRes) (s : GSt) : Prop where
  lt : t < s.deq
  sent : t ∉ s.sent
  batch : t ∉ s.batch
  send : t ∉ s.toSend.map Prod.fst
  slot : ∀ r', s.slot t = some r' → r' = r
  pc : ∀ i r', (s.pc i).res = some (t, r') → r' = r ∨ r' = .fail .ctx
  rets : ∀ r', (t, r') ∈ s.rets → r' = r ∨ r' = .fail .ctx

set_option maxHeartbeats 4000000 in
theorem Refused.step {cap t r s a s'} (h : Refused t r s) (hs : gStep cap s a = some s') : Refused t r s' := by
  obtain ⟨h1, h2, h3, h4, h5, h6, h7⟩ := h
  gstep_cases hs a
  all_goals constructor
  all_goals simp only [map_fst_zip_batch, map_fst_const]
  all_goals try first
    | assumption
    | grind [setAt, TPc.res]

end Qrpc
