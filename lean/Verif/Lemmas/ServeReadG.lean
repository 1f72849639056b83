import Verif.Lemmas.ServeReadInv
/-! What the reader of a server connection waits for. -/
namespace Qrpc

/-- A reader at the gate without a token is waited for by the blocking request it has handed over. -/
structure RInvG (s : RSt) : Prop where
  gate : s.rd = .gate → s.tok = false → s.main.busy = true ∨ ∃ k ∈ s.ch, (frameAt s.arr k).nonblock = false
  gone : s.rd = .exit ∨ s.rd = .off → s.ctx = true
  down : s.main.down = true → s.ctx = true
  sub : s.rd = .sub → s.arr ≠ []

theorem RInvG.init (t : Nat) : RInvG (RSt.init t) := by
  constructor <;> simp [RSt.init, MPc.down]

set_option maxHeartbeats 1000000 in
theorem RInvG.step {c s a s'} (h : RInvG s) (hs : rdStep c s a = some s') : RInvG s' := by
  obtain ⟨h1, h2, h3, h4⟩ := h
  rdstep_cases hs a
  all_goals constructor
  all_goals simp_all [MPc.busy, MPc.down]
  all_goals grind [MPc.busy, MPc.down]

end Qrpc
