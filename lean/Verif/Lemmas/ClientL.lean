import Verif.Lemmas.ClientInv
/-! Client: the life of the connection. -/
namespace Qrpc

set_option maxHeartbeats 4000000 in
theorem CInvL.step {c s a s'} (h : CInvL c s) (hs : cStep c s a = some s') : CInvL c s' := by
  obtain ⟨h1, h2, h3, h4, h5, h6, h7, h8, h9, h10, h11, h12, h13⟩ := h
  simp only [CSt.done] at *
  cstep_cases hs a
  all_goals constructor
  all_goals try simp only [CSt.done]
  all_goals try first
    | assumption
    | grind [setAt, CLp.connected, CLp.running, CLp.after]
    | (simp only [CSt.done] at *; grind [CLp.connected, CLp.running, CLp.after])

end Qrpc
