import Verif.Lemmas.ApiInv
namespace Qrpc

set_option maxHeartbeats 4000000 in
theorem AInvM.step {s s' : ASt} {a : AAct} (h : AInvM s) (hs : aStep s a = some s') : AInvM s' := by
  obtain ⟨h1, h2⟩ := h
  astep_cases hs a
  all_goals constructor
  all_goals try simp only []
  all_goals try first
    | assumption
    | grind [setAt, APc.holds]

theorem APc.dials_holds {p : APc} (h : p.dials = true) : p.holds = true := by
  cases p <;> simp [APc.dials, APc.holds] at *

set_option maxHeartbeats 4000000 in
theorem AInvC.step {s s' : ASt} {a : AAct} (hm : AInvM s) (h : AInvC s) (hs : aStep s a = some s') : AInvC s' := by
  obtain ⟨h1, h2, h3, h4⟩ := h
  obtain ⟨m1, m2⟩ := hm
  have e1 : ∀ i, (s.pc i).dials = true → s.mu = some i := fun i hi => m1 i (APc.dials_holds hi)
  clear m1 m2
  astep_cases hs a
  all_goals constructor
  all_goals try simp only []
  all_goals try first
    | assumption
    | grind [setAt, APc.dials, APc.closing]

end Qrpc
