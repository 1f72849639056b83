import Verif.Lemmas.StreamInv
/-! What every step of the stream system does to the log. -/
namespace Qrpc
open Spec

/-- What every step does to the log, the allocation and the keys. -/
structure StepLog (s s' : SSt) : Prop where
  nx : s.next ≤ s'.next
  ky : ∀ r, r < s.next → (s'.str r).key = (s.str r).key
  cc : s.connCancelled = true → s'.connCancelled = true
  rls : s.released = true → s'.released = true
  lg : s'.log = s.log ∨ ∃ e, s'.log = s.log ++ [e] ∧ (∀ r, evRef e = some r → r < s.next ∧ s.released = false) ∧
    (∀ r f, e = .rst r f → FrameFlag.isRst f.flags = true) ∧
    (∀ r f, e = .bound r f ∨ e = .delivered r f ∨ e = .dropped r f → FrameFlag.isRst f.flags = false) ∧
    (∀ r f, e = .dropped r f → s.connCancelled = true ∨ (s.str r).closedPeer = true)

/-- The frame being worked on is not a reset. -/
def RPc.notRst : RPc → Prop
  | .bindTest _ f | .addLoad _ f | .addSelect _ f | .waitDone _ f => FrameFlag.isRst f.flags = false
  | _ => True

set_option maxHeartbeats 4000000 in
theorem notRst_step {s a s'} (h : s.r.notRst) (hs : sStep s a = some s') : s'.r.notRst := by
  sstep_cases hs a
  all_goals simp only []
  all_goals first
    | assumption
    | grind [RPc.notRst]

set_option maxHeartbeats 8000000 in
theorem sStep_log {s a s'} (hA : SInvA s) (hE : SInvE s) (hn : s.r.notRst) (hs : sStep s a = some s') : StepLog s s' := by
  obtain ⟨a1, a2, a3, a4, a5, a6, a7⟩ := hA
  have h2 := hE.rl
  sstep_cases hs a
  all_goals clear a7 a2 hE
  all_goals constructor
  all_goals simp only []
  all_goals first
    | assumption
    | (intros; assumption)
    | exact Nat.le_refl _
    | exact Nat.le_succ _
    | exact Or.inl rfl
    | (refine Or.inr ⟨_, rfl, ?_⟩; grind [RPc.ok, RPc.logOK, evRef, RPc.notRst])
    | grind [releaseStream]

end Qrpc
