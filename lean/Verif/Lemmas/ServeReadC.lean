import Verif.Lemmas.ServeReadInv
namespace Qrpc

set_option maxHeartbeats 4000000 in
theorem exclusive_step {c s a s'} (hA : RInvA c s) (hB : RInvB s) (h : exclusive s.arr s.log) (hs : rdStep c s a = some s') :
    exclusive s'.arr s'.log := by
  have hx := hB.excl
  have hst := hA.startsLt
  have key : ∀ x, exclusive (s.arr ++ [x]) s.log := by
    intro x pre e post heq j hj k hk hb
    refine h pre e post heq j hj k hk ?_
    rw [frameAt_append _ (hst k (by rw [heq]; simp [hk]))] at hb
    exact hb
  have hsn := fun arr e h => @exclusive_snoc arr s.log e h
  rdstep_cases hs a
  all_goals try simp only []
  all_goals try first
    | assumption
    | exact key _
    | (apply hsn
       · first | assumption | exact key _
       · grind)

set_option maxHeartbeats 4000000 in
theorem RInvC.step {c s a s'} (hA : RInvA c s) (hB : RInvB s) (h : RInvC c s) (hs : rdStep c s a = some s') : RInvC c s' := by
  obtain ⟨h1, h2, h3, h4⟩ := h
  have hfa := fun x k (hk : k < s.arr.length) => frameAt_append (arr := s.arr) x hk
  have hb := hA.blkLt
  have hbl := hB.blk
  have he := fun k => @List.length_erase_of_mem Nat _ _ k s.running
  have he' := fun k => @List.length_erase_of_mem Nat _ _ k s.ending
  have hp := fun k => @List.length_pos_of_mem Nat k s.running
  have hp' := fun k => @List.length_pos_of_mem Nat k s.ending
  clear hA hB
  rdstep_cases hs a
  all_goals constructor
  all_goals try simp only []
  all_goals try first
    | assumption
    | grind [MPc.spawning, MPc.blk]

end Qrpc
