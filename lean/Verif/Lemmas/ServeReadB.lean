import Verif.Lemmas.ServeReadInv
namespace Qrpc

set_option maxHeartbeats 4000000 in
theorem RInvB.step {c s a s'} (hA : RInvA c s) (h : RInvB s) (hs : rdStep c s a = some s') : RInvB s' := by
  obtain ⟨h1, h2, h3, h4, h5, h6⟩ := h
  have hcap := hA.cap
  have hlt := hA.chLt
  have hst := hA.startsLt
  have hb := hA.blkLt
  have hi := hA.mainLt
  have hr := hA.rdLast
  have hcons : ∀ k rest, s.ch = k :: rest → ∀ q ∈ rest, k < q := by
    intro k rest he
    have := hA.chSorted
    rw [he, List.pairwise_cons] at this; exact this.1
  have hfa := fun x k (hk : k < s.arr.length) => frameAt_append (arr := s.arr) x hk
  have hrc := hA.chRd
  have hrest : ∀ k rest, s.ch = k :: rest → k + 1 = s.arr.length → rest = [] := by
    intro k rest he hk
    cases rest with
    | nil => rfl
    | cons q r =>
      have h1 := hcons k _ he q (by simp)
      have h2 := hlt q (by rw [he]; simp)
      omega
  have hbb : ∀ k, s.main.blk = some k → s.main.busy = true := by
    intro k; cases s.main <;> simp [MPc.blk, MPc.busy]
  clear hA
  rdstep_cases hs a
  all_goals constructor
  all_goals try simp only []
  all_goals try first
    | assumption
    | grind [MPc.item, RRd.item, MPc.blk, RRd.waits, MPc.busy]

end Qrpc
