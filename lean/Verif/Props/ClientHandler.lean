import Verif.Model.ClientHandler
/-! # Every request handled by a client is answered: C28 (client side) -/
namespace Qrpc

def CKPc.live : CKPc → Bool
  | .running | .test | .resetting => true
  | _ => false

structure CKInv (s : CKSt) : Prop where
  known : ∀ k, s.pc k ≠ .off ↔ k < s.n
  over : ∀ k, s.pc k = .over → s.closedSelf k = true ∨ s.down = true
  wg : s.wg = (List.range s.n).countP fun k => (s.pc k).live

theorem countP_setAt (f : Nat → CKPc) (k : Nat) (x : CKPc) (n : Nat) (hk : k < n) :
    ((List.range n).countP fun j => (setAt f k x j).live) + (if (f k).live then 1 else 0) =
      ((List.range n).countP fun j => (f j).live) + (if x.live then 1 else 0) := by
  induction n with
  | zero => omega
  | succ n ih =>
    rw [List.range_succ, List.countP_append, List.countP_append]
    simp only [List.countP_singleton]
    by_cases h : k = n
    · subst h
      have : ((List.range k).countP fun j => (setAt f k x j).live) = ((List.range k).countP fun j => (f j).live) := by
        apply List.countP_congr
        intro j hj
        have : j ≠ k := by have := List.mem_range.1 hj; omega
        simp [setAt, this]
      rw [this]
      simp only [setAt, if_true]
      omega
    · have := ih (by omega)
      have e : setAt f k x n = f n := by simp [setAt, Ne.symm h]
      rw [e]
      omega

theorem countP_new (f : Nat → CKPc) (n : Nat) (h : f n = .off) :
    ((List.range (n + 1)).countP fun j => (setAt f n .running j).live) = ((List.range n).countP fun j => (f j).live) + 1 := by
  have := countP_setAt f n .running (n + 1) (by omega)
  rw [h] at this
  have e : ((List.range (n + 1)).countP fun j => (f j).live) = ((List.range n).countP fun j => (f j).live) := by
    rw [List.range_succ, List.countP_append]
    simp [h, CKPc.live]
  simp [CKPc.live] at this e ⊢
  omega

set_option maxHeartbeats 1000000 in
theorem CKInv.step {s s' : CKSt} {a : CKAct} (h : CKInv s) (hs : ckStep s a = some s') : CKInv s' := by
  obtain ⟨h1, h2, h3⟩ := h
  have hc := fun k x hk => countP_setAt s.pc k x s.n hk
  have hn := countP_new s.pc s.n (by have := h1 s.n; apply Classical.byContradiction; intro hne; have := this.1 hne; omega)
  have hk : ∀ k, s.pc k ≠ .off → k < s.n := fun k => (h1 k).1
  cases a <;> simp only [ckStep] at hs <;> (repeat' (split at hs)) <;>
    first | (simp at hs; done) | (simp only [Option.some.injEq] at hs; subst hs) | skip
  all_goals constructor
  all_goals try first
    | assumption
    | grind [setAt, CKPc.live]
  all_goals
    rename_i h _
    have := hc _ .over (hk _ (by rw [h]; simp))
    rw [h] at this
    simp only [show CKPc.test.live = true from rfl, show CKPc.resetting.live = true from rfl, show CKPc.over.live = false from rfl,
      if_true, Bool.false_eq_true, if_false] at this ⊢
    omega

theorem CKInv.reach {acts : List CKAct} {s : CKSt} (h : ckRun acts = some s) : CKInv s :=
  runActs_inv (P := CKInv) (fun _ _ _ hi hs => hi.step hs) ⟨by simp [CKSt.init], by simp [CKSt.init], rfl⟩ h

/-- **C28, client, answered.** In every execution, when the goroutine of a request from the server has ended - its handler returned
or panicked and `handleRequestPanic` is over - the local side of the request's stream is closed, or the connection is down. -/
theorem C28_client_answered {acts : List CKAct} {s : CKSt} (hrun : ckRun acts = some s) {k : Nat} (hk : s.pc k = .over) :
    s.closedSelf k = true ∨ s.down = true := (CKInv.reach hrun).over k hk

/-- **C28, client, the wait group**: `loopWG` counts exactly the requests whose goroutine has not ended; it is zero iff every request
handed over is over. -/
theorem C28_client_wg {acts : List CKAct} {s : CKSt} (hrun : ckRun acts = some s) : s.wg = 0 ↔ ∀ k, k < s.n → s.pc k = .over := by
  have h := CKInv.reach hrun
  rw [h.wg, List.countP_eq_zero]
  constructor
  · intro hz k hk
    have h0 := hz k (List.mem_range.2 hk)
    have hne := (h.known k).2 hk
    cases hp : s.pc k <;> simp_all [CKPc.live]
  · intro ho k hk
    simp [ho k (List.mem_range.1 hk), CKPc.live]

/-- **C28, client, the cleanup goes through**, whatever the handler did and however it ended: at most two more steps of its own. -/
theorem C28_client_cleanup {s : CKSt} {k : Nat} (hk : s.pc k = .test) :
    ∃ acts s', acts.length ≤ 2 ∧ runActs ckStep s acts = some s' ∧ s'.pc k = .over ∧ s'.closedSelf k = true := by
  by_cases hc : s.closedSelf k = true
  · exact ⟨[.test k], _, by simp, by simp [runActs, ckStep, hk, hc]; rfl, by simp [setAt], by simp [hc]⟩
  · refine ⟨[.test k, .rst k true], _, by simp, by simp [runActs, ckStep, hk, hc, setAt]; rfl, ?_, ?_⟩ <;> simp [setAt]

/-- **C28, client, no reset after a final frame**: a handler that answered does not have its stream reset. -/
theorem C28_client_no_reset {s s' : CKSt} {k : Nat} (hc : s.closedSelf k = true) (hs : ckStep s (.test k) = some s') :
    s'.pc k = .over := by
  by_cases hp : s.pc k = .test
  · simp [ckStep, hp, hc] at hs; subst hs; simp [setAt]
  · simp [ckStep, hp] at hs

/-- Three requests: one answered, one panics before answering, one returns without an answer when the connection is lost. -/
example : (ckRun [.start, .start, .start, .final 0, .panic 1, .ret 0, .test 0, .test 1, .rst 1 true, .ret 2, .lost, .test 2, .rst 2 false]).map
    (fun s => ([s.pc 0, s.pc 1, s.pc 2], [s.closedSelf 0, s.closedSelf 1, s.closedSelf 2], s.wg, s.panics)) =
    some ([.over, .over, .over], [true, true, false], 0, 1) := by rfl

end Qrpc
