import Verif.Model.Run
/-! Sums over a range of goroutines, and runs in which every step decreases a measure. -/
namespace Qrpc

def sumTo (n : Nat) (f : Nat → Nat) : Nat := ((List.range n).map f).sum

theorem sumTo_succ (n : Nat) (f : Nat → Nat) : sumTo (n + 1) f = sumTo n f + f n := by
  simp [sumTo, List.range_succ]

theorem sumTo_le {n : Nat} {f g : Nat → Nat} (h : ∀ i, i < n → g i ≤ f i) : sumTo n g ≤ sumTo n f := by
  induction n with
  | zero => simp [sumTo]
  | succ n ih =>
    rw [sumTo_succ, sumTo_succ]
    have := ih fun i hi => h i (by omega)
    have := h n (by omega)
    omega

theorem sumTo_lt {n : Nat} {f g : Nat → Nat} (h : ∀ i, i < n → g i ≤ f i) {k : Nat} (hk : k < n) (hlt : g k < f k) :
    sumTo n g < sumTo n f := by
  induction n with
  | zero => omega
  | succ n ih =>
    rw [sumTo_succ, sumTo_succ]
    have hn := h n (by omega)
    by_cases hkn : k = n
    · subst hkn
      have := sumTo_le fun i (hi : i < k) => h i (by omega)
      omega
    · have := ih (fun i hi => h i (by omega)) (by omega)
      omega

theorem sumTo_change {n : Nat} {f g : Nat → Nat} {k : Nat} (hk : k < n) (h : ∀ i, i ≠ k → g i = f i) :
    sumTo n g + f k = sumTo n f + g k := by
  induction n with
  | zero => omega
  | succ n ih =>
    rw [sumTo_succ, sumTo_succ]
    by_cases hkn : k = n
    · subst hkn
      have h1 := sumTo_le fun i (hi : i < k) => Nat.le_of_eq (h i (by omega))
      have h2 := sumTo_le fun i (hi : i < k) => Nat.le_of_eq (h i (by omega)).symm
      omega
    · have := ih (by omega)
      have := h n (by omega)
      omega

theorem sumTo_bound {n b : Nat} {f : Nat → Nat} (h : ∀ i, i < n → f i ≤ b) : sumTo n f ≤ n * b := by
  induction n with
  | zero => simp [sumTo]
  | succ n ih =>
    rw [sumTo_succ, Nat.succ_mul]
    have := ih fun i hi => h i (by omega)
    have := h n (by omega)
    omega

/-- A run in which every step keeps `P` and decreases `m` is no longer than `m` is at its start. -/
theorem run_bounded {σ α : Type} {step : σ → α → Option σ} (P : σ → Prop) (m : σ → Nat) (ok : α → Prop)
    (hstep : ∀ s a s', P s → ok a → step s a = some s' → P s' ∧ m s' < m s) :
    ∀ (as : List α) (s s' : σ), P s → (∀ a ∈ as, ok a) → runActs step s as = some s' → P s' ∧ as.length + m s' ≤ m s := by
  intro as
  induction as with
  | nil => intro s s' hP _ h; simp only [runActs, Option.some.injEq] at h; subst h; simp [hP]
  | cons a as ih =>
    intro s s' hP hok h
    rw [runActs] at h
    cases h1 : step s a with
    | none => rw [h1] at h; simp at h
    | some s1 =>
      rw [h1] at h
      obtain ⟨hP1, hlt⟩ := hstep s a s1 hP (hok a (by simp)) h1
      obtain ⟨h2, h3⟩ := ih s1 s' hP1 (fun b hb => hok b (by simp [hb])) h
      refine ⟨h2, ?_⟩
      simp only [List.length_cons]; omega

end Qrpc
