/-!
# Runs of transition systems

Every concurrent part of the model is a partial function `step : σ → α → Option σ`: an action is either impossible in a
state (`none`) or atomic. A property of all executions is a property of every state reached by every list of actions.
-/
namespace Qrpc

/-- Execute a list of actions. -/
def runActs {σ α : Type _} (step : σ → α → Option σ) : σ → List α → Option σ
  | s, [] => some s
  | s, a :: as => match step s a with
    | none => none
    | some s' => runActs step s' as

/-- Induction over runs. -/
theorem runActs_inv {σ α : Type _} {step : σ → α → Option σ} {P : σ → Prop}
    (hstep : ∀ s a s', P s → step s a = some s' → P s')
    {s : σ} {as : List α} {s' : σ} (h0 : P s) (hr : runActs step s as = some s') : P s' := by
  induction as generalizing s with
  | nil => simp only [runActs, Option.some.injEq] at hr; exact hr ▸ h0
  | cons a as ih =>
    simp only [runActs] at hr
    split at hr
    · simp at hr
    · next hs => exact ih (hstep _ _ _ h0 hs) hr

theorem runActs_append {σ α : Type _} {step : σ → α → Option σ} {s : σ} {as bs : List α} :
    runActs step s (as ++ bs) = (runActs step s as).bind fun s' => runActs step s' bs := by
  induction as generalizing s with
  | nil => rfl
  | cons a as ih =>
    simp only [List.cons_append, runActs]
    split
    · rfl
    · exact ih

end Qrpc
