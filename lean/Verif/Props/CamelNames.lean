import Verif.Props.Generator
/-! # C90, the names of services -/
namespace Qrpc
open Qrpc.Spec

/-- In `l` no lower-case letter comes right after a digit or an underscore. -/
def Spec.Humps (l : Bytes) : Prop :=
  ∀ (a b : Bytes) (d c : UInt8), l = a ++ d :: c :: b → (0x30 ≤ d ∧ d ≤ 0x39) ∨ d = 0x5f → ¬ (0x61 ≤ c ∧ c ≤ 0x7a)

theorem humps_nil : Humps [] := by
  intro a b d c h; cases a <;> cases h

theorem humps_cons {x : UInt8} {l : Bytes} (h : Humps l) (hx : isDigitB x = true ∨ x = 0x5f → headLower l = false) : Humps (x :: l) := by
  intro a b d c e hd hc
  cases a with
  | nil =>
    simp only [List.nil_append, List.cons.injEq] at e
    obtain ⟨rfl, rfl⟩ := e
    have := hx (hd.imp (fun h => by simp [isDigitB, h.1, h.2]) id)
    simp [headLower, isLowerB, hc.1, hc.2] at this
  | cons y a =>
    simp only [List.cons_append, List.cons.injEq] at e
    exact h a b d c e.2 hd hc

theorem camelLoop_humps : ∀ (s : Bytes) (run : Bool), Humps (camelLoop run s) := by
  intro s
  induction s with
  | nil => intro run; exact humps_nil
  | cons c r ih =>
    intro run
    have h1 := digit_facts c
    have h2 := lower_facts c
    have h3 := camelLoop_false_head r
    rw [camelLoop]
    split
    · rename_i h
      refine humps_cons (ih _) fun hx => ?_
      simp only [Bool.and_eq_true] at h
      rcases hx with hx | hx
      · exact absurd h.2 (by simp [(h1 hx).1])
      · subst hx; exact absurd h.2 (by decide)
    · split
      · exact ih _
      · rename_i h
        split
        · exact humps_cons (ih _) fun _ => h3
        · rename_i hd
          refine humps_cons (ih _) fun hx => ?_
          split at hx
          · rename_i hl
            rcases hx with hx | hx
            · rw [(h2 hl).2.1] at hx; cases hx
            · exact absurd hx (h2 hl).2.2
          · rcases hx with hx | hx
            · exact absurd hx hd
            · subst hx
              have hr : headLower r = false := by simpa using h
              rw [camelLoop_true_head hr]; exact h3

/-- **C90, names.** The name of a service or sub service, as the generator keeps it (generator.go:41, 67), begins neither with a
lower-case letter nor with an underscore, and no lower-case letter in it comes right after a digit or an underscore. -/
theorem C90_names (s : Bytes) :
    (∀ c r, camelCase s = c :: r → c ≠ 0x5f ∧ ¬ (0x61 ≤ c ∧ c ≤ 0x7a)) ∧ Humps (camelCase s) := by
  cases s with
  | nil => exact ⟨fun _ _ h => (by cases h), humps_nil⟩
  | cons x s =>
    rw [camelCase]
    split
    · exact ⟨fun c r h => (by cases h; decide), humps_cons (camelLoop_humps _ _) fun h => absurd h (by decide)⟩
    · rename_i hx
      refine ⟨fun c r h => ?_, camelLoop_humps _ _⟩
      obtain ⟨d, t, h', hd⟩ := camelLoop_first (r := s) hx
      have h0 := camelLoop_false_head (x :: s)
      rw [h] at h0 h'
      cases h'
      exact ⟨hd, fun hc => by simp [headLower, isLowerB, hc.1, hc.2] at h0⟩

/-- `_my_field2name` and `a_2b` become `XMyField2Name` and `A_2B`. -/
example : camelCase "_my_field2name".toUTF8.toList = "XMyField2Name".toUTF8.toList ∧
    camelCase "a_2b".toUTF8.toList = "A_2B".toUTF8.toList := by decide +kernel

end Qrpc
