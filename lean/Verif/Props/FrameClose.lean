import Verif.Model.FrameClose
import Verif.Lemmas.ClientN
/-!
# C143 Closing a request closes the transport connection that it came in on
-/
namespace Qrpc

/-- What a step other than the end of a handler and `closeRWC` does to the handlers and the number of the transport connection. -/
theorem cStep_gen {c : CConf} {s s' : CSt} {a : CAct} (hs : cStep c s a = some s') (h1 : a ≠ .handlerDone) :
    (s'.gen = s.gen ∧ s'.handlers = s.handlers ∧ s'.handled.length = s.handled.length) ∨
    (s'.gen = s.gen ∧ s'.handlers = s.handlers + 1 ∧ s'.handled.length = s.handled.length + 1) ∨
    (s'.gen = s.gen + 1 ∧ s'.handlers = s.handlers ∧ s'.handled.length = s.handled.length ∧ s.loop.running = false) := by
  cstep_cases hs a
  all_goals first
    | (exact absurd rfl h1)
    | (left; exact ⟨rfl, rfl, rfl⟩)
    | (right; left; simp; done)
    | (right; right; simp_all [CLp.running])

structure FcInv (c : CConf) (d : Bool) (x : FcSt) : Prop where
  base : CInv c x.s
  num : x.of.length = x.s.handled.length
  live : x.live.length = x.s.handlers
  own : ∀ k ∈ x.live, x.of[k]? = some x.s.gen
  hits : ∀ k g, (k, g, true) ∈ x.hits → x.of[k]? = some g
  kept : ∀ k g b, (k, g, b) ∈ x.hits → k < x.of.length

theorem FcInv.step {c : CConf} {d : Bool} {x x' : FcSt} {a : FcAct} (h : FcInv c d x) (hs : fcStep c d x a = some x') : FcInv c d x' := by
  obtain ⟨h1, h2, h3, h4, h5, h6⟩ := h
  unfold fcStep at hs
  split at hs
  · simp at hs
  · simp at hs
  · next a hnd _ =>
    split at hs
    · simp at hs
    · next s' hc =>
      have hb := h1.step hc
      rcases cStep_gen hc (fun he => hnd (by rw [he])) with ⟨g1, g2, g3⟩ | ⟨g1, g2, g3⟩ | ⟨g1, g2, g3, g4⟩
      · rw [if_neg (by omega)] at hs
        cases hs
        exact ⟨hb, by simp only []; omega, by simp only []; omega, by simpa only [g1] using h4, h5, h6⟩
      · rw [if_pos (by omega)] at hs
        cases hs
        refine ⟨hb, by simp; omega, by simp; omega, ?_, ?_, ?_⟩
        · intro k hk
          simp only [List.mem_cons] at hk
          rcases hk with rfl | hk
          · simp [g1]
          · have := h4 k hk
            simp only [g1]
            rw [List.getElem?_append_left (by grind)]
            exact this
        · intro k g hk
          have := h5 k g hk
          simp only []
          rw [List.getElem?_append_left (by grind)]
          exact this
        · intro k g b hk
          have := h6 k g b hk
          simp; omega
      · rw [if_neg (by omega)] at hs
        cases hs
        have := (h1.l.idle g4).2.2
        have hnil : x.live = [] := List.eq_nil_of_length_eq_zero (by omega)
        exact ⟨hb, by simp only []; omega, by simp only []; omega, by simp [hnil], h5, h6⟩
  · split at hs
    · next k hk =>
      split at hs
      · simp at hs
      · next s' hc =>
        cases hs
        have hb := h1.step hc
        simp only [cStep] at hc
        split at hc
        · simp only [Option.some.injEq] at hc
          subst hc
          refine ⟨hb, h2, ?_, fun k' hk' => h4 k' (List.mem_of_mem_erase hk'), h5, h6⟩
          simp only [List.length_erase, hk, if_true]
          omega
        · simp at hc
    · simp at hs
  · rename_i k
    split at hs
    · simp at hs
    · next g hk =>
      split at hs
      · cases hs; exact ⟨h1, h2, h3, h4, h5, h6⟩
      · split at hs
        · cases hs; exact ⟨h1, h2, h3, h4, h5, h6⟩
        · split at hs
          · simp at hs
          · next s' hc =>
            cases hs
            have hb := h1.step hc
            have hlt : k < x.of.length := by grind
            rcases cStep_gen hc (by simp) with ⟨g1, g2, g3⟩ | ⟨g1, g2, g3⟩ | ⟨g1, g2, g3, g4⟩
            · refine ⟨hb, by simp only []; omega, by simp only []; omega, by simpa only [g1] using h4, ?_, ?_⟩
              · intro k' g' hm
                simp only [List.mem_append, List.mem_singleton, Prod.mk.injEq] at hm
                rcases hm with hm | ⟨rfl, rfl, hm⟩
                · exact h5 k' g' hm
                · exact h4 _ (by simpa using hm.symm)
              · intro k' g' b hm
                simp only [List.mem_append, List.mem_singleton, Prod.mk.injEq] at hm
                rcases hm with hm | ⟨rfl, _, _⟩
                · exact h6 k' g' b hm
                · exact hlt
            · simp only [cStep] at hc; split at hc <;> simp at hc; subst hc; simp at g3
            · simp only [cStep] at hc; split at hc <;> simp at hc; subst hc; simp at g1

theorem FcInv.reach {c : CConf} {d : Bool} {acts : List FcAct} {x : FcSt} (h : fcRun c d acts = some x) : FcInv c d x :=
  runActs_inv (P := FcInv c d) (fun _ _ _ hp hs => hp.step hs)
    ⟨.init c d, by simp [CSt.init], by simp [CSt.init], by simp, by simp, by simp⟩ h

/-- **C143, in part.** In every execution, whatever transport connection is closed by Close of a request whose handler is still running is
the one that the request came in on. Missing: a request that is closed after its handler has returned (`C143_refuted`). -/
theorem C143_partial {c : CConf} {d : Bool} {acts : List FcAct} {x : FcSt} (hrun : fcRun c d acts = some x) {k g : Nat}
    (h : (k, g, true) ∈ x.hits) : x.of[k]? = some g := (FcInv.reach hrun).hits k g h

/-- A running handler's transport connection is the current one: the next one is made only after all handlers have returned. -/
theorem C143_current {c : CConf} {d : Bool} {acts : List FcAct} {x : FcSt} (hrun : fcRun c d acts = some x) {k : Nat} (h : k ∈ x.live) :
    x.of[k]? = some x.s.gen := (FcInv.reach hrun).own k h

/-- After Close of a request there is no transport connection, until the loop makes the next one - unless the request came in on a transport
connection made before newConnection: then Close panics and closes nothing (C69). -/
theorem C143_closes {c : CConf} {d : Bool} {acts : List FcAct} {x : FcSt} (hrun : fcRun c d acts = some x) {k g : Nat} (hk : x.of[k]? = some g) :
    ∃ x', fcStep c d x (.close k) = some x' ∧
      (if d = true ∧ g = 1 then x'.s = x.s ∧ x'.panics = x.panics ++ [k] else x'.s.rwc = false) := by
  have hlt : k < x.of.length := by grind
  have hne : x.s.handled ≠ [] := by
    intro h
    have := (FcInv.reach hrun).num
    rw [h] at this
    simp at this
    rw [this] at hlt
    simp at hlt
  simp only [fcStep, hk]
  split
  · exact ⟨_, rfl, rfl, rfl⟩
  · cases hr : x.s.rwc with
    | false => exact ⟨_, rfl, hr⟩
    | true => simp [cStep, hr, hne]

/-- The transport connection is made by the loop, a request comes in and its handler starts. -/
def exFcUp : List FcAct := ([.lGo, .dialOk, .lGo, .lGo, .rGo, .rGo, .rFrame ⟨2, false, false, true⟩, .rGo] : List CAct).map .base

/-- The connection is lost and made anew. -/
def exFcAgain : List FcAct := ([.rErr, .rGo, .lGo, .lGo, .lGo, .wDone, .wGo, .lGo, .lGo, .lGo, .dialOk, .lGo] : List CAct).map .base

/-- **C143 is false of the code**: a request that came in on transport connection 1, closed after its handler has returned and the client has
reconnected, closes transport connection 2. -/
theorem C143_refuted : (fcRun ⟨1, true, 1, true⟩ false (exFcUp ++ [.ret 0] ++ exFcAgain ++ [.close 0])).map (fun x => (x.of, x.hits, x.s.rwc)) =
    some ([1], [(0, 2, false)], false) := by rfl

example : (fcRun ⟨1, true, 1, true⟩ false (exFcUp ++ [.close 0, .close 0])).map (fun x => (x.of, x.live, x.hits, x.s.rwc)) =
      some ([1], [0], [(0, 1, true)], false) ∧
    (fcRun ⟨1, true, 1, true⟩ true (([.lGo, .lGo, .lGo, .rGo, .rGo, .rFrame ⟨2, false, false, true⟩, .rGo] : List CAct).map .base ++ [.close 0])).map
      (fun x => (x.of, x.hits, x.panics, x.s.rwc)) = some ([1], [], [0], true) := ⟨by rfl, by rfl⟩

end Qrpc
