import Verif.Lemmas.StreamA
import Verif.Lemmas.StreamB
import Verif.Lemmas.StreamC
import Verif.Lemmas.StreamD
import Verif.Lemmas.StreamE
import Verif.Lemmas.StreamG
import Verif.Lemmas.StreamLog
/-! Invariants of the stream system, part F: order of events; all invariants together. -/
namespace Qrpc
open Spec

structure SInvF (s : SSt) : Prop where
  nr : s.r.notRst
  order : ∀ r1 r2, r1 < r2 → r2 < s.next → (s.str r1).key = (s.str r2).key →
    EachAfter (fun pre e => evRef e = some r2 → peerEnded r1 pre) s.log
  dropOrder : s.connCancelled = false → EachAfter (fun pre e => ∀ r f, e = .dropped r f → peerEnded r pre) s.log
  rstF : ∀ r f, SEv.rst r f ∈ s.log → FrameFlag.isRst f.flags = true
  outF : ∀ r f, SEv.bound r f ∈ s.log ∨ SEv.delivered r f ∈ s.log ∨ SEv.dropped r f ∈ s.log → FrameFlag.isRst f.flags = false

theorem SInvF.init : SInvF SSt.init := by
  constructor <;> simp [SSt.init, RPc.notRst, EachAfter]

theorem SInvF.step {s a s'} (hA : SInvA s) (hC : SInvC s) (hD : SInvD1 s) (hE : SInvE s) (h : SInvF s)
    (hA' : SInvA s') (hE' : SInvE s') (hs : sStep s a = some s') : SInvF s' := by
  have hl := sStep_log hA hE h.nr hs
  have hnr := notRst_step h.nr hs
  rcases hl with ⟨nx, ky, cc, rls, hlg⟩
  have old : ∀ r1 r2, r1 < r2 → r2 < s'.next → (s'.str r1).key = (s'.str r2).key →
      EachAfter (fun pre e => evRef e = some r2 → peerEnded r1 pre) s.log := by
    intro r1 r2 h12 h2 hk
    by_cases hlt : r2 < s.next
    · exact h.order r1 r2 h12 hlt (by rw [← ky r1 (by omega), ← ky r2 hlt]; exact hk)
    · intro pre e post heq he
      exfalso
      have hm : e ∈ s.log := by rw [heq]; simp
      have hf : ∃ f, resFrame e = some f := by cases e <;> simp_all [evRef, resFrame]
      obtain ⟨f, hf⟩ := hf
      have := (hD.ev e hm r2 f he hf).1
      omega
  rcases hlg with hlg | ⟨e, hlg, hr, hrst, hout, hdrop⟩
  · constructor
    · exact hnr
    · rw [hlg]; exact old
    · rw [hlg]; intro hcc; exact h.dropOrder (by cases hc : s.connCancelled <;> simp_all)
    · rw [hlg]; exact h.rstF
    · rw [hlg]; exact h.outF
  · constructor
    · exact hnr
    · intro r1 r2 h12 h2 hk
      rw [hlg]
      refine EachAfter.snoc (old r1 r2 h12 h2 hk) ?_
      intro he
      obtain ⟨hlt, hrel⟩ := hr r2 he
      have hrem : (s.str r1).removals ≠ 0 :=
        hE.prior r1 r2 h12 hlt (by rw [← ky r1 (by omega), ← ky r2 hlt]; exact hk)
      have hfull : (s.str r1).fullClosed = true := by
        by_cases hfc : (s.str r1).fullClosed = true
        · exact hfc
        · exact absurd ((hA.ph r1).2.1 (by simpa using hfc)).2.2.1 hrem
      exact hE.ended hrel r1 (hC.fb hrel r1 hfull).2
    · intro hcc
      rw [hlg]
      have hc0 : s.connCancelled = false := by cases hc : s.connCancelled <;> simp_all
      refine EachAfter.snoc (h.dropOrder hc0) ?_
      intro r f he
      have hrel := (hr r (by simp [he, evRef])).2
      rcases hdrop r f he with h1 | h1
      · simp [hc0] at h1
      · exact hE.ended hrel r h1
    · intro r f hm
      rw [hlg] at hm
      simp only [List.mem_append, List.mem_singleton] at hm
      rcases hm with hm | hm
      · exact h.rstF r f hm
      · exact hrst r f hm.symm
    · intro r f hm
      rw [hlg] at hm
      simp only [List.mem_append, List.mem_singleton] at hm
      rcases hm with (hm | hm) | (hm | hm) | (hm | hm)
      · exact h.outF r f (.inl hm)
      · exact hout r f (.inl hm.symm)
      · exact h.outF r f (.inr (.inl hm))
      · exact hout r f (.inr (.inl hm.symm))
      · exact h.outF r f (.inr (.inr hm))
      · exact hout r f (.inr (.inr hm.symm))

/-- All invariants of the stream system. -/
structure SInv (s : SSt) : Prop where
  a : SInvA s
  b : SInvB s
  c : SInvC s
  d : SInvD1 s
  e : SInvE s
  f : SInvF s

theorem SInv.init : SInv SSt.init := ⟨.init, .init, .init, .init, .init, .init⟩

theorem SInv.step {s a s'} (h : SInv s) (hs : sStep s a = some s') : SInv s' := by
  have hA := h.a.step hs
  have hE := h.e.step h.a h.b h.c h.d hs
  exact ⟨hA, h.b.step h.a hs, h.c.step h.a h.b hs, h.d.step h.a h.b hs, hE, h.f.step h.a h.c h.d h.e hA hE hs⟩

theorem SInv.reach {acts : List SAct} {s : SSt} (h : sRun SSt.init acts = some s) : SInv s :=
  runActs_inv (P := SInv) (fun _ _ _ h hs => h.step hs) .init h

theorem SInvG.reach {acts : List SAct} {s : SSt} (h : sRun SSt.init acts = some s) : SInvG s := by
  have : SInv s ∧ SInvG s := by
    refine runActs_inv (P := fun s => SInv s ∧ SInvG s) ?_ ⟨.init, .init⟩ h
    intro s a s' ⟨hI, hG⟩ hs
    exact ⟨hI.step hs, hG.step hI.a hI.b hI.c hI.d hI.e hs⟩
  exact this.2

end Qrpc
