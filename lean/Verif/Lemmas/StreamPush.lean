import Verif.Props.StreamMore
/-! Pushes that are not streamed: the reader is done with the stream object of one before it reads the next frame. -/
namespace Qrpc
open Spec

/-- Pushes read are not streamed (and no resets), and nothing is written on push streams. -/
def SAct.plain : SAct → Bool
  | .recv f => !FrameFlag.isPush f.flags || (FrameFlag.isDone f.flags && !FrameFlag.isRst f.flags)
  | .wstart _ fl _ => !FrameFlag.isPush fl
  | _ => true

/-- The reader is between the lookup of push stream `r` and its removal. -/
def RPc.onPush (str : Nat → Stream) (r : Nat) : RPc → Prop
  | .bindTest r' f => r' = r ∧ (str r).binded = false ∧ FrameFlag.isDone f.flags = true
  | .cpPush r' fl => r' = r ∧ FrameFlag.isDone fl = true
  | .cpStorePeer r' | .cpCloseCh r' => r' = r ∧ (str r).closedSelf = true
  | .cpLoadSelf r' => r' = r ∧ (str r).closedSelf = true
  | .ad r' .cas => r' = r ∧ (str r).fullClosed = false
  | .ad r' .cancel | .ad r' .notify => r' = r
  | _ => False

/-- The writer does not work on a push stream. -/
def WPc.noPush (str : Nat → Stream) : WPc → Prop
  | .idle => True
  | .rstSwap r _ | .rstLoad r _ _ | .loadSelf r _ | .storeSelf r _ | .loadPeer r _ | .ad r _ _ _ => (str r).key.2 = false

/-- The reader's own push stream is still in the table. -/
def RPc.pushOK (str : Nat → Stream) : RPc → Prop
  | .bindTest r f => (str r).key.2 = true → FrameFlag.isDone f.flags = true ∧ (str r).binded = false ∧ (str r).fullClosed = false ∧ (str r).removals = 0
  | .addLoad r _ | .addSelect r _ | .waitDone r _ | .rstCas r | .rstCloseCh r | .rstCancel r => (str r).key.2 = false
  | .cpPush r fl => (str r).key.2 = true → FrameFlag.isDone fl = true ∧ (str r).fullClosed = false
  | .cpStorePeer r | .cpCloseCh r | .cpLoadSelf r => (str r).key.2 = true → (str r).closedSelf = true ∧ (str r).fullClosed = false
  | .ad r .cas => (str r).key.2 = true → (str r).fullClosed = false
  | _ => True

structure PlInv (s : SSt) : Prop where
  gone : s.released = false → ∀ r, r < s.next → (s.str r).key.2 = true → (s.str r).removals = 0 → s.r.onPush s.str r
  ok : s.r.pushOK s.str
  w : s.w.noPush s.str
  ev : ∀ e ∈ s.log, ∀ f, resFrame e = some f → FrameFlag.isPush f.flags = true → ∃ r, e = .bound r f

theorem PlInv.init : PlInv SSt.init := by
  constructor <;> simp [SSt.init, RPc.pushOK, WPc.noPush]

set_option maxHeartbeats 2000000 in
theorem PlInv.step {s s' : SSt} {a : SAct} (ha : a.plain = true) (hI : SInv s) (h : PlInv s) (hs : sStep s a = some s') : PlInv s' := by
  obtain ⟨h1, h2, h3, h4⟩ := h
  have hk := hI.b.key
  have hc := hI.b.rch
  have hp := hI.b.push
  have ht := hI.a.tbl1
  have ht2 := hI.a.tbl2
  have hr := hI.a.rok
  have hw := hI.a.wok
  have hf := hI.a.fresh
  have hrel := hI.a.rel
  have hkw : ∀ str' : Nat → Stream, (∀ r, r < s.next → (str' r).key = (s.str r).key) → s.w.noPush str' := by
    intro str' hstr
    cases hww : s.w <;> simp only [hww, WPc.noPush, WPc.ok] at h3 hw ⊢ <;> first | trivial | (rw [hstr _ hw]; exact h3)
  have hko : ∀ str' : Nat → Stream, (∀ r, r < s.next → (str' r).key = (s.str r).key) →
      (∀ r, r < s.next → (s.str r).key.2 = true → str' r = s.str r) → s.r.pushOK str' := by
    intro str' hk1 hk2
    cases hrr : s.r with
    | ad r pc => cases pc <;> simp only [hrr, RPc.pushOK, RPc.ok] at h2 hr ⊢ <;> grind
    | _ => simp only [hrr, RPc.pushOK, RPc.ok] at h2 hr ⊢ <;> grind
  have hkp : ∀ (str' : Nat → Stream) (r : Nat), str' r = s.str r → s.r.onPush s.str r → s.r.onPush str' r := by
    intro str' r he ho
    cases hrr : s.r with
    | ad r pc => cases pc <;> simp only [hrr, RPc.onPush] at ho ⊢ <;> grind
    | _ => simp only [hrr, RPc.onPush] at ho ⊢ <;> grind
  clear hI
  sstep_cases hs a
  all_goals constructor
  all_goals try simp only []
  all_goals try first
    | assumption
    | (refine hkw _ ?_; grind)
    | (refine hko _ ?_ ?_ <;> grind [WPc.noPush])
    | (intro hrl r hlt hky hrm; refine hkp _ r ?_ (h1 hrl r ?_ ?_ ?_) <;> grind [WPc.noPush])
    | grind [RPc.onPush, RPc.pushOK, WPc.noPush, RPc.keyOK, RPc.chOK, RPc.binding, RPc.ok, WPc.ok, SAct.plain, resFrame, Frame.key, releaseStream]

end Qrpc
