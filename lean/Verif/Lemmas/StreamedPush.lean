import Verif.Lemmas.StreamPush
/-! Pushes, streamed or not: the reader goroutine alone works on their streams, and is done with one before it reads the next frame
after the last one of it. -/
namespace Qrpc
open Spec

/-- After the pushes `l`, push stream `id` is open: there were pushes with this id, and the last of them does not end the stream. -/
def Spec.pushOpen (l : List Frame) (id : UInt64) : Bool :=
  match (l.filter fun f => f.requestID == id).getLast? with
  | none => false
  | some f => !FrameFlag.isDone f.flags

/-- What becomes of the pushes `l`, if `seen` came before them: a push whose id is not open begins a stream and is returned by
`ReadFrame` (`true`), a push whose id is open is received from the stream's `FrameCh` (`false`). -/
def Spec.pushFates (seen : List Frame) : List Frame → List (Frame × Option Bool)
  | [] => []
  | f :: fs => (f, some (!pushOpen seen f.requestID)) :: pushFates (seen ++ [f]) fs

/-- What became of a frame: returned by `ReadFrame`, received from `FrameCh`, or neither. -/
def Spec.fate : SEv → Option (Frame × Option Bool)
  | .bound _ f => some (f, some true)
  | .delivered _ f => some (f, some false)
  | .dropped _ f | .rst _ f => some (f, none)
  | _ => none

/-- What became of the pushes. -/
def Spec.pushLog (log : List SEv) : List (Frame × Option Bool) := (log.filterMap fate).filter fun p => FrameFlag.isPush p.1.flags

/-- The pushes that something has become of. -/
def Spec.settled (log : List SEv) : List Frame := (log.filterMap resFrame).filter fun f => FrameFlag.isPush f.flags

/-- No push read is a reset, and nothing is written on push streams. -/
def SAct.noRst : SAct → Bool
  | .recv f => !FrameFlag.isPush f.flags || !FrameFlag.isRst f.flags
  | .wstart _ fl _ => !FrameFlag.isPush fl
  | _ => true

theorem pushOpen_append (l : List Frame) (f : Frame) (id : UInt64) :
    pushOpen (l ++ [f]) id = if f.requestID = id then !FrameFlag.isDone f.flags else pushOpen l id := by
  by_cases h : f.requestID = id <;> simp [pushOpen, List.filter_append, h]

theorem pushFates_append (l : List Frame) (f : Frame) : ∀ seen,
    pushFates seen (l ++ [f]) = pushFates seen l ++ [(f, some (!pushOpen (seen ++ l) f.requestID))] := by
  induction l with
  | nil => intro seen; simp [pushFates]
  | cons g l ih => intro seen; simp [pushFates, ih]

theorem settled_append (l : List SEv) (e : SEv) : settled (l ++ [e]) =
    settled l ++ (match resFrame e with | some f => if FrameFlag.isPush f.flags then [f] else [] | none => []) := by
  cases h : resFrame e with
  | none => simp [settled, List.filterMap_append, h]
  | some f => by_cases hp : FrameFlag.isPush f.flags = true <;> simp [settled, List.filterMap_append, h, hp]

/-- After event `e`. -/
theorem open_append (l : List SEv) (e : SEv) (id : UInt64) : pushOpen (settled (l ++ [e])) id =
    match resFrame e with
    | some f => if FrameFlag.isPush f.flags = true ∧ f.requestID = id then !FrameFlag.isDone f.flags else pushOpen (settled l) id
    | none => pushOpen (settled l) id := by
  rw [settled_append]
  cases h : resFrame e with
  | none => simp
  | some f => by_cases hp : FrameFlag.isPush f.flags = true <;> simp [hp, pushOpen_append]

def FatesOK (l : List SEv) : Prop := pushLog l = pushFates [] (settled l)

theorem FatesOK.append {l : List SEv} {e : SEv} (h : FatesOK l)
    (he : ∀ f, resFrame e = some f → FrameFlag.isPush f.flags = true → fate e = some (f, some (!pushOpen (settled l) f.requestID))) :
    FatesOK (l ++ [e]) := by
  unfold FatesOK at *
  rw [settled_append]
  cases hr : resFrame e with
  | none =>
    have : fate e = none := by cases e <;> simp_all [resFrame, fate]
    simp only [List.append_nil, ← h]
    simp [pushLog, List.filterMap_append, this]
  | some f =>
    by_cases hp : FrameFlag.isPush f.flags = true
    · simp only [hp, if_true]
      rw [pushFates_append, ← h]
      simp [pushLog, List.filterMap_append, he f hr hp, hp]
    · have : ∃ b, fate e = some (f, b) := by cases e <;> simp_all [resFrame, fate]
      obtain ⟨b, hb⟩ := this
      simp only [pushLog] at h
      simp [pushLog, List.filterMap_append, hb, hp, h]

/-- The stream is open for the reader. -/
def Stream.live (t : Stream) : Prop := t.binded = true ∧ t.closedPeer = false ∧ t.fullClosed = false

/-- The reader is about to bind push stream `r`, or to close it. -/
def RPc.onP (str : Nat → Stream) (r : Nat) : RPc → Prop
  | .bindTest r' _ => r' = r ∧ (str r).binded = false
  | .cpPush r' fl => r' = r ∧ FrameFlag.isDone fl = true
  | .cpStorePeer r' | .cpCloseCh r' | .cpLoadSelf r' => r' = r ∧ (str r).closedSelf = true
  | .ad r' .cas => r' = r ∧ (str r).fullClosed = false
  | .ad r' .cancel | .ad r' .notify => r' = r
  | _ => False

def RPc.stOK (str : Nat → Stream) (tbl : SKey → Option Nat) (O : UInt64 → Bool) : RPc → Prop
  | .bindTest r _ => (str r).key.2 = true → tbl (str r).key = some r ∧ (str r).closedPeer = false ∧ (str r).fullClosed = false
  | .addLoad r f | .addSelect r f | .waitDone r f => (str r).key.2 = true → tbl (str r).key = some r ∧ O f.requestID = true
  | .rstCas r | .rstCloseCh r | .rstCancel r => (str r).key.2 = false
  | .cpPush r fl => (str r).key.2 = true → tbl (str r).key = some r ∧ (str r).binded = true ∧ (str r).closedPeer = false ∧
      (str r).fullClosed = false ∧ O (str r).key.1 = !FrameFlag.isDone fl
  | .cpStorePeer r | .cpCloseCh r | .cpLoadSelf r => (str r).key.2 = true → (str r).closedSelf = true ∧ (str r).fullClosed = false ∧
      O (str r).key.1 = false
  | .ad r .cas => (str r).key.2 = true → (str r).fullClosed = false ∧ O (str r).key.1 = false
  | .ad r _ => (str r).key.2 = true → O (str r).key.1 = false
  | _ => True

structure StInv (s : SSt) : Prop where
  fates : FatesOK s.log
  opened : s.released = false → ∀ id, pushOpen (settled s.log) id = true → ∃ r, s.tbl (id, true) = some r ∧ (s.str r).live
  closed : s.released = false → ∀ id r, s.tbl (id, true) = some r → pushOpen (settled s.log) id = false → s.r.onP s.str r
  ok : s.r.stOK s.str s.tbl (pushOpen (settled s.log))
  w : s.w.noPush s.str

theorem StInv.init : StInv SSt.init := by
  constructor <;> simp [SSt.init, RPc.stOK, WPc.noPush, FatesOK, pushLog, settled, pushFates, pushOpen]

set_option maxHeartbeats 4000000 in
theorem StInv.step {s s' : SSt} {a : SAct} (ha : a.noRst = true) (hI : SInv s) (h : StInv s) (hs : sStep s a = some s') : StInv s' := by
  obtain ⟨h0, h1, h2, h3, h4⟩ := h
  have hk := hI.b.key
  have hc := hI.b.rch
  have hp := hI.b.push
  have ht := hI.a.tbl1
  have hr := hI.a.rok
  have hw := hI.a.wok
  have hf := hI.a.fresh
  have hrel := hI.a.rel
  have hph := hI.a.ph
  have hopen := open_append s.log
  have hfat := fun e => FatesOK.append (e := e) h0
  have hkw : ∀ str' : Nat → Stream, (∀ r, r < s.next → (str' r).key = (s.str r).key) → s.w.noPush str' := by
    intro str' hstr
    cases hww : s.w <;> simp only [hww, WPc.noPush, WPc.ok] at h4 hw ⊢ <;> first | trivial | (rw [hstr _ hw]; exact h4)
  have hko : ∀ (str' : Nat → Stream) (tbl' : SKey → Option Nat) (O' : UInt64 → Bool), (∀ r, r < s.next → (str' r).key = (s.str r).key) →
      (∀ r, r < s.next → (s.str r).key.2 = true → str' r = s.str r) → (∀ k : SKey, k.2 = true → tbl' k = s.tbl k) →
      (∀ id, O' id = pushOpen (settled s.log) id) → s.r.stOK str' tbl' O' := by
    intro str' tbl' O' hk1 hk2 hk3 hk4
    obtain rfl : O' = _ := funext hk4
    cases hrr : s.r with
    | ad r pc => cases pc <;> simp only [hrr, RPc.stOK, RPc.ok] at h3 hr ⊢ <;> grind
    | _ => simp only [hrr, RPc.stOK, RPc.ok] at h3 hr ⊢ <;> grind
  have hkp : ∀ (str' : Nat → Stream) (r : Nat), str' r = s.str r → s.r.onP s.str r → s.r.onP str' r := by
    intro str' r he ho
    cases hrr : s.r with
    | ad r pc => cases pc <;> simp only [hrr, RPc.onP] at ho ⊢ <;> grind
    | _ => simp only [hrr, RPc.onP] at ho ⊢ <;> grind
  clear hI
  sstep_cases hs a
  all_goals constructor
  all_goals try simp only []
  all_goals try first
    | assumption
    | (refine hkw _ ?_; grind)
    | (refine hfat _ ?_; grind [resFrame, fate, RPc.onP, RPc.stOK, RPc.keyOK, RPc.ok, Frame.key, Stream.live, SAct.noRst, PhaseOK])
    | (refine hko _ _ _ ?_ ?_ ?_ ?_ <;> grind [WPc.noPush, resFrame])
    | (intro hrl id r htb ho; refine hkp _ r ?_ (h2 hrl id r ?_ ?_) <;> grind [WPc.noPush, resFrame])
    | grind [resFrame, fate, RPc.onP, RPc.stOK, RPc.keyOK, RPc.ok, RPc.chOK, RPc.binding, WPc.noPush, WPc.ok, Frame.key, Stream.live, SAct.noRst, PhaseOK]
  · rename_i r f hrr hb
    have hnr : s.released = false := by
      cases hx : s.released with
      | false => rfl
      | true => have := (hrel hx).1; simp [hrr] at this
    refine hfat _ ?_
    intro g hg hgp
    simp only [resFrame, Option.some.injEq] at hg
    subst hg
    simp only [hrr, RPc.keyOK, RPc.stOK, Frame.key] at hk h3
    have hO : pushOpen (settled s.log) f.requestID = false := by
      cases hx : pushOpen (settled s.log) f.requestID with
      | false => rfl
      | true =>
        obtain ⟨r', k1, k2⟩ := h1 hnr _ hx
        rw [← hk] at h3
        have := (h3 hgp).1
        rw [hgp, k1] at this
        cases this
        exact absurd k2.1 hb
    simp [fate, hO]

end Qrpc
