import Verif.Model.Stream
import Verif.Spec.Stream
/-! Invariants of the stream system: definitions and initial states. The step theorems are in `StreamA` .. `StreamG`. -/
namespace Qrpc
open Spec

/-! ## A: allocation, stream tables, phases of `afterDone` -/

/-- The reader works on an allocated stream. -/
def RPc.ok (n : Nat) : RPc → Prop
  | .idle | .panicked => True
  | .bindTest r _ | .addLoad r _ | .addSelect r _ | .waitDone r _ | .cpPush r _ | .cpStorePeer r
  | .cpCloseCh r | .cpLoadSelf r | .ad r _ | .rstCas r | .rstCloseCh r | .rstCancel r => r < n

/-- The writer works on an allocated stream. -/
def WPc.ok (n : Nat) : WPc → Prop
  | .idle => True
  | .rstSwap r _ | .rstLoad r _ _ | .loadSelf r _ | .storeSelf r _ | .loadPeer r _ | .ad r _ _ _ => r < n

theorem RPc.ok_succ {n : Nat} {p : RPc} (h : p.ok n) : p.ok (n + 1) := by cases p <;> simp [RPc.ok] at * <;> omega
theorem WPc.ok_succ {n : Nat} {p : WPc} (h : p.ok n) : p.ok (n + 1) := by cases p <;> simp [WPc.ok] at * <;> omega

/-- Where the reader is inside `afterDone` of stream `r`, past the compare-and-swap. -/
def RPc.adPc (r : Nat) : RPc → Option ADPc
  | .ad r' .cancel => if r' = r then some .cancel else none
  | .ad r' .notify => if r' = r then some .notify else none
  | .ad r' .done => if r' = r then some .done else none
  | _ => none

/-- Where the writer is inside `afterDone` of stream `r`, past the compare-and-swap. -/
def WPc.adPc (r : Nat) : WPc → Option ADPc
  | .ad r' .cancel _ _ => if r' = r then some .cancel else none
  | .ad r' .notify _ _ => if r' = r then some .notify else none
  | .ad r' .done _ _ => if r' = r then some .done else none
  | _ => none

/-- At most one thread is past the compare-and-swap of `afterDone`, and the counters agree with where it is. -/
def PhaseOK (t : Stream) (a b : Option ADPc) : Prop :=
  (a = none ∨ b = none) ∧
  (t.fullClosed = false → a = none ∧ b = none ∧ t.removals = 0 ∧ t.doneCloses = 0) ∧
  (t.fullClosed = true → a = none → b = none → t.removals = 1 ∧ t.doneCloses = 1 ∧ t.cancelled = true) ∧
  (a = some .cancel ∨ b = some .cancel → t.removals = 0 ∧ t.doneCloses = 0) ∧
  (a = some .notify ∨ b = some .notify → t.removals = 0 ∧ t.doneCloses = 0 ∧ t.cancelled = true) ∧
  (a = some .done ∨ b = some .done → t.removals = 1 ∧ t.doneCloses = 0 ∧ t.cancelled = true)

structure SInvA (s : SSt) : Prop where
  tbl1 : ∀ k r, s.tbl k = some r → r < s.next ∧ (s.str r).key = k ∧ (s.str r).removals = 0
  tbl2 : s.released = false → ∀ r, r < s.next → (s.str r).removals = 0 → s.tbl (s.str r).key = some r
  fresh : ∀ r, s.next ≤ r → s.str r = {}
  rok : s.r.ok s.next
  wok : s.w.ok s.next
  rel : s.released = true → (s.r = .idle ∨ s.r = .panicked) ∧ s.w = .idle
  ph : ∀ r, PhaseOK (s.str r) (s.r.adPc r) (s.w.adPc r)

macro "sstep_cases" hs:ident a:ident : tactic => `(tactic|
  (cases $a:ident <;>
   simp only [sStep, rStep, wStep, SSt.notify, SSt.upd, SSt.createOrGet] at $hs:ident <;>
   (repeat' (split at $hs:ident)) <;>
   (try simp only [Option.some.injEq, reduceCtorEq, Prod.mk.injEq] at $hs:ident) <;>
   (try contradiction) <;>
   (try subst $hs:ident)))

theorem SInvA.init : SInvA SSt.init := by
  constructor <;> simp [SSt.init, RPc.ok, WPc.ok, PhaseOK, RPc.adPc, WPc.adPc]


/-! ## B: the frame channel, binding and keys -/

/-- The frame the reader is working on belongs to the stream it is working on. -/
def RPc.keyOK (str : Nat → Stream) : RPc → Prop
  | .bindTest r f | .addLoad r f | .addSelect r f | .waitDone r f => f.key = (str r).key
  | .cpPush r fl => FrameFlag.isPush fl = (str r).key.2
  | _ => True

/-- Is the reader about to bind a frame to stream `r`? -/
def RPc.binding (r : Nat) : RPc → Bool
  | .bindTest r' _ => r' == r
  | _ => false

/-- What the reader's position says about `closedPeer` and the frame channel. -/
def RPc.chOK (str : Nat → Stream) : RPc → Prop
  | .addLoad r _ => (str r).binded = true
  | .addSelect r _ => (str r).closedPeer = false ∧ (str r).binded = true
  | .waitDone r _ => (str r).binded = true
  | .cpPush r _ => ((str r).closedPeer = false ∨ (str r).resetUnbound = true) ∧ (str r).binded = true
  | .cpStorePeer r => ((str r).closedPeer = false ∨ (str r).resetUnbound = true) ∧ (str r).binded = true
  | .cpCloseCh r => (str r).closedPeer = true ∧ ((str r).chCloses = 0 ∨ (str r).resetUnbound = true) ∧
      (str r).binded = true
  | .cpLoadSelf r => (str r).closedPeer = true ∧ (str r).chCloses = 1 ∧ (str r).binded = true
  | .rstCloseCh r => (str r).closedPeer = true ∧ (str r).chCloses = 0
  | .rstCancel r => (str r).closedPeer = true
  | _ => True

/-- Is the reader about to close the frame channel of stream `r`? -/
def RPc.closing (r : Nat) : RPc → Bool
  | .cpCloseCh r' | .rstCloseCh r' => r' == r
  | _ => false

structure SInvB (s : SSt) : Prop where
  key : s.r.keyOK s.str
  rch : s.r.chOK s.str
  ch0 : ∀ r, (s.str r).closedPeer = false → (s.str r).chCloses = 0
  ch1 : ∀ r, (s.str r).chCloses ≤ 1
  chp : s.r ≠ .panicked → ∀ r, (s.str r).closedPeer = true → (s.str r).chCloses = 1 ∨ s.r.closing r = true
  unb : s.released = false → ∀ r, (s.str r).binded = false → (s.str r).closedPeer = false ∨ (s.str r).resetUnbound = true
  push : ∀ r, (s.str r).key.2 = true →
    ((s.str r).binded = true ∨ s.r.binding r = true) ∧ (s.str r).resetUnbound = false
  rub : ∀ r, (s.str r).resetUnbound = true → r < s.next
  pan : s.r = .panicked → ∃ r, r < s.next ∧ (s.str r).resetUnbound = true ∧ (s.str r).binded = true

theorem SInvB.init : SInvB SSt.init := by
  constructor <;> simp [SSt.init, RPc.keyOK, RPc.chOK]


/-! ## C: both sides closed leads to `afterDone` -/

/-- Will the reader still look at `closedSelf`, or has it already decided to run `afterDone`, for stream `r`? -/
def RPc.willCheck (r : Nat) : RPc → Bool
  | .cpCloseCh r' | .cpLoadSelf r' | .ad r' .cas => r' == r
  | _ => false

/-- Will the writer still look at `closedPeer`, or has it already decided to run `afterDone`, for stream `r`? -/
def WPc.willCheck (r : Nat) : WPc → Bool
  | .rstLoad r' _ _ | .loadPeer r' _ | .ad r' .cas _ _ => r' == r
  | _ => false

/-- The reader runs `afterDone` only on a stream closed on both sides. -/
def RPc.bothOK (str : Nat → Stream) : RPc → Prop
  | .ad r _ => (str r).closedSelf = true ∧ (str r).closedPeer = true
  | _ => True

def WPc.bothOK (str : Nat → Stream) : WPc → Prop
  | .ad r _ _ _ => (str r).closedSelf = true ∧ (str r).closedPeer = true
  | .rstLoad r _ _ | .loadPeer r _ => (str r).closedSelf = true
  | _ => True

structure SInvC (s : SSt) : Prop where
  rb : s.r.bothOK s.str
  wb : s.w.bothOK s.str
  fb : s.released = false → ∀ r, (s.str r).fullClosed = true → (s.str r).closedSelf = true ∧ (s.str r).closedPeer = true
  both : s.released = false → s.r ≠ .panicked → ∀ r, (s.str r).closedSelf = true → (s.str r).closedPeer = true →
    (s.str r).lateReset = false → (s.str r).fullClosed = true ∨ s.r.willCheck r = true ∨ s.w.willCheck r = true
  late : ∀ r, (s.str r).lateReset = true → (s.str r).closedSelf = true ∧ (s.str r).closedPeer = true

theorem SInvC.init : SInvC SSt.init := by
  constructor <;> simp [SSt.init, RPc.bothOK, WPc.bothOK]


/-! ## D: the log of what was handed to the user -/

/-- The received frame the reader still has to account for. -/
def RPc.pend : RPc → List Frame
  | .bindTest _ f | .addLoad _ f | .addSelect _ f | .waitDone _ f => [f]
  | _ => []

@[simp] theorem outs_append (r : Nat) (l : List SEv) (e : SEv) :
    outs r (l ++ [e]) = outs r l ++ (streamOut r e).toList := by
  cases h : streamOut r e <;> simp [outs, List.filterMap_append, h]

theorem res_append (l : List SEv) (e : SEv) :
    (l ++ [e]).filterMap resFrame = l.filterMap resFrame ++ (resFrame e).toList := by
  cases h : resFrame e <;> simp [List.filterMap_append, h]

/-- The frames of one stream object: the first one returned by `ReadFrame`, all others through `FrameCh`. -/
def FirstThenRest (bound : Bool) (l : List (Bool × Frame)) : Prop :=
  if bound then ∃ (f : Frame) (fs : List Frame), l = (true, f) :: fs.map (fun g => (false, g)) else l = []

theorem FirstThenRest.first {l : List (Bool × Frame)} {f : Frame} (h : FirstThenRest false l) :
    FirstThenRest true (l ++ [(true, f)]) := by
  simp only [FirstThenRest] at *
  exact ⟨f, [], by simp_all⟩

theorem FirstThenRest.more {l : List (Bool × Frame)} {f : Frame} (h : FirstThenRest true l) :
    FirstThenRest true (l ++ [(false, f)]) := by
  simp only [FirstThenRest, if_true] at *
  obtain ⟨g, fs, rfl⟩ := h
  exact ⟨g, fs ++ [f], by simp⟩

structure SInvD1 (s : SSt) : Prop where
  res : s.log.filterMap resFrame ++ s.r.pend = s.recv
  ev : ∀ e ∈ s.log, ∀ r f, evRef e = some r → resFrame e = some f → r < s.next ∧ f.key = (s.str r).key
  ftr : ∀ r, FirstThenRest (s.str r).binded (outs r s.log)

theorem SInvD1.init : SInvD1 SSt.init := by
  constructor <;> simp [SSt.init, RPc.pend, FirstThenRest, outs]


/-! ## E: how streams end -/

theorem peerEnded_rst {r : Nat} {f : Frame} {l : List SEv} (h : SEv.rst (some r) f ∈ l) : peerEnded r l := .inr ⟨f, h⟩

theorem peerEnded_out {r : Nat} {b : Bool} {f : Frame} {l : List SEv} (h : (b, f) ∈ outs r l)
    (hd : FrameFlag.isDone f.flags = true) : peerEnded r l := .inl ⟨b, f, h, hd⟩

theorem peerEnded_append {r : Nat} {l : List SEv} (e : SEv) (h : peerEnded r l) : peerEnded r (l ++ [e]) := by
  rcases h with ⟨b, f, h, hd⟩ | ⟨f, h⟩
  · exact .inl ⟨b, f, by simp [h], hd⟩
  · exact .inr ⟨f, by simp [h]⟩

/-- Is the reader about to store `closedPeer` for stream `r` because of a done frame already in the log? -/
def RPc.donePending (r : Nat) : RPc → Bool
  | .cpPush r' fl => r' == r && FrameFlag.isDone fl
  | .cpStorePeer r' => r' == r
  | _ => false

/-- What the reader's position says about the log. -/
def RPc.logOK (cc : Bool) (str : Nat → Stream) (log : List SEv) : RPc → Prop
  | .cpPush r fl => ∃ b f, (b, f) ∈ outs r log ∧ f.flags = fl
  | .cpStorePeer r => ∃ b f, (b, f) ∈ outs r log ∧ FrameFlag.isDone f.flags = true
  | .rstCas r => ∃ f, SEv.rst (some r) f ∈ log
  | .waitDone r _ => cc = true ∨ (str r).closedPeer = true
  | _ => True

structure SInvE (s : SSt) : Prop where
  can : s.released = false → ∀ r, (s.str r).cancelled = true → (s.str r).closedPeer = true
  rl : s.r.logOK s.connCancelled s.str s.log
  ended : s.released = false → ∀ r, (s.str r).closedPeer = true → peerEnded r s.log
  doneClosed : ∀ r b f, (b, f) ∈ outs r s.log → FrameFlag.isDone f.flags = true →
    (s.str r).closedPeer = true ∨ s.r.donePending r = true
  lastDone : ∀ r, ∀ x ∈ (outs r s.log).dropLast, FrameFlag.isDone x.2.flags = false
  drop : ∀ r f, SEv.dropped r f ∈ s.log → s.connCancelled = true ∨ peerEnded r s.log
  prior : ∀ r1 r2, r1 < r2 → r2 < s.next → (s.str r1).key = (s.str r2).key → (s.str r1).removals ≠ 0

theorem SInvE.init : SInvE SSt.init := by
  constructor <;> simp [SSt.init, RPc.logOK, outs]

theorem dropLast_snoc {α} (l : List α) (x : α) : (l ++ [x]).dropLast = l := by simp


/-! ## F: order of events -/

theorem EachAfter.nil {P} : EachAfter P [] := by intro pre e post h; simp at h

theorem EachAfter.snoc {P : List SEv → SEv → Prop} {l : List SEv} {e : SEv} (h : EachAfter P l) (he : P l e) :
    EachAfter P (l ++ [e]) := by
  intro pre e' post heq
  rcases List.eq_nil_or_concat post with rfl | ⟨post', x, rfl⟩
  · have := List.append_inj' heq rfl
    simp only [List.cons.injEq, and_true] at this
    rw [← this.1, ← this.2]; exact he
  · have h' : l ++ [e] = (pre ++ e' :: post') ++ [x] := by simpa using heq
    exact h _ _ _ (List.append_inj' h' rfl).1

theorem selfEnded_append {r : Nat} {l : List SEv} {e : SEv} :
    selfEnded r (l ++ [e]) ↔ selfEnded r l ∨ ∃ fl, e = .accepted r fl ∧ (FrameFlag.isDone fl = true ∨ FrameFlag.isRst fl = true) := by
  simp only [selfEnded, List.mem_append, List.mem_singleton]
  constructor
  · rintro ⟨fl, h | h, hd⟩
    · exact .inl ⟨fl, h, hd⟩
    · exact .inr ⟨fl, h.symm, hd⟩
  · rintro (⟨fl, h, hd⟩ | ⟨fl, h, hd⟩)
    · exact ⟨fl, .inl h, hd⟩
    · exact ⟨fl, .inr h.symm, hd⟩


/-! ## G: the local side of streams, ghost fields -/

/-- Is the writer in the middle of closing the local side of stream `r`? -/
def WPc.closing (r : Nat) : WPc → Bool
  | .rstLoad r' _ _ | .loadPeer r' _ | .ad r' _ _ _ => r' == r
  | _ => false

/-- What the writer's position says about earlier writes. -/
def WPc.outOK (log : List SEv) (str : Nat → Stream) : WPc → Prop
  | .rstSwap _ fl => FrameFlag.isRst fl = true
  | .rstLoad r fl old => FrameFlag.isRst fl = true ∧ (old = true → (str r).key.2 = false → selfEnded r log)
  | .loadSelf r fl => FrameFlag.isRst fl = false ∧ (str r).key.2 = false
  | .storeSelf r fl => FrameFlag.isRst fl = false ∧ FrameFlag.isDone fl = true ∧ ¬ selfEnded r log
  | .loadPeer r fl => FrameFlag.isRst fl = false ∧ FrameFlag.isDone fl = true ∧ ¬ selfEnded r log
  | .ad r _ fl res => (FrameFlag.isRst fl = true ∨ (FrameFlag.isDone fl = true ∧ ¬ selfEnded r log)) ∧
      (res = false → (str r).key.2 = false → selfEnded r log)
  | .idle => True

/-- Is the reader about to close the local side of push stream `r`? -/
def RPc.pushing (r : Nat) : RPc → Bool
  | .cpPush r' _ => r' == r
  | _ => false

structure SInvG (s : SSt) : Prop where
  wout : s.w.outOK s.log s.str
  se : ∀ r, selfEnded r s.log → (s.str r).closedSelf = true
  cs : ∀ r, (s.str r).closedSelf = true → (s.str r).key.2 = false → selfEnded r s.log ∨ s.w.closing r = true
  acc : EachAfter (fun pre e => ∀ r fl, e = .accepted r fl → FrameFlag.isRst fl = false → ¬ selfEnded r pre) s.log
  rej : ∀ r fl, SEv.rejected r fl ∈ s.log → (s.str r).key.2 = false → selfEnded r s.log
  late : ∀ r, (s.str r).lateReset = true → ∃ f, SEv.rst (some r) f ∈ s.log
  rub : ∀ r, (s.str r).resetUnbound = true → ∃ pre f post, s.log = pre ++ .rst (some r) f :: post ∧ outs r pre = []
  ps : ∀ r, (s.str r).key.2 = true → (s.str r).binded = true → (s.str r).closedSelf = true ∨ s.r.pushing r = true

theorem SInvG.init : SInvG SSt.init := by
  constructor <;> simp [SSt.init, WPc.outOK, EachAfter, selfEnded]

theorem rub_append {r : Nat} {l : List SEv} (e : SEv)
    (h : ∃ pre f post, l = pre ++ .rst (some r) f :: post ∧ outs r pre = []) :
    ∃ pre f post, l ++ [e] = pre ++ .rst (some r) f :: post ∧ outs r pre = [] := by
  obtain ⟨pre, f, post, rfl, h⟩ := h
  exact ⟨pre, f, post ++ [e], by simp, h⟩

theorem outs_prefix_nil {r : Nat} {pre post : List SEv} (h : outs r (pre ++ post) = []) : outs r pre = [] := by
  simp only [outs, List.filterMap_append, List.append_eq_nil_iff] at h
  exact h.1

theorem rub_intro {r : Nat} {l : List SEv} (hn : outs r l = []) (h : ∃ f, SEv.rst (some r) f ∈ l) :
    ∃ pre f post, l = pre ++ .rst (some r) f :: post ∧ outs r pre = [] := by
  obtain ⟨f, h⟩ := h
  obtain ⟨pre, post, rfl⟩ := List.append_of_mem h
  exact ⟨pre, f, post, rfl, outs_prefix_nil hn⟩

theorem selfEnded_accepted {r : Nat} {l : List SEv} {fl : FrameFlag} (h : FrameFlag.isDone fl = true ∨ FrameFlag.isRst fl = true) :
    selfEnded r (l ++ [.accepted r fl]) := by rw [selfEnded_append]; exact .inr ⟨fl, rfl, h⟩


end Qrpc
