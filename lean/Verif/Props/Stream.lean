import Verif.Lemmas.StreamF
/-! # Properties C11-C16: streams

All statements quantify over `acts`: every interleaving of the reader goroutine, the goroutine processing writes, the
consumers of the frame channels and the cancellation of the connection, over any number of streams. -/
namespace Qrpc
open Spec

/-! ## C11 In-order exactly-once stream delivery -/

/-- A stream of one key as the protocol promises it: no reset, and nothing after the frame that ends it. -/
def Spec.WellFormed (fs : List Frame) : Prop :=
  (∀ f ∈ fs, FrameFlag.isRst f.flags = false) ∧ ∀ f ∈ fs.dropLast, FrameFlag.isDone f.flags = false

/-- The frames received so far for one key. -/
def Spec.received (s : SSt) (K : SKey) : List Frame := s.recv.filter (fun f => decide (f.key = K))

/-- The frame (if any) the reader has read but not yet handed over. -/
def Spec.held (s : SSt) : List Frame :=
  match s.r with
  | .bindTest _ f | .addLoad _ f | .addSelect _ f | .waitDone _ f => [f]
  | _ => []

/-- The same, for one key. -/
def Spec.inHand (s : SSt) (K : SKey) : List Frame := (held s).filter (fun f => decide (f.key = K))

theorem held_eq (s : SSt) : held s = s.r.pend := by simp only [held]; cases s.r <;> rfl

theorem outs_mem_log {r : Nat} {b : Bool} {f : Frame} {l : List SEv} (h : (b, f) ∈ outs r l) :
    SEv.bound r f ∈ l ∨ SEv.delivered r f ∈ l := by
  simp only [outs, List.mem_filterMap] at h
  obtain ⟨e, he, ho⟩ := h
  cases e <;> simp [streamOut] at ho
  · obtain ⟨rfl, _, rfl⟩ := ho; exact .inl he
  · obtain ⟨rfl, _, rfl⟩ := ho; exact .inr he

theorem outs_res {r : Nat} {b : Bool} {f : Frame} {l : List SEv} (h : (b, f) ∈ outs r l) :
    f ∈ l.filterMap resFrame := by
  rcases outs_mem_log h with h | h <;> exact List.mem_filterMap.2 ⟨_, h, rfl⟩

theorem outs_key {s : SSt} (hI : SInv s) {r : Nat} {b : Bool} {f : Frame} (h : (b, f) ∈ outs r s.log) :
    r < s.next ∧ f.key = (s.str r).key := by
  rcases outs_mem_log h with h | h <;> exact hI.d.ev _ h r f rfl rfl

theorem outs_pre {r : Nat} {pre post : List SEv} {x : Bool × Frame} (h : x ∈ outs r pre) : x ∈ outs r (pre ++ post) := by
  simp only [outs, List.filterMap_append, List.mem_append] at *
  exact .inl h

/-- With a well-formed stream nothing of that stream can happen after its end. -/
theorem no_event_after_end {s : SSt} (hI : SInv s) {K : SKey} (hwf : WellFormed (received s K)) {pre post : List SEv} {e : SEv}
    {f : Frame} (hl : s.log = pre ++ e :: post) (hf : resFrame e = some f) (hk : f.key = K) {r1 : Nat}
    (hk1 : (s.str r1).key = K) (hend : peerEnded r1 pre) : False := by
  have hrecv : received s K =
      (pre.filterMap resFrame).filter (fun f => decide (f.key = K)) ++ f ::
        ((post.filterMap resFrame).filter (fun f => decide (f.key = K)) ++ s.r.pend.filter (fun f => decide (f.key = K))) := by
    rw [received, ← hI.d.res, hl]
    simp [List.filterMap_append, hf, hk]
  rcases hend with ⟨b, g, hg, hd⟩ | ⟨g, hg⟩
  · have hgk := (outs_key hI (r := r1) (b := b) (f := g) (by rw [hl]; exact outs_pre hg)).2
    have hmem : g ∈ (received s K).dropLast := by
      rw [hrecv, List.dropLast_append_of_ne_nil (by simp)]
      exact List.mem_append.2 (.inl (List.mem_filter.2 ⟨outs_res hg, by simp [hgk, hk1]⟩))
    have := hwf.2 g hmem
    simp [hd] at this
  · have hm : SEv.rst (some r1) g ∈ s.log := by rw [hl]; simp [hg]
    have hgk := (hI.d.ev _ hm r1 g rfl rfl).2
    have hmem : g ∈ received s K := by
      rw [hrecv]
      exact List.mem_append.2 (.inl (List.mem_filter.2 ⟨List.mem_filterMap.2 ⟨_, hg, rfl⟩, by simp [hgk, hk1]⟩))
    have := hwf.1 g hmem
    simp [hI.f.rstF _ _ hm] at this

theorem outs_eq_received {K : SKey} {r : Nat} (l : List SEv)
    (h : ∀ e ∈ l, ∀ f, resFrame e = some f → f.key = K → ∃ b, streamOut r e = some (b, f))
    (h' : ∀ e ∈ l, ∀ b f, streamOut r e = some (b, f) → resFrame e = some f ∧ f.key = K) :
    (l.filterMap resFrame).filter (fun f => decide (f.key = K)) = (outs r l).map Prod.snd := by
  induction l with
  | nil => rfl
  | cons e l ih =>
    have ih := ih (fun e he => h e (List.mem_cons_of_mem _ he)) (fun e he => h' e (List.mem_cons_of_mem _ he))
    have h1 := h e (by simp)
    have h2 := h' e (by simp)
    simp only [outs] at ih ⊢
    rw [List.filterMap_cons, List.filterMap_cons]
    cases hr : resFrame e with
    | none =>
      cases ho : streamOut r e with
      | none => simpa using ih
      | some p => have := (h2 p.1 p.2 (by simpa using ho)).1; rw [hr] at this; cases this
    | some f =>
      by_cases hk : f.key = K
      · obtain ⟨b, hb⟩ := h1 f hr hk
        simp [hb, hk, ih]
      · cases ho : streamOut r e with
        | none => simpa [hk] using ih
        | some p =>
          obtain ⟨p1, p2⟩ := h2 p.1 p.2 (by simpa using ho)
          rw [hr] at p1
          cases p1
          exact absurd p2 hk

/-- **C11.** Take any key (request id and push bit), and any reachable moment at which the connection has not been torn
down. If the peer's frames for that key are well formed (no reset, nothing after the end), then all of them belong to one
stream object; the first is what `ReadFrame` returned, the later ones are exactly what was received from that stream's
`FrameCh`, in the order sent, none missing (except at most the one the reader is just handing over), none repeated, none
from another key. -/
theorem C11_in_order_exactly_once {acts : List SAct} {s : SSt} (hrun : sRun SSt.init acts = some s)
    (hcc : s.connCancelled = false) (K : SKey) (hwf : WellFormed (received s K)) :
    (received s K = inHand s K ∧ ∀ r, (s.str r).key = K → outs r s.log = []) ∨
    ∃ r first rest, (s.str r).key = K ∧ outs r s.log = (true, first) :: rest.map (fun f => (false, f)) ∧
      received s K = first :: rest ++ inHand s K ∧
      ∀ r', r' ≠ r → (s.str r').key = K → outs r' s.log = [] := by
  have hI := SInv.reach hrun
  have hpend : inHand s K = s.r.pend.filter (fun f => decide (f.key = K)) := by
    rw [inHand, held_eq]
  have hrecv : received s K = (s.log.filterMap resFrame).filter (fun f => decide (f.key = K)) ++ inHand s K := by
    rw [received, ← hI.d.res, List.filter_append, hpend]
  -- no frame of this key was dropped, and every event of this key is an output of its stream
  have hev : ∀ e ∈ s.log, ∀ f, resFrame e = some f → f.key = K →
      ∃ r b, streamOut r e = some (b, f) ∧ evRef e = some r ∧ (s.str r).key = K := by
    intro e he f hf hk
    obtain ⟨pre, post, hl⟩ := List.append_of_mem he
    cases e with
    | bound r g =>
      simp only [resFrame, Option.some.injEq] at hf
      exact ⟨r, true, by simp [streamOut, hf], rfl, by rw [← (hI.d.ev _ he r g rfl rfl).2, hf, hk]⟩
    | delivered r g =>
      simp only [resFrame, Option.some.injEq] at hf
      exact ⟨r, false, by simp [streamOut, hf], rfl, by rw [← (hI.d.ev _ he r g rfl rfl).2, hf, hk]⟩
    | dropped r g =>
      simp only [resFrame, Option.some.injEq] at hf
      exact (no_event_after_end hI hwf hl (f := g) (by simp [resFrame]) (by rw [hf, hk])
        (r1 := r) (by rw [← (hI.d.ev _ he r g rfl rfl).2, hf, hk]) (hI.f.dropOrder hcc pre _ post hl r g rfl)).elim
    | rst r g =>
      simp only [resFrame, Option.some.injEq] at hf
      subst hf
      have hmem : g ∈ received s K := by
        rw [hrecv]
        exact List.mem_append.2 (.inl (List.mem_filter.2 ⟨List.mem_filterMap.2 ⟨_, he, rfl⟩, by simp [hk]⟩))
      have := hwf.1 g hmem
      simp [hI.f.rstF r g he] at this
    | _ => simp [resFrame] at hf
  -- all events of this key belong to one stream object
  have huniq : ∀ e1 ∈ s.log, ∀ e2 ∈ s.log, ∀ r1 r2 f1 f2, evRef e1 = some r1 → evRef e2 = some r2 →
      resFrame e1 = some f1 → resFrame e2 = some f2 → (s.str r1).key = K → (s.str r2).key = K → ¬ r1 < r2 := by
    intro e1 _ e2 h2 r1 r2 f1 f2 _ hr2 _ hf2 hk1 hk2 hlt
    obtain ⟨pre, post, hl⟩ := List.append_of_mem h2
    have hh := hI.d.ev _ h2 r2 f2 hr2 hf2
    exact no_event_after_end hI hwf hl hf2 (by rw [hh.2, hk2]) hk1
      (hI.f.order r1 r2 hlt hh.1 (by rw [hk1, hk2]) pre e2 post hl hr2)
  have outEv : ∀ r x, x ∈ outs r s.log → ∃ e ∈ s.log, evRef e = some r ∧ resFrame e = some x.2 := by
    intro r x hx
    rcases outs_mem_log (b := x.1) (f := x.2) hx with h | h
    · exact ⟨_, h, rfl, rfl⟩
    · exact ⟨_, h, rfl, rfl⟩
  by_cases hex : ∃ r x, (s.str r).key = K ∧ x ∈ outs r s.log
  · right
    obtain ⟨r, x, hrk, hx⟩ := hex
    obtain ⟨e0, he0, hr0, hf0⟩ := outEv r x hx
    have hone : ∀ e ∈ s.log, ∀ r' f, evRef e = some r' → resFrame e = some f → (s.str r').key = K → r' = r := by
      intro e he r' f hr' hf hk'
      have h1 := huniq e he e0 he0 r' r f _ hr' hr0 hf hf0 hk' hrk
      have h2 := huniq e0 he0 e he r r' _ f hr0 hr' hf0 hf hrk hk'
      omega
    have heq := outs_eq_received (K := K) (r := r) s.log
      (by
        intro e he f hf hk
        obtain ⟨r', b, hso, hr', hk'⟩ := hev e he f hf hk
        have := hone e he r' f hr' hf hk'
        subst this
        exact ⟨b, hso⟩)
      (by
        intro e he b f hso
        cases e <;> simp [streamOut] at hso
        · next r' g => obtain ⟨rfl, _, rfl⟩ := hso; exact ⟨rfl, by rw [(hI.d.ev _ he _ _ rfl rfl).2, hrk]⟩
        · next r' g => obtain ⟨rfl, _, rfl⟩ := hso; exact ⟨rfl, by rw [(hI.d.ev _ he _ _ rfl rfl).2, hrk]⟩)
    have hftr := hI.d.ftr r
    simp only [FirstThenRest] at hftr
    split at hftr
    · obtain ⟨first, rest, hout⟩ := hftr
      refine ⟨r, first, rest, hrk, hout, ?_, ?_⟩
      · rw [hrecv, heq, hout]
        simp [Function.comp_def]
      · intro r' hne hk'
        rcases List.eq_nil_or_concat (outs r' s.log) with h | ⟨l, y, h⟩
        · exact h
        · exfalso
          obtain ⟨e, he, hr', hf⟩ := outEv r' y (by rw [h]; simp)
          exact hne (hone e he r' _ hr' hf hk')
    · rw [hftr] at hx; cases hx
  · left
    have hnil : ∀ r, (s.str r).key = K → outs r s.log = [] := by
      intro r hk
      rcases List.eq_nil_or_concat (outs r s.log) with h | ⟨l, y, h⟩
      · exact h
      · exact (hex ⟨r, y, hk, by rw [h]; simp⟩).elim
    refine ⟨?_, hnil⟩
    rw [hrecv]
    have : (s.log.filterMap resFrame).filter (fun f => decide (f.key = K)) = [] := by
      rw [List.filter_eq_nil_iff]
      intro f hf hk
      obtain ⟨e, he, hf⟩ := List.mem_filterMap.1 hf
      obtain ⟨r, b, hso, hr, hk'⟩ := hev e he f hf (by simpa using hk)
      have : (b, f) ∈ outs r s.log := List.mem_filterMap.2 ⟨e, he, hso⟩
      rw [hnil r hk'] at this
      cases this
    rw [this, List.nil_append]

/-- **C11, end of the stream.** Whenever the reader is not in the middle of a frame, the frame channel of a stream that
was never reset is closed (once) if and only if the frame that ends the stream has been handed over; that frame is then the
last one handed over. -/
theorem C11_channel_closed_at_end {acts : List SAct} {s : SSt} (hrun : sRun SSt.init acts = some s)
    (hidle : s.r = .idle) (hrel : s.released = false) (r : Nat) (hrst : ∀ f, SEv.rst (some r) f ∉ s.log) :
    ((s.str r).chCloses = 1 ↔ ∃ b f, (b, f) ∈ outs r s.log ∧ FrameFlag.isDone f.flags = true) ∧
    (s.str r).chCloses ≤ 1 ∧
    ∀ x ∈ (outs r s.log).dropLast, FrameFlag.isDone x.2.flags = false := by
  have hI := SInv.reach hrun
  refine ⟨⟨fun h => ?_, fun ⟨b, f, h, hd⟩ => ?_⟩, hI.b.ch1 r, hI.e.lastDone r⟩
  · have hcp : (s.str r).closedPeer = true := by
      by_cases hc : (s.str r).closedPeer = true
      · exact hc
      · have := hI.b.ch0 r (by simpa using hc); omega
    rcases hI.e.ended hrel r hcp with h | ⟨f, h⟩
    · exact h
    · exact absurd h (hrst f)
  · rcases hI.e.doneClosed r b f h hd with h | h
    · rcases hI.b.chp (by simp [hidle]) r h with h | h
      · exact h
      · simp [hidle, RPc.closing] at h
    · simp [hidle, RPc.donePending] at h

/-- **C11, without any assumption on the peer.** Every frame ever received is accounted for exactly once, in order; the
frames of every stream object are a first frame returned by `ReadFrame` followed by frames received from `FrameCh`, all with
the key of the stream; and a frame is discarded only when the peer had already ended that stream, or the connection is being
torn down. -/
theorem C11_every_frame_accounted {acts : List SAct} {s : SSt} (hrun : sRun SSt.init acts = some s) :
    s.log.filterMap resFrame ++ held s = s.recv ∧
    (∀ r, outs r s.log = [] ∨ ∃ (first : Frame) (rest : List Frame), outs r s.log = (true, first) :: rest.map (fun f => (false, f))) ∧
    (∀ r b f, (b, f) ∈ outs r s.log → f.key = (s.str r).key) ∧
    (s.connCancelled = false → ∀ pre r f post, s.log = pre ++ .dropped r f :: post → peerEnded r pre) := by
  have hI := SInv.reach hrun
  refine ⟨by rw [held_eq]; exact hI.d.res, fun r => ?_, fun r b f h => (outs_key hI h).2, fun hcc pre r f post h => hI.f.dropOrder hcc pre _ post h r f rfl⟩
  have := hI.d.ftr r
  simp only [FirstThenRest] at this
  split at this
  · exact .inr this
  · exact .inl this

/-- A request stream of three frames (two flagged as streamed, then a final one), interleaved with a push of the same id. -/
def exStreamActs : List SAct :=
  let f1 : Frame := { requestID := 7, flags := StreamFlag, cmd := 1, payload := [1] }
  let p : Frame := { requestID := 7, flags := PushFlag, cmd := 2, payload := [9] }
  let f2 : Frame := { requestID := 7, flags := StreamFlag, cmd := 1, payload := [2] }
  let f3 : Frame := { requestID := 7, flags := StreamFlag ||| StreamEndFlag, cmd := 1, payload := [3] }
  [.recv f1, .rstep, .rstep,                                             -- first frame
   .recv p, .rstep, .rstep, .rstep, .rstep, .rstep, .rstep, .rstep, .rstep, .rstep,  -- whole push stream
   .recv f2, .rstep, .rstep, .consume, .rstep,
   .recv f3, .rstep, .rstep, .consume, .rstep, .rstep, .rstep, .rstep]

example : (sRun SSt.init exStreamActs).map (fun s => (s.r, s.connCancelled, received s (7, false) |>.map (·.payload),
      outs 0 s.log |>.map (fun x => (x.1, x.2.payload)), (s.str 0).chCloses, (s.str 1).removals)) =
    some (.idle, false, [[1], [2], [3]], [(true, [1]), (false, [2]), (false, [3])], 1, 1) := by rfl

/-! ## C12 A stream is fully closed exactly once, after both sides closed -/

/-- Is the reader in the middle of something for stream object `r`? -/
def Spec.readerOn (r : Nat) : RPc → Bool
  | .idle | .panicked => false
  | .bindTest r' _ | .addLoad r' _ | .addSelect r' _ | .waitDone r' _ | .cpPush r' _ | .cpStorePeer r'
  | .cpCloseCh r' | .cpLoadSelf r' | .ad r' _ | .rstCas r' | .rstCloseCh r' | .rstCancel r' => r' == r

/-- Is the writer in the middle of something for stream object `r`? -/
def Spec.writerOn (r : Nat) : WPc → Bool
  | .idle => false
  | .rstSwap r' _ | .rstLoad r' _ _ | .loadSelf r' _ | .storeSelf r' _ | .loadPeer r' _ | .ad r' _ _ _ => r' == r

/-- **C12, safety.** On a connection that is not torn down, in every reachable state and for every stream: `Done` is closed
at most once and the table entry removed at most once; and if either happened, or the full-close started at all, then the
peer's end was received and the local side was closed. -/
theorem C12_at_most_once_after_both {acts : List SAct} {s : SSt} (hrun : sRun SSt.init acts = some s)
    (hrel : s.released = false) (r : Nat) :
    (s.str r).doneCloses ≤ 1 ∧ (s.str r).removals ≤ 1 ∧
    ((s.str r).doneCloses ≠ 0 ∨ (s.str r).removals ≠ 0 ∨ (s.str r).fullClosed = true →
      peerEnded r s.log ∧ ((s.str r).key.2 = true ∨ selfEnded r s.log ∨ writerOn r s.w = true)) ∧
    ((s.str r).doneCloses = 1 → (s.str r).removals = 1 ∧ (s.str r).cancelled = true) := by
  have hI := SInv.reach hrun
  have hG := SInvG.reach hrun
  have hph := hI.a.ph r
  have hcount : (s.str r).doneCloses ≤ 1 ∧ (s.str r).removals ≤ 1 ∧
      ((s.str r).doneCloses = 1 → (s.str r).removals = 1 ∧ (s.str r).cancelled = true) := by
    have hr : s.r.adPc r ≠ some .cas := by
      intro h; cases hp : s.r <;> simp [hp, RPc.adPc] at h <;> grind [RPc.adPc]
    have hw : s.w.adPc r ≠ some .cas := by
      intro h; cases hp : s.w <;> simp [hp, WPc.adPc] at h <;> grind [WPc.adPc]
    simp only [PhaseOK] at hph
    cases ha : s.r.adPc r with
    | none =>
      cases hb : s.w.adPc r with
      | none => cases hf : (s.str r).fullClosed <;> simp_all
      | some p => cases p <;> simp_all
    | some p => cases p <;> simp_all
  refine ⟨hcount.1, hcount.2.1, fun h => ?_, hcount.2.2⟩
  have hfull : (s.str r).fullClosed = true := by
    by_cases hf : (s.str r).fullClosed = true
    · exact hf
    · have := hph.2.1 (by simpa using hf)
      rcases h with h | h | h
      · exact absurd this.2.2.2 h
      · exact absurd this.2.2.1 h
      · exact h
  have hb := hI.c.fb hrel r hfull
  refine ⟨hI.e.ended hrel r hb.2, ?_⟩
  cases hk : (s.str r).key.2 with
  | true => exact .inl rfl
  | false =>
    rcases hG.cs r hb.1 hk with h | h
    · exact .inr (.inl h)
    · refine .inr (.inr ?_)
      cases hw : s.w <;> simp_all [WPc.closing, writerOn]

/-- **C12, liveness.** On a connection that is not torn down, whenever neither goroutine is in the middle of an operation on
the stream (and the reader has not panicked, C13): if the local side was ended by an accepted frame, and the peer ended the
stream by a final frame and not by a reset (for resets see C14), then the stream is fully closed: `Done` is closed exactly
once, the context is cancelled, and the stream is no longer in the table. This holds in whatever order the two sides closed
and however their atomic operations were interleaved. -/
theorem C12_closed_when_both_ended {acts : List SAct} {s : SSt} (hrun : sRun SSt.init acts = some s)
    (hrel : s.released = false) (hp : s.r ≠ .panicked) (r : Nat)
    (hr : readerOn r s.r = false) (hw : writerOn r s.w = false)
    (hself : selfEnded r s.log ∨ (s.str r).key.2 = true)
    (hpeer : ∃ b f, (b, f) ∈ outs r s.log ∧ FrameFlag.isDone f.flags = true)
    (hrst : ∀ f, SEv.rst (some r) f ∉ s.log) :
    (s.str r).doneCloses = 1 ∧ (s.str r).removals = 1 ∧ (s.str r).cancelled = true ∧
    s.tbl (s.str r).key ≠ some r := by
  have hI := SInv.reach hrun
  have hG := SInvG.reach hrun
  obtain ⟨b, f, hm, hd⟩ := hpeer
  have hcp : (s.str r).closedPeer = true := by
    rcases hI.e.doneClosed r b f hm hd with h | h
    · exact h
    · cases hr' : s.r <;> simp_all [RPc.donePending, readerOn]
  have hcs : (s.str r).closedSelf = true := by
    rcases hself with h | h
    · exact hG.se r h
    · have hbd : (s.str r).binded = true := by
        have := hI.d.ftr r
        by_cases hb : (s.str r).binded = true
        · exact hb
        · simp only [FirstThenRest, hb, Bool.false_eq_true, if_false] at this
          rw [this] at hm; cases hm
      rcases hG.ps r h hbd with h | h
      · exact h
      · cases hr' : s.r <;> simp_all [RPc.pushing, readerOn]
  have hlate : (s.str r).lateReset = false := by
    by_cases hl : (s.str r).lateReset = true
    · obtain ⟨f, hf⟩ := hG.late r hl; exact absurd hf (hrst f)
    · simpa using hl
  have hr0 : s.r.adPc r = none ∧ s.r.willCheck r = false := by
    cases hr' : s.r <;> simp_all [RPc.adPc, RPc.willCheck, readerOn]
    next p => cases p <;> simp_all [RPc.adPc, RPc.willCheck]
  have hw0 : s.w.adPc r = none ∧ s.w.willCheck r = false := by
    cases hw' : s.w <;> simp_all [WPc.adPc, WPc.willCheck, writerOn]
    next p _ _ => cases p <;> simp_all [WPc.adPc, WPc.willCheck]
  have hfull : (s.str r).fullClosed = true := by
    rcases hI.c.both hrel hp r hcs hcp hlate with h | h | h
    · exact h
    · simp [hr0.2] at h
    · simp [hw0.2] at h
  have := (hI.a.ph r).2.2.1 hfull hr0.1 hw0.1
  refine ⟨this.2.1, this.1, this.2.2, fun h => ?_⟩
  have := (hI.a.tbl1 _ _ h).2.2
  omega

/-- **C12, before that.** A stream whose `Done` is not closed yet and on which nobody is working is still in the table, so
later frames reach it. -/
theorem C12_open_stream_in_table {acts : List SAct} {s : SSt} (hrun : sRun SSt.init acts = some s)
    (hrel : s.released = false) (r : Nat) (hlt : r < s.next) (hr : readerOn r s.r = false) (hw : writerOn r s.w = false)
    (hd : (s.str r).doneCloses = 0) : s.tbl (s.str r).key = some r := by
  have hI := SInv.reach hrun
  refine hI.a.tbl2 hrel r hlt ?_
  have hr0 : s.r.adPc r = none := by
    cases hr' : s.r <;> simp_all [RPc.adPc, readerOn]
    next p => cases p <;> simp_all [RPc.adPc]
  have hw0 : s.w.adPc r = none := by
    cases hw' : s.w <;> simp_all [WPc.adPc, writerOn]
    next p _ _ => cases p <;> simp_all [WPc.adPc]
  cases hf : (s.str r).fullClosed with
  | true => have := (hI.a.ph r).2.2.1 hf hr0 hw0; omega
  | false => exact ((hI.a.ph r).2.1 hf).2.2.1

/-- The race: the writer stores `closedSelf`, the reader stores `closedPeer` and loads `closedSelf`, the writer loads
`closedPeer`: both run `afterDone`, exactly one wins. -/
def exRaceActs : List SAct :=
  [.wstart 3 0 true, .wstep, .wstep,                              -- closedSelf stored, closedPeer not yet loaded
   .recv { requestID := 3, flags := 0, cmd := 0, payload := [] }, .rstep, .rstep, .rstep, .rstep, .rstep,
   .wstep,                                                        -- writer: closedPeer loaded
   .wstep, .rstep,                                                -- writer wins the compare-and-swap
   .wstep, .wstep, .wstep]

/-- Its hypotheses: both sides have ended stream 0, and neither the reader nor the writer is at work on it. -/
example : (sRun SSt.init exRaceActs).map (fun s => (s.released, s.r, s.w, readerOn 0 s.r, writerOn 0 s.w, s.log.any (fun e => match e with | .rst _ _ => true | _ => false),
    (outs 0 s.log).map (fun x => FrameFlag.isDone x.2.flags))) = some (false, .idle, .idle, false, false, false, [true]) := by rfl

example : (sRun SSt.init exRaceActs).map (fun s => (s.r, s.w, (s.str 0).doneCloses, (s.str 0).removals, (s.str 0).cancelled,
    s.tbl (3, false))) = some (.idle, .idle, 1, 1, true, none) := by rfl

/-! ## C13 No panic on any input from the peer -/

/-- A local request (flags 0) with id 1, then from the peer: a reset of stream 1, then an ordinary response. -/
def panicActs : List SAct :=
  [.wstart 1 0 true, .wstep, .wstep, .wstep,
   .recv { requestID := 1, flags := StreamRstFlag, cmd := 0, payload := [] }, .rstep, .rstep, .rstep,
   .recv { requestID := 1, flags := 0, cmd := 0, payload := [] }, .rstep, .rstep, .rstep, .rstep]

/-- **C13 is false**: a peer that resets a request it has not answered and then answers it makes the reader close the frame
channel a second time: `panic: close of closed channel`. Found by this model. -/
theorem C13_refuted_reset_then_response : (sRun SSt.init panicActs).map (fun s => s.r) = some .panicked := by rfl

/-- **C13, what holds.** The reader panics only in that way: some stream was reset by the peer before any frame of it had
been received, and a later frame was then bound to it. -/
theorem C13_panic_only_after_reset_partial {acts : List SAct} {s : SSt} (hrun : sRun SSt.init acts = some s)
    (hp : s.r = .panicked) :
    ∃ r pre f mid g post, s.log = pre ++ .rst (some r) f :: mid ++ .bound r g :: post := by
  have hI := SInv.reach hrun
  have hG := SInvG.reach hrun
  obtain ⟨r, _, hu, hb⟩ := hI.b.pan hp
  obtain ⟨pre, f, post, hl, hn⟩ := hG.rub r hu
  have := hI.d.ftr r
  simp only [FirstThenRest, hb, if_true] at this
  obtain ⟨g, fs, hout⟩ := this
  have hm : (true, g) ∈ outs r s.log := by rw [hout]; simp
  rw [hl] at hm
  have hm2 : SEv.bound r g ∈ post := by
    simp only [outs, List.filterMap_append, List.mem_append, List.mem_filterMap, List.mem_cons] at hm
    rcases hm with ⟨e, he, ho⟩ | ⟨e, rfl | he, ho⟩
    · have : (true, g) ∈ outs r pre := List.mem_filterMap.2 ⟨e, he, ho⟩
      rw [hn] at this; cases this
    · simp [streamOut] at ho
    · cases e <;> simp [streamOut] at ho
      obtain ⟨rfl, rfl⟩ := ho; exact he
  obtain ⟨mid, post', rfl⟩ := List.append_of_mem hm2
  exact ⟨r, pre, f, mid, g, post', by simp [hl]⟩

/-- **C13, peers that never send a reset** cannot cause a panic, whatever else they send. -/
theorem C13_no_reset_no_panic_partial {acts : List SAct} {s : SSt} (hrun : sRun SSt.init acts = some s)
    (hn : ∀ f ∈ s.recv, FrameFlag.isRst f.flags = false) : s.r ≠ .panicked := by
  intro hp
  have hI := SInv.reach hrun
  obtain ⟨r, pre, f, mid, g, post, hl⟩ := C13_panic_only_after_reset_partial hrun hp
  have hm : SEv.rst (some r) f ∈ s.log := by rw [hl]; simp
  have : f ∈ s.recv := by
    rw [← hI.d.res]; exact List.mem_append.2 (.inl (List.mem_filterMap.2 ⟨_, hm, rfl⟩))
  have h1 := hn f this
  rw [hI.f.rstF _ _ hm] at h1
  cases h1

example : (sRun SSt.init exStreamActs).map (fun s => (s.recv.length, s.recv.all (fun f => !FrameFlag.isRst f.flags), s.r)) =
    some (4, true, .idle) := by decide +kernel

/-! ## C14 Streams that both sides are done with are removed -/

/-- **C14 is false**: a request was sent (local side closed) and the peer reset it (peer side closed); both goroutines are
idle, the context of the stream is cancelled, yet the stream is still in the table and never fully closed. -/
theorem C14_refuted_reset_leaks :
    (sRun SSt.init (panicActs.take 8)).map (fun s =>
      (s.r, s.w, (s.str 0).closedSelf, (s.str 0).closedPeer, s.tbl (1, false), (s.str 0).doneCloses)) =
    some (.idle, .idle, true, true, some 0, 0) := by rfl

/-- **C14, what holds.** If the peer ended the stream by its final frame and never reset it, the stream is removed. -/
theorem C14_removed_partial {acts : List SAct} {s : SSt} (hrun : sRun SSt.init acts = some s)
    (hrel : s.released = false) (hp : s.r ≠ .panicked) (r : Nat)
    (hr : readerOn r s.r = false) (hw : writerOn r s.w = false)
    (hself : selfEnded r s.log ∨ (s.str r).key.2 = true)
    (hpeer : ∃ b f, (b, f) ∈ outs r s.log ∧ FrameFlag.isDone f.flags = true)
    (hrst : ∀ f, SEv.rst (some r) f ∉ s.log) : ∀ K, s.tbl K ≠ some r := by
  intro K hK
  have hI := SInv.reach hrun
  have := C12_closed_when_both_ended hrun hrel hp r hr hw hself hpeer hrst
  rw [(hI.a.tbl1 _ _ hK).2.1] at this
  exact this.2.2.2 hK

/-- **C14, resets.** Also when the peer's reset arrives before the local side ends: whichever frame then ends the local
side removes the stream. (Stated on the model's flags: both sides closed, and the reset did not come after the writer
looked.) -/
theorem C14_reset_before_local_end_partial {acts : List SAct} {s : SSt} (hrun : sRun SSt.init acts = some s)
    (hrel : s.released = false) (hp : s.r ≠ .panicked) (r : Nat)
    (hr : readerOn r s.r = false) (hw : writerOn r s.w = false)
    (hcs : (s.str r).closedSelf = true) (hcp : (s.str r).closedPeer = true) (hlate : (s.str r).lateReset = false) :
    (s.str r).doneCloses = 1 ∧ ∀ K, s.tbl K ≠ some r := by
  have hI := SInv.reach hrun
  have hr0 : s.r.adPc r = none ∧ s.r.willCheck r = false := by
    cases hr' : s.r <;> simp_all [RPc.adPc, RPc.willCheck, readerOn]
    next p => cases p <;> simp_all [RPc.adPc, RPc.willCheck]
  have hw0 : s.w.adPc r = none ∧ s.w.willCheck r = false := by
    cases hw' : s.w <;> simp_all [WPc.adPc, WPc.willCheck, writerOn]
    next p _ _ => cases p <;> simp_all [WPc.adPc, WPc.willCheck]
  have hfull : (s.str r).fullClosed = true := by
    rcases hI.c.both hrel hp r hcs hcp hlate with h | h | h
    · exact h
    · simp [hr0.2] at h
    · simp [hw0.2] at h
  have := (hI.a.ph r).2.2.1 hfull hr0.1 hw0.1
  refine ⟨this.2.1, fun K h => ?_⟩
  have := (hI.a.tbl1 _ _ h).2.2
  omega

/-- Peer opens a stream, resets it, then the local side ends it: removed. -/
example : (sRun SSt.init
    [.recv { requestID := 1, flags := StreamFlag, cmd := 0, payload := [] }, .rstep, .rstep,
     .recv { requestID := 1, flags := StreamRstFlag, cmd := 0, payload := [] }, .rstep, .rstep, .rstep,
     .wstart 1 0 false, .wstep, .wstep, .wstep, .wstep, .wstep, .wstep, .wstep]).map
    (fun s => (s.r, s.w, (s.str 0).lateReset, (s.str 0).doneCloses, s.tbl (1, false))) =
    some (.idle, .idle, false, 1, none) := by rfl

/-! ## C15 Nothing is sent on a stream after its end -/

/-- **C15.** In every execution, if a non-reset frame is accepted for sending on a stream object, then no frame that ends
the local side of that stream was accepted before it. -/
theorem C15_nothing_after_end {acts : List SAct} {s : SSt} (hrun : sRun SSt.init acts = some s)
    {pre post : List SEv} {r : Nat} {fl : FrameFlag} (hl : s.log = pre ++ .accepted r fl :: post)
    (hn : FrameFlag.isRst fl = false) : ¬ selfEnded r pre :=
  (SInvG.reach hrun).acc pre _ post hl r fl rfl hn

/-- **C15, conversely**: a frame is rejected only if a frame ending the local side had been accepted (push streams are
never written to by this path). -/
theorem C15_rejected_only_after_end {acts : List SAct} {s : SSt} (hrun : sRun SSt.init acts = some s)
    {r : Nat} {fl : FrameFlag} (h : SEv.rejected r fl ∈ s.log) (hk : (s.str r).key.2 = false) : selfEnded r s.log :=
  (SInvG.reach hrun).rej r fl h hk

/-- Processing a reset of a stream that is closed on both sides. -/
def resetPhase (r : Nat) (fl : FrameFlag) (t : SSt) : Prop :=
  (t.str r).closedSelf = true ∧ (t.str r).closedPeer = true ∧ r < t.next ∧
    (t.w = .rstSwap r fl ∨ t.w = .rstLoad r fl true ∨ ∃ pc, t.w = .ad r pc fl false)

set_option maxHeartbeats 4000000 in
theorem resetPhase_step {r : Nat} {fl : FrameFlag} {t t' : SSt} {a : SAct} (h : resetPhase r fl t)
    (hs : sStep t a = some t') :
    (resetPhase r fl t' ∧ (t'.log = t.log ∨ ∃ e, isOutcome e = false ∧ t'.log = t.log ++ [e])) ∨
    (t'.log = t.log ++ [.rejected r fl] ∧ t'.w = .idle) := by
  obtain ⟨h1, h2, h3, h4⟩ := h
  sstep_cases hs a
  all_goals first
    | (left; refine ⟨?_, Or.inl rfl⟩; grind [resetPhase])
    | (left; refine ⟨?_, Or.inr ⟨_, ?_, rfl⟩⟩ <;> grind [resetPhase, isOutcome])
    | (right; grind)
    | grind

/-- Every step appends at most one event to the log. -/
theorem sStep_log_suffix {t t' : SSt} {a : SAct} (hs : sStep t a = some t') : ∃ sfx, t'.log = t.log ++ sfx := by
  sstep_cases hs a
  all_goals first
    | exact ⟨[], (List.append_nil _).symm⟩
    | exact ⟨_, rfl⟩

/-- **C15, resets.** Once the goroutine processing writes starts on a reset for a stream that is closed on both sides, then
however the execution continues, the next write outcome recorded is the rejection of that reset: it is not sent. -/
theorem C15_reset_of_closed_stream_not_sent {s : SSt} {r : Nat} {fl : FrameFlag} (hlt : r < s.next)
    (hw : s.w = .rstSwap r fl) (hcs : (s.str r).closedSelf = true) (hcp : (s.str r).closedPeer = true)
    {acts : List SAct} {s' : SSt} (hrun : sRun s acts = some s') :
    ∃ suffix, s'.log = s.log ++ suffix ∧
      (s'.w = .idle → (suffix.filter isOutcome).head? = some (.rejected r fl)) := by
  have key : ∃ suffix, s'.log = s.log ++ suffix ∧
      ((resetPhase r fl s' ∧ suffix.filter isOutcome = []) ∨
        (suffix.filter isOutcome).head? = some (.rejected r fl)) := by
    refine runActs_inv (P := fun t => ∃ suffix, t.log = s.log ++ suffix ∧
      ((resetPhase r fl t ∧ suffix.filter isOutcome = []) ∨
        (suffix.filter isOutcome).head? = some (.rejected r fl))) ?_ ⟨[], by simp, .inl ⟨⟨hcs, hcp, hlt, .inl hw⟩, rfl⟩⟩ hrun
    intro t a t' ⟨sfx, hl, hcase⟩ hs
    rcases hcase with ⟨hph, hn⟩ | hh
    · rcases resetPhase_step hph hs with ⟨hph', hlog | ⟨e, he, hlog⟩⟩ | ⟨hlog, _⟩
      · exact ⟨sfx, by rw [hlog, hl], .inl ⟨hph', hn⟩⟩
      · exact ⟨sfx ++ [e], by rw [hlog, hl, List.append_assoc], .inl ⟨hph', by simp [List.filter_append, hn, he]⟩⟩
      · exact ⟨sfx ++ [.rejected r fl], by rw [hlog, hl, List.append_assoc],
          .inr (by simp [List.filter_append, hn, isOutcome])⟩
    · obtain ⟨sfx', hl'⟩ := sStep_log_suffix hs
      exact ⟨sfx ++ sfx', by rw [hl', hl, List.append_assoc],
        .inr (by rw [List.filter_append, List.head?_append, hh]; rfl)⟩
  obtain ⟨sfx, hl, hcase⟩ := key
  refine ⟨sfx, hl, fun hidle => ?_⟩
  rcases hcase with ⟨⟨_, _, _, h | h | ⟨pc, h⟩⟩, _⟩ | h
  · simp [hidle] at h
  · simp [hidle] at h
  · simp [hidle] at h
  · exact h

/-- How many own steps the writer still needs. -/
def Spec.writerSteps : WPc → Nat
  | .idle => 0
  | .rstSwap .. => 6 | .rstLoad .. => 5 | .loadSelf .. => 7 | .storeSelf .. => 6 | .loadPeer .. => 5
  | .ad _ .cas _ _ => 4 | .ad _ .cancel _ _ => 3 | .ad _ .notify _ _ => 2 | .ad _ .done _ _ => 1

/-- **C15, every write is decided**: the goroutine processing writes never blocks on a stream: its next step is always
possible, brings it closer to the outcome, and no step of any other goroutine pushes it back. -/
theorem C15_write_always_decided (s : SSt) :
    (s.w ≠ .idle → ∃ s', sStep s .wstep = some s' ∧ writerSteps s'.w < writerSteps s.w) ∧
    ∀ a s', s.w ≠ .idle → a ≠ .wstep → sStep s a = some s' → s'.w = s.w := by
  constructor
  · intro hw
    simp only [sStep, wStep]
    split
    · contradiction
    all_goals (try split) <;> (try split)
    all_goals simp_all [writerSteps]
  · intro a s' hw ha hs
    sstep_cases hs a
    all_goals first
      | rfl
      | (exact absurd rfl ha)
      | grind

/-- A stream end accepted, then data: rejected; then a reset: sent, because the peer side is still open; after the peer
closed, another reset is not sent. -/
example : (sRun SSt.init
    ([.wstart 1 StreamFlag true, .wstep, .wstart 1 (StreamFlag ||| StreamEndFlag) false, .wstep, .wstep, .wstep,
     .wstart 1 StreamFlag false, .wstep, .wstart 1 StreamRstFlag false, .wstep, .wstep] ++
     [.recv { requestID := 1, flags := StreamFlag, cmd := 0, payload := [] }, .rstep, .rstep,
     .recv { requestID := 1, flags := StreamRstFlag, cmd := 0, payload := [] }, .rstep, .rstep, .rstep,
     .wstart 1 StreamRstFlag false, .wstep, .wstep, .wstep, .wstep, .wstep, .wstep])).map
    (fun s => s.log.filter isOutcome) =
    some [.accepted 0 StreamFlag, .accepted 0 (StreamFlag ||| StreamEndFlag), .rejected 0 StreamFlag,
      .accepted 0 StreamRstFlag, .rejected 0 StreamRstFlag] := by decide

/-! ## C16 Request streams and push streams do not interfere -/

/-- The key an action is about (none: no stream). -/
def Spec.actKey (s : SSt) : SAct → Option SKey
  | .recv f => some f.key
  | .wstart id fl _ => some (id, FrameFlag.isPush fl)
  | .rstep | .consume | .rctx | .rdone =>
    match s.r with
    | .idle | .panicked => none
    | .bindTest r _ | .addLoad r _ | .addSelect r _ | .waitDone r _ | .cpPush r _ | .cpStorePeer r
    | .cpCloseCh r | .cpLoadSelf r | .ad r _ | .rstCas r | .rstCloseCh r | .rstCancel r => some (s.str r).key
  | .wstep =>
    match s.w with
    | .idle => none
    | .rstSwap r _ | .rstLoad r _ _ | .loadSelf r _ | .storeSelf r _ | .loadPeer r _ | .ad r _ _ _ => some (s.str r).key
  | .cancelConn => none
  | .release => none

set_option maxHeartbeats 4000000 in
/-- **C16.** In every reachable state, every step other than the final release leaves the table entry and all stream objects
of every other key exactly as they were; stream objects it creates have its own key. In particular an operation on a push
stream leaves the request stream with the same id unchanged, and conversely. -/
theorem C16_isolation {acts : List SAct} {s s' : SSt} (hrun : sRun SSt.init acts = some s) {a : SAct}
    (ha : a ≠ .release) (hs : sStep s a = some s') (K : SKey) (hK : actKey s a ≠ some K) :
    s'.tbl K = s.tbl K ∧ (∀ r, r < s.next → (s.str r).key = K → s'.str r = s.str r) ∧
    (∀ r, s.next ≤ r → r < s'.next → (s'.str r).key ≠ K) := by
  have hA := (SInv.reach hrun).a
  obtain ⟨a1, a2, a3, a4, a5, a6, a7⟩ := hA
  clear a7 hrun
  sstep_cases hs a
  all_goals simp only []
  all_goals first
    | (exact absurd rfl ha)
    | (refine ⟨?_, ?_, ?_⟩ <;> grind [actKey])

/-- Same id, push and request: different keys. -/
example : Frame.key { requestID := 5, flags := PushFlag, cmd := 0, payload := [] } ≠
    Frame.key { requestID := 5, flags := 0, cmd := 0, payload := [] } := by decide

/-- Non-trivial case: a reset of push stream 7 while request stream 7 is open leaves the latter untouched. -/
example : (sRun SSt.init
    [.recv { requestID := 7, flags := StreamFlag, cmd := 0, payload := [] }, .rstep, .rstep,
     .recv { requestID := 7, flags := PushFlag ||| StreamFlag, cmd := 0, payload := [] }, .rstep, .rstep,
     .recv { requestID := 7, flags := PushFlag ||| StreamRstFlag, cmd := 0, payload := [] }, .rstep, .rstep, .rstep]).map
    (fun s => (s.next, (s.str 0).closedPeer, (s.str 0).cancelled, (s.str 1).closedPeer, (s.str 1).cancelled, s.tbl (7, false)))
    = some (2, false, false, true, true, some 0) := by rfl

end Qrpc
