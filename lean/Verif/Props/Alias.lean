import Verif.Props.ServeWrite
import Verif.Model.Alias
/-! # C68: the transport takes the bytes the caller submitted -/
namespace Qrpc
open Spec

/-- Queued or in the batch. -/
def GSt.pend (g : GSt) (t : Nat) : Prop := (g.deq ≤ t ∧ t < g.frames.length) ∨ t ∈ g.batch

/-- A goroutine at `p` has not returned from submitting ticket `t`, or waits for the context. -/
def TPc.serves (p : TPc) (t : Nat) : Prop := p.tk = some t ∨ p = .inflUndo ∨ p = .stuck

theorem TPc.serves_ne_idle {p : TPc} {t : Nat} (h : p.serves t) : p ≠ .idle := by
  rintro rfl; simp [TPc.serves, TPc.tk] at h

set_option maxHeartbeats 4000000 in
theorem pend_step {cap : Nat} {g g' : GSt} {a : GAct} (hA : GInvA cap g) (hB : GInvB g) (hs : gStep cap g a = some g')
    (h1 : ∀ i, a ≠ .enq i) (hx : g'.ctx = false) {t : Nat} (hp : g'.pend t) :
    g.ctx = false ∧ g.pend t ∧ g'.frames = g.frames ∧ ∀ i, (g.pc i).serves t → (g'.pc i).serves t := by
  obtain ⟨b1, b2, b3, -, -, -, -, -, b9, -, -⟩ := hB
  obtain ⟨-, -, -, a4, -, -, -⟩ := hA
  gstep_cases hs a
  all_goals simp only [GSt.pend] at hp ⊢
  all_goals first
    | (exact absurd rfl (h1 _))
    | (refine ⟨?_, ?_, ?_, ?_⟩ <;> grind [setAt, TPc.serves, TPc.tk, TPc.clean])

set_option maxHeartbeats 4000000 in
/-- Steps other than a new call: only the acting goroutine's position changes; a call ends only in the listed steps. -/
theorem pc_step {cap : Nat} {g g' : GSt} {a : GAct} (hs : gStep cap g a = some g') (hc : ∀ i f, a ≠ .call i f) (i : Nat) :
    (g'.pc i = g.pc i ∨ (g.pc i ≠ .idle ∧ ((∀ f, g'.pc i ≠ .enq f))) ∧ (g'.pc i = .idle → a.gor = some i)) ∧
      (∀ j, a.gor = some j → g.pc j ≠ .idle) := by
  gstep_cases hs a
  all_goals first
    | (exact absurd rfl (hc _ _))
    | (refine ⟨?_, ?_⟩ <;> grind [setAt, GAct.gor])

structure LInv (cap : Nat) (s : LSt) : Prop where
  g : ∀ c, GInv cap (s.conn c)
  own : ∀ c i, (s.conn c).pc i ≠ .idle → s.owner (s.arr c i) = some (c, i)
  enq : ∀ c i f, (s.conn c).pc i = .enq f → (s.mem (s.arr c i)).take f.bytes.length = f.bytes
  pend : ∀ c t, (s.conn c).ctx = false → (s.conn c).pend t →
    (s.mem (s.ref c t)).take ((s.conn c).frame t).bytes.length = ((s.conn c).frame t).bytes ∧
      ∃ i, ((s.conn c).pc i).serves t ∧ s.ref c t = s.arr c i
  wire : ∀ c, (s.conn c).ctx = false → s.wire c = (s.conn c).wire

theorem LInv.init (cap : Nat) : LInv cap LSt.init := by
  refine ⟨fun _ => GInv.init cap, ?_, ?_, ?_, ?_⟩ <;> simp [LSt.init, GSt.init, GSt.pend]

theorem ctx_step {cap : Nat} {g g' : GSt} {a : GAct} (hs : gStep cap g a = some g') (hx : g'.ctx = false) : g.ctx = false := by
  gstep_cases hs a <;> simp_all

theorem wire_step {cap : Nat} {g g' : GSt} {a : GAct} (hs : gStep cap g a = some g') (hw : ∀ i k ok, a ≠ .write i k ok) :
    g'.wire = g.wire := by
  gstep_cases hs a <;> simp_all

theorem LInv.fill {cap : Nat} {s : LSt} {w : Nat} {b : Bytes} (h : LInv cap s) (ho : s.owner w = none) :
    LInv cap { s with mem := setAt s.mem w (overlay b (s.mem w)) } := by
  obtain ⟨h1, h2, h3, h4, h5⟩ := h
  have hne : ∀ c i, (s.conn c).pc i ≠ .idle → s.arr c i ≠ w := by
    intro c i hi he; have := h2 c i hi; rw [he, ho] at this; cases this
  refine ⟨h1, h2, ?_, ?_, h5⟩
  · intro c i f hp
    have := hne c i (by rw [hp]; simp)
    simp only [setAt, this, if_false]
    exact h3 c i f hp
  · intro c t hx hp
    obtain ⟨p1, i, p2, p3⟩ := h4 c t hx hp
    have := hne c i (TPc.serves_ne_idle p2)
    refine ⟨?_, i, p2, p3⟩
    rw [p3] at p1 ⊢
    simp only [setAt, this, if_false]
    exact p1

theorem LInv.call {cap : Nat} {s : LSt} {c i w : Nat} {f : SFrame} {g : GSt} (h : LInv cap s) (ho : s.owner w = none)
    (hm : (s.mem w).take f.bytes.length = f.bytes) (hg : gStep cap (s.conn c) (.call i f) = some g) :
    LInv cap { s with conn := setAt s.conn c g, owner := setAt s.owner w (some (c, i)),
                      arr := setAt s.arr c (setAt (s.arr c) i w) } := by
  obtain ⟨h1, h2, h3, h4, h5⟩ := h
  have hG := (h1 c).step hg
  have hne : ∀ c i, (s.conn c).pc i ≠ .idle → s.arr c i ≠ w := by
    intro c i hi he; have := h2 c i hi; rw [he, ho] at this; cases this
  simp only [gStep] at hg
  split at hg
  case h_2 => cases hg
  split at hg
  · cases hg
  next hidle _ =>
  simp only [Option.some.injEq] at hg
  subst hg
  refine ⟨?_, ?_, ?_, ?_, ?_⟩
  · intro d; by_cases hd : d = c
    · subst hd; simpa [setAt] using hG
    · simpa [setAt, hd] using h1 d
  · intro d j hj
    by_cases hd : d = c
    · subst hd
      by_cases hji : j = i
      · subst hji; simp [setAt]
      · simp only [setAt, hji, if_false, if_true] at hj ⊢
        rw [if_neg (hne d j hj)]; exact h2 d j hj
    · simp only [setAt, hd, if_false] at hj ⊢
      rw [if_neg (hne d j hj)]; exact h2 d j hj
  · intro d j f' hj
    by_cases hd : d = c
    · subst hd
      by_cases hji : j = i
      · subst hji; simp only [setAt, if_true, TPc.enq.injEq] at hj ⊢; subst hj; exact hm
      · simp only [setAt, hji, if_false, if_true] at hj ⊢; exact h3 d j f' hj
    · simp only [setAt, hd, if_false] at hj ⊢; exact h3 d j f' hj
  · intro d t hx hp
    by_cases hd : d = c
    · subst hd
      simp only [setAt, if_true] at hx hp ⊢
      obtain ⟨p1, j, p2, p3⟩ := h4 d t hx hp
      refine ⟨p1, j, ?_⟩
      have hji : j ≠ i := by rintro rfl; exact TPc.serves_ne_idle p2 hidle
      simp only [setAt, hji, if_false]; exact ⟨p2, p3⟩
    · simp only [setAt, hd, if_false] at hx hp ⊢
      exact h4 d t hx hp
  · intro d hx
    by_cases hd : d = c
    · subst hd; simp only [setAt, if_true] at hx ⊢; exact h5 d hx
    · simp only [setAt, hd, if_false] at hx ⊢; exact h5 d hx

theorem LInv.enqStep {cap : Nat} {s : LSt} {c i : Nat} {g : GSt} (h : LInv cap s) (hg : gStep cap (s.conn c) (.enq i) = some g) :
    LInv cap { s with conn := setAt s.conn c g,
                      ref := setAt s.ref c (setAt (s.ref c) (s.conn c).frames.length (s.arr c i)) } := by
  obtain ⟨h1, h2, h3, h4, h5⟩ := h
  have hG := (h1 c).step hg
  simp only [gStep] at hg
  split at hg
  case h_2 => cases hg
  split at hg
  case isFalse => cases hg
  next f hf _ =>
  simp only [Option.some.injEq] at hg
  subst hg
  refine ⟨?_, ?_, ?_, ?_, ?_⟩
  · intro d; by_cases hd : d = c
    · subst hd; simpa [setAt] using hG
    · simpa [setAt, hd] using h1 d
  · intro d j hj
    by_cases hd : d = c
    · subst hd
      by_cases hji : j = i
      · subst hji; exact h2 d j (by simp [hf])
      · simp only [setAt, hji, if_false, if_true] at hj ⊢; exact h2 d j hj
    · simp only [setAt, hd, if_false] at hj ⊢; exact h2 d j hj
  · intro d j f' hj
    by_cases hd : d = c
    · subst hd
      by_cases hji : j = i
      · subst hji; simp [setAt] at hj
      · simp only [setAt, hji, if_false, if_true] at hj ⊢; exact h3 d j f' hj
    · simp only [setAt, hd, if_false] at hj ⊢; exact h3 d j f' hj
  · intro d t hx hp
    by_cases hd : d = c
    · subst hd
      simp only [setAt, if_true] at hx hp ⊢
      by_cases ht : t = (s.conn d).frames.length
      · subst ht
        simp only [if_true]
        refine ⟨?_, i, ?_, rfl⟩
        · have := h3 d i f hf
          simpa [GSt.frame, frameOf, List.getD] using this
        · simp [setAt, TPc.serves, TPc.tk]
      · simp only [ht, if_false]
        have hp' : (s.conn d).pend t := by
          rcases hp with hp | hp
          · left; simp only [List.length_append, List.length_cons, List.length_nil] at hp; omega
          · right; exact hp
        have hlt : t < (s.conn d).frames.length := by
          rcases hp' with hp' | hp'
          · exact hp'.2
          · exact Nat.lt_of_lt_of_le ((h1 d).b.batchLt t hp') (h1 d).a.deq
        obtain ⟨p1, j, p2, p3⟩ := h4 d t hx hp'
        have hfr : frameOf ((s.conn d).frames ++ [f]) t = frameOf (s.conn d).frames t := by
          simp [frameOf, List.getD, List.getElem?_append_left hlt]
        simp only [GSt.frame] at p1 ⊢
        rw [hfr]
        refine ⟨p1, j, ?_, p3⟩
        have hji : j ≠ i := by rintro rfl; simp [hf, TPc.serves, TPc.tk] at p2
        simp only [setAt, hji, if_false]; exact p2
    · simp only [setAt, hd, if_false] at hx hp ⊢
      exact h4 d t hx hp
  · intro d hx
    by_cases hd : d = c
    · subst hd; simp only [setAt, if_true] at hx ⊢; exact h5 d hx
    · simp only [setAt, hd, if_false] at hx ⊢; exact h5 d hx

/-- Steps that neither submit nor enqueue. -/
theorem LInv.other {cap : Nat} {s : LSt} {c : Nat} {a : GAct} {g : GSt} {owner' : Nat → Option (Nat × Nat)} {wire' : Nat → Bytes}
    (h : LInv cap s) (hg : gStep cap (s.conn c) a = some g) (hc : ∀ i f, a ≠ .call i f) (he : ∀ i, a ≠ .enq i)
    (ho : ∀ w, owner' w = s.owner w ∨ ∃ i, a.gor = some i ∧ g.pc i = .idle ∧ w = s.arr c i)
    (hw1 : ∀ d, d ≠ c → wire' d = s.wire d) (hw2 : g.ctx = false → wire' c = g.wire) :
    LInv cap { s with conn := setAt s.conn c g, owner := owner', wire := wire' } := by
  obtain ⟨h1, h2, h3, h4, h5⟩ := h
  have hG := (h1 c).step hg
  have hpc := pc_step hg hc
  have hown : ∀ d j, (s.conn d).pc j ≠ .idle → (d = c → g.pc j ≠ .idle) → owner' (s.arr d j) = some (d, j) := by
    intro d j hj hn
    rcases ho (s.arr d j) with ho | ⟨i, h6, h7, h8⟩
    · rw [ho]; exact h2 d j hj
    · have e1 := h2 d j hj
      have e2 := h2 c i ((hpc i).2 i h6)
      rw [h8, e2] at e1
      simp only [Option.some.injEq, Prod.mk.injEq] at e1
      obtain ⟨rfl, rfl⟩ := e1
      exact absurd h7 (hn rfl)
  refine ⟨?_, ?_, ?_, ?_, ?_⟩
  · intro d; by_cases hd : d = c
    · subst hd; simpa [setAt] using hG
    · simpa [setAt, hd] using h1 d
  · intro d j hj
    by_cases hd : d = c
    · subst hd
      simp only [setAt, if_true] at hj ⊢
      refine hown d j ?_ (fun _ => hj)
      rcases (hpc j).1 with e | ⟨e, -⟩
      · rw [← e]; exact hj
      · exact e.1
    · simp only [setAt, hd, if_false] at hj ⊢
      exact hown d j hj (fun e => absurd e hd)
  · intro d j f' hj
    by_cases hd : d = c
    · subst hd
      simp only [setAt, if_true] at hj
      rcases (hpc j).1 with e | ⟨e, -⟩
      · exact h3 d j f' (by rw [← e]; exact hj)
      · exact absurd hj (e.2 f')
    · simp only [setAt, hd, if_false] at hj ⊢; exact h3 d j f' hj
  · intro d t hx hp
    by_cases hd : d = c
    · subst hd
      simp only [setAt, if_true] at hx hp ⊢
      obtain ⟨q1, q2, q3, q4⟩ := pend_step (h1 d).a (h1 d).b hg he hx hp
      obtain ⟨p1, j, p2, p3⟩ := h4 d t q1 q2
      simp only [GSt.frame, q3] at p1 ⊢
      exact ⟨p1, j, q4 j p2, p3⟩
    · simp only [setAt, hd, if_false] at hx hp ⊢
      exact h4 d t hx hp
  · intro d hx
    by_cases hd : d = c
    · subst hd; simp only [setAt, if_true] at hx ⊢; exact hw2 hx
    · simp only [setAt, hd, if_false] at hx ⊢; rw [hw1 d hd]; exact h5 d hx

theorem LInv.slices_eq {cap : Nat} {s : LSt} (h : LInv cap s) {c : Nat} (hx : (s.conn c).ctx = false) :
    s.slices c = (s.conn c).bufs := by
  simp only [LSt.slices, GSt.bufs]
  apply List.map_congr_left
  intro t ht
  exact (h.pend c t hx (.inr ht)).1

theorem LInv.step {cap : Nat} {s s' : LSt} {a : LAct} (h : LInv cap s) (hs : lStep cap s a = some s') : LInv cap s' := by
  cases a with
  | fill w b =>
    simp only [lStep] at hs
    split at hs
    · cases hs; exact h.fill (by assumption)
    · cases hs
  | call c i w f =>
    simp only [lStep] at hs
    split at hs
    · cases hs
    · split at hs
      · obtain ⟨g, hg, rfl⟩ := Option.map_eq_some_iff.mp hs
        exact h.call (by assumption) (by assumption) hg
      · cases hs
  | act c a =>
    cases a
    case call => simp [lStep] at hs
    case enq i =>
      simp only [lStep] at hs
      obtain ⟨g, hg, rfl⟩ := Option.map_eq_some_iff.mp hs
      exact h.enqStep hg
    case write i k ok =>
      simp only [lStep] at hs
      obtain ⟨g, hg, rfl⟩ := Option.map_eq_some_iff.mp hs
      refine h.other hg (by simp) (by simp) (fun _ => .inl rfl) (fun d hd => by simp [setAt, hd]) ?_
      intro hx
      have hx0 := ctx_step hg hx
      simp only [setAt, if_true]
      rw [h.slices_eq hx0, h.wire c hx0]
      simp only [gStep] at hg
      split at hg
      · split at hg
        · cases hg; rfl
        · cases hg
      · cases hg
    all_goals
      simp only [lStep] at hs
      obtain ⟨g, hg, rfl⟩ := Option.map_eq_some_iff.mp hs
      refine h.other hg (by simp) (by simp) ?_ (fun d _ => rfl)
        (fun hx => by rw [wire_step hg (by simp)]; exact h.wire c (ctx_step hg hx))
      intro w
      simp only [GAct.gor]
      grind [setAt]

theorem LInv.reach {cap : Nat} {acts : List LAct} {s : LSt} (h : lRun cap acts = some s) : LInv cap s :=
  runActs_inv (P := LInv cap) (fun _ _ _ hp hs => hp.step hs) (LInv.init cap) h

/-- **C68, as long as the context is not cancelled.** What the transport of a connection was given are the frames submitted on
that very connection, byte for byte as they were when submitted, in submission order - although every writer's buffer is
reused for other frames, on any connection, as soon as its call has returned. -/
theorem C68_partial {cap : Nat} {acts : List LAct} {s : LSt} (h : lRun cap acts = some s) {c : Nat}
    (hx : (s.conn c).ctx = false) :
    ∃ ts : List Nat, ts.Pairwise (· < ·) ∧ (∀ t ∈ ts, t < (s.conn c).frames.length) ∧
      s.wire c <+: concat (s.conn c).frames ts ∧ ((s.conn c).closing = false → s.wire c = concat (s.conn c).frames ts) := by
  have hL := LInv.reach h
  have hI := hL.g c
  rw [hL.wire c hx]
  refine ⟨(s.conn c).sent, hI.d.sorted, hI.sentLt, ?_, ?_⟩
  · rw [← flatOf_eq_concat hI.sentLt, hI.d.wire]; exact List.take_prefix _ _
  · intro hc
    rw [← flatOf_eq_concat hI.sentLt]
    apply hI.d.whole
    cases hb : (s.conn c).broken with
    | false => rfl
    | true => have := hI.broken_closing hb; simp_all

def lf (b : Bytes) : SFrame := ⟨b, false, false, true, false⟩

/-- Two goroutines write on connection 0: goroutine 0 holds the lock and has collected both frames. `Serve` returns and its
context is cancelled (the connection is still open); goroutine 1 gives up and returns its writer to the pool, from where
connection 1 gets it for a frame of its own. Only then does goroutine 0's vectored write start. -/
def exLeak : List LAct :=
  [.fill 0 [1, 1], .call 0 0 0 (lf [1, 1]), .act 0 (.enq 0), .fill 7 [2, 2], .call 0 1 7 (lf [2, 2]), .act 0 (.enq 1),
   .act 0 (.lock 0), .act 0 (.go 0), .act 0 (.go 0), .act 0 (.deq 0 true true), .act 0 (.deq 0 true true),
   .act 0 .close, .act 0 .cancel, .act 0 (.waitCtx 1), .fill 7 [9, 9], .call 1 0 7 (lf [9, 9]),
   .act 0 (.go 0), .act 0 (.go 0), .act 0 (.write 0 4 true)]

/-- **C68 is false of the code.** A caller whose connection's context is cancelled returns from `writeFrameBytes` while the
holder of the write lock still refers to its buffer; the buffer is then reused, and the peer of connection 0 receives a frame
that was submitted on connection 1 only. -/
theorem C68_refuted : ∃ s, lRun 2 exLeak = some s ∧ s.wire 0 = [1, 1, 9, 9] ∧
    (s.conn 0).frames.map SFrame.bytes = [[1, 1], [2, 2]] ∧ (s.conn 0).connClosed = false ∧
    (s.conn 1).pc 0 = .enq (lf [9, 9]) := by
  refine ⟨_, rfl, rfl, rfl, rfl, rfl⟩

/-- Reuse without cancellation: one array serves two connections in turn, a second one the first connection again. -/
def exReuse : List LAct :=
  [.fill 0 [1, 1], .call 0 0 0 (lf [1, 1]), .act 0 (.enq 0), .act 0 (.lock 0), .act 0 (.go 0), .act 0 (.go 0),
   .act 0 (.deq 0 true true), .act 0 (.go 0), .act 0 (.go 0), .act 0 (.write 0 2 true), .act 0 (.go 0), .act 0 (.go 0),
   .act 0 (.go 0), .act 0 (.go 0), .act 0 (.go 0), .fill 0 [9], .call 1 0 0 (lf [9]), .act 1 (.enq 0), .act 1 (.lock 0),
   .act 1 (.go 0), .act 1 (.go 0), .act 1 (.deq 0 true true), .act 1 (.go 0), .act 1 (.go 0), .act 1 (.write 0 1 true)]

example : (lRun 2 exReuse).map (fun s => (s.wire 0, s.wire 1, (s.conn 0).ctx, (s.conn 1).ctx, s.mem 0)) =
    some ([1, 1], [9], false, false, [9, 1]) := by rfl

end Qrpc
