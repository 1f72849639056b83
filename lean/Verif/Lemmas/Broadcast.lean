import Verif.Model.Broadcast
import Verif.Props.Walk
import Verif.Props.ServeStart
import Verif.Props.Push
import Verif.Props.GenRpc
/-! Lemmas for C132: the write of a push, seen from the goroutine that makes it. -/
namespace Qrpc
open Spec

/-! ## A push of an open connection is written -/

/-- While nobody closes the connection, a push gets no other result than nil for "written". -/
structure PushOk (s : GSt) : Prop where
  resLt : ∀ i t r, (s.pc i).res = some (t, r) → t < s.frames.length
  retsLt : ∀ t r, (t, r) ∈ s.rets → t < s.frames.length
  slot : s.closing = false → ∀ t r, (frameOf s.frames t).push = true → (frameOf s.frames t).rst = false → s.slot t = some r → r = .ok
  send : s.closing = false → ∀ t r, (frameOf s.frames t).push = true → (frameOf s.frames t).rst = false → (t, r) ∈ s.toSend → r = .ok
  pc : s.closing = false → ∀ i t r, (frameOf s.frames t).push = true → (frameOf s.frames t).rst = false →
    (s.pc i).res = some (t, r) → r = .ok
  rets : s.closing = false → ∀ t r, (frameOf s.frames t).push = true → (frameOf s.frames t).rst = false → (t, r) ∈ s.rets → r = .ok

theorem zip_ok {l : List Nat} {left : List Bytes} {t : Nat} {r : SRes} (h : (t, r) ∈ l.zip (batchResults true left)) : r = .ok := by
  have := (List.of_mem_zip h).2
  simp only [batchResults, if_true, List.mem_map] at this
  obtain ⟨_, -, e⟩ := this
  exact e.symm

theorem serveDecide_push {f : SFrame} (hp : f.push = true) (hr : f.rst = false) (ex add : Bool) : serveDecide f ex add = none := by
  simp [serveDecide, hp, hr]

set_option maxHeartbeats 8000000 in
theorem PushOk.step {cap : Nat} {s s' : GSt} {a : GAct} (hI : GInv cap s) (h : PushOk s) (hs : gStep cap s a = some s') : PushOk s' := by
  obtain ⟨l1, l2, h1, h2, h3, h4⟩ := h
  have q1 : ∀ t r, s.slot t = some r → t < s.frames.length := by
    intro t r ht
    apply Classical.byContradiction
    intro hn
    have := hI.b.queued t (Nat.le_trans hI.a.deq (Nat.not_lt.1 hn))
    rw [this] at ht; cases ht
  have q2 : ∀ t r, (t, r) ∈ s.toSend → t < s.frames.length := fun t r ht => Nat.lt_of_lt_of_le (hI.b.sendLt _ ht) hI.a.deq
  have c1 := hI.g.ctx
  have c2 := hI.g.conn
  have q3 := hI.a.lt
  clear hI
  gstep_cases hs a
  all_goals constructor
  all_goals simp only []
  all_goals try first
    | assumption
    | grind [setAt, TPc.res, TPc.tk, frameOf_append, zip_ok, serveDecide_push, GSt.frame]

theorem PushOk.reach {cap : Nat} {acts : List GAct} {s : GSt} (h : gRun cap acts = some s) : PushOk s := by
  refine (runActs_inv (P := fun s => GInv cap s ∧ PushOk s) ?_ ⟨GInv.init cap, ?_⟩ h).2
  · intro s a s' ⟨hI, hp⟩ hs
    exact ⟨hI.step hs, hp.step hI hs⟩
  · constructor <;> simp [GSt.init, TPc.res]

/-- On a connection that nobody closes, from the moment it can be found: a push whose write has returned was written. -/
theorem push_written {cap : Nat} {acts : List G0Act} {s : G0St} (h : g0Run cap acts = some s) (hc : s.g.closing = false) {t : Nat}
    {r : SRes} {f : SFrame} (hr : (t, r) ∈ s.g.rets) (hf : s.g.frames[t]? = some f) (hp : f.push = true) (hrst : f.rst = false) :
    r = .ok ∧ ∃ as, gRun cap as = some s.g := by
  rcases (G0Inv.reach h).cases' with ⟨h1, -⟩ | ⟨-, as, h1⟩ | ⟨-, h1, -⟩
  · rw [h1.rets] at hr; cases hr
  · have e : frameOf s.g.frames t = f := by simp [frameOf, List.getD, hf]
    exact ⟨(PushOk.reach h1).rets hc t r (by rw [e]; exact hp) (by rw [e]; exact hrst) hr, as, h1⟩
  · rw [h1.rets] at hr; cases hr

/-- The context of a connection is cancelled only when it is closed, whether it is served or not. -/
theorem ctx_closing {cap : Nat} {acts : List G0Act} {s : G0St} (h : g0Run cap acts = some s) : s.g.ctx = true → s.g.closing = true := by
  refine runActs_inv (P := fun s : G0St => s.g.ctx = true → s.g.closing = true) ?_ (by simp [G0St.init, GSt.init]) h
  intro s a s' hp hs
  cases a with
  | start =>
    simp only [g0Step] at hs
    split at hs
    · cases hs
    · simp only [Option.some.injEq] at hs; subst hs; exact hp
  | g a =>
    simp only [g0Step] at hs
    split at hs
    · cases hs
    · split at hs
      · next g hg =>
        simp only [Option.some.injEq] at hs; subst hs
        gstep_cases hg a
        all_goals simp only []
        all_goals grind
      · cases hs

/-! ## The goroutines -/

/-- Goroutine `j` of the connection works on ticket `t`. -/
def Works (g : GSt) (j t : Nat) : Prop :=
  (g.pc j).tk = some t ∨ (∃ r, (g.pc j).res = some (t, r)) ∨ g.pc j = .inflUndo ∨ g.pc j = .stuck

/-- What is known of the write of a goroutine that was started for a connection. -/
def GorOk (g : GSt) (f : SFrame) : GorPc → Prop
  | .new => True
  | .called j => g.pc j = .enq f ∨ (g.pc j = .idle ∧ g.closing = true)
  | .queued j t => g.frames[t]? = some f ∧ (Works g j t ∨ (∃ r, (t, r) ∈ g.rets) ∨ g.closing = true)
  | .done none => g.closing = true
  | .done (some t) => g.frames[t]? = some f ∧ ((∃ r, (t, r) ∈ g.rets) ∨ g.closing = true)

theorem frames_mono {cap : Nat} {g g' : GSt} {a : GAct} (hs : gStep cap g a = some g') {t : Nat} {f : SFrame} (h : g.frames[t]? = some f) :
    g'.frames[t]? = some f := by
  gstep_cases hs a
  all_goals try simp only []
  all_goals try assumption
  all_goals rw [List.getElem?_append_left (List.getElem?_eq_some_iff.1 h).1]; exact h

theorem closing_mono {cap : Nat} {g g' : GSt} {a : GAct} (hs : gStep cap g a = some g') (h : g.closing = true) : g'.closing = true := by
  gstep_cases hs a
  all_goals simp [h]

theorem rets_mono {cap : Nat} {g g' : GSt} {a : GAct} (hs : gStep cap g a = some g') {p : Nat × SRes} (h : p ∈ g.rets) : p ∈ g'.rets := by
  gstep_cases hs a
  all_goals try simp only []
  all_goals try assumption
  all_goals exact List.mem_append_left _ h

set_option maxHeartbeats 4000000 in
theorem Works.step {cap : Nat} {g g' : GSt} {a : GAct} (hc : g.ctx = true → g.closing = true) {j t : Nat} (h : Works g j t)
    (hs : gStep cap g a = some g') : Works g' j t ∨ (∃ r, (t, r) ∈ g'.rets) ∨ g'.closing = true := by
  unfold Works at *
  gstep_cases hs a
  all_goals try simp only []
  all_goals try first
    | exact .inl h
    | grind [setAt, TPc.tk, TPc.res]
  next i x t' rel hi y r hr =>
    by_cases hij : j = i
    · subst hij
      rw [hi] at h
      simp only [TPc.tk, TPc.res, Option.some.injEq, reduceCtorEq, exists_false, or_false] at h
      subst h
      exact .inl (.inr (.inl ⟨r, by rw [setAt_same]; rfl⟩))
    · rw [setAt_other _ _ hij]
      exact .inl h

set_option maxHeartbeats 4000000 in
theorem enq_stays {cap : Nat} {g g' : GSt} {a : GAct} (hc : g.ctx = true → g.closing = true) {j : Nat} {f : SFrame}
    (hs : gStep cap g a = some g') (hn : a ≠ .enq j) (hm : ∀ f', a ≠ .call j f')
    (h : g.pc j = .enq f ∨ (g.pc j = .idle ∧ g.closing = true)) : g'.pc j = .enq f ∨ (g'.pc j = .idle ∧ g'.closing = true) := by
  gstep_cases hs a
  all_goals try simp only []
  all_goals try first
    | exact h
    | grind [setAt]

theorem GorOk.step {cap : Nat} {g g' : GSt} {a : GAct} (hc : g.ctx = true → g.closing = true) {f : SFrame} {p : GorPc} (h : GorOk g f p)
    (hs : gStep cap g a = some g') (hn : ∀ j, p = .called j → a ≠ .enq j ∧ ∀ f', a ≠ .call j f') : GorOk g' f p := by
  match p, h with
  | .new, _ => trivial
  | .called j, h => exact enq_stays hc hs (hn j rfl).1 (hn j rfl).2 h
  | .queued j t, ⟨h1, h2⟩ =>
    refine ⟨frames_mono hs h1, ?_⟩
    rcases h2 with h2 | ⟨r, h2⟩ | h2
    · exact h2.step hc hs
    · exact .inr (.inl ⟨r, rets_mono hs h2⟩)
    · exact .inr (.inr (closing_mono hs h2))
  | .done none, h => exact closing_mono hs h
  | .done (some t), ⟨h1, h2⟩ =>
    exact ⟨frames_mono hs h1, h2.imp (fun ⟨r, h⟩ => ⟨r, rets_mono hs h⟩) (closing_mono hs)⟩

theorem GorOk.step0 {cap : Nat} {g g' : G0St} {a : G0Act} (hc : g.g.ctx = true → g.g.closing = true) {f : SFrame} {p : GorPc}
    (h : GorOk g.g f p) (hs : g0Step cap g a = some g') (hn : ∀ j, p = .called j → a ≠ .g (.enq j) ∧ ∀ f', a ≠ .g (.call j f')) :
    GorOk g'.g f p := by
  cases a with
  | start =>
    simp only [g0Step] at hs
    split at hs
    · cases hs
    · simp only [Option.some.injEq] at hs; subst hs
      match p, h with
      | .new, _ => trivial
      | .called j, h => exact h
      | .queued j t, h => exact h
      | .done none, h => exact h
      | .done (some t), h => exact h
  | g a =>
    simp only [g0Step] at hs
    split at hs
    · cases hs
    · split at hs
      · next g1 hg =>
        simp only [Option.some.injEq] at hs; subst hs
        refine h.step hc hg fun j hj => ⟨fun e => (hn j hj).1 (by rw [e]), fun f' e => (hn j hj).2 f' (by rw [e])⟩
      · cases hs

end Qrpc
