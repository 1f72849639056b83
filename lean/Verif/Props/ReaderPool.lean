import Verif.Model.ReaderPool
import Verif.Lemmas.Reader
/-! # Property C96: recycled read buffers do not mix connections -/
namespace Qrpc
open Spec

structure RpInv (conn0 : Nat → List Seg) (s : RpSt) : Prop where
  live : ∀ c o, s.rd c = some o → s.src o = some c ∧ o < s.n ∧ o ∉ s.pool ∧ s.made c = true ∧
    s.got c ++ (s.buf o ++ segBytes (s.conn c)) = segBytes (conn0 c)
  poolLt : ∀ o ∈ s.pool, o < s.n
  nodup : s.pool.Nodup
  new : ∀ c, s.made c = false → s.conn c = conn0 c ∧ s.got c = [] ∧ s.rd c = none
  pre : ∀ c, s.got c <+: segBytes (conn0 c)

theorem connRead_err_same {n : Nat} {c c' : List Seg} {e : ReadErr} (h : connRead n c = (.error e, c')) : c' = c := by
  cases c with
  | nil => simp [connRead] at h; exact h.2
  | cons x xs =>
    cases x with
    | err => simp [connRead] at h; exact h.2.symm
    | data d => simp only [connRead] at h; split at h <;> simp at h

theorem bufioRead_err_same {n : Nat} {s s' : Src} {e : ReadErr} (h : bufioRead n s = (.error e, s')) : s' = s := by
  unfold bufioRead at h
  split at h
  · split at h <;>
    · split at h
      · next hc =>
        simp only [Prod.mk.injEq] at h
        rw [← h.2, connRead_err_same hc]
      · simp at h
  · simp at h

theorem RpInv.init (conn0 : Nat → List Seg) : RpInv conn0 (RpSt.init conn0) :=
  ⟨by simp [RpSt.init], by simp [RpSt.init], by simp [RpSt.init], by simp [RpSt.init], by simp [RpSt.init]⟩

theorem RpInv.step {conn0 : Nat → List Seg} {s s' : RpSt} {a : RpAct} (h : RpInv conn0 s) (hs : rpStep s a = some s') :
    RpInv conn0 s' := by
  obtain ⟨h1, h2, h3, h4, h5⟩ := h
  cases a with
  | get c o =>
    simp only [rpStep] at hs
    split at hs
    · cases hs
    · next hm =>
      obtain ⟨e1, e2, e3⟩ := h4 c (by simpa using hm)
      cases o with
      | none =>
        simp only [Option.some.injEq] at hs
        subst hs
        constructor
        all_goals simp only []
        all_goals grind [setAt]
      | some o =>
        simp only at hs
        split at hs
        · next ho =>
          simp only [Option.some.injEq] at hs
          subst hs
          have := h2 o ho
          have hne : o ∉ s.pool.erase o := by rw [h3.mem_erase_iff]; simp
          have hsub : ∀ x, x ∈ s.pool.erase o → x ∈ s.pool := fun x hx => List.mem_of_mem_erase hx
          have hnd := h3.erase o
          constructor
          all_goals simp only []
          all_goals grind [setAt]
        · cases hs
  | read c n =>
    simp only [rpStep] at hs
    split at hs
    · cases hs
    · next o ho =>
      obtain ⟨k1, k2, k3, k4, k5⟩ := h1 c o ho
      simp only [k1] at hs
      split at hs
      · next b r hb =>
        simp only [Option.some.injEq] at hs
        subst hs
        obtain ⟨e1, -, -⟩ := bufioRead_ok hb
        simp only [srcBytes] at e1
        rw [e1] at k5
        have hp : s.got c ++ b <+: segBytes (conn0 c) := ⟨r.buf ++ segBytes r.conn, by rw [← k5]; simp⟩
        rw [← List.append_assoc] at k5
        constructor
        all_goals simp only []
        all_goals grind [setAt]
      · next e r hb =>
        simp only [Option.some.injEq] at hs
        subst hs
        have := bufioRead_err_same hb
        subst this
        constructor
        all_goals simp only []
        all_goals grind [setAt]
  | fin c =>
    simp only [rpStep] at hs
    split at hs
    · cases hs
    · next o ho =>
      simp only [Option.some.injEq] at hs
      subst hs
      obtain ⟨k1, k2, k3, k4, k5⟩ := h1 c o ho
      constructor
      all_goals simp only []
      all_goals grind [setAt]
  | drop o =>
    simp only [rpStep, Option.some.injEq] at hs
    subst hs
    have hsub : ∀ x, x ∈ s.pool.erase o → x ∈ s.pool := fun x hx => List.mem_of_mem_erase hx
    have hnd := h3.erase o
    constructor
    all_goals simp only []
    all_goals grind [setAt]

theorem RpInv.reach {conn0 : Nat → List Seg} {acts : List RpAct} {s : RpSt} (h : rpRun conn0 acts = some s) : RpInv conn0 s :=
  runActs_inv (fun _ _ _ h hs => RpInv.step h hs) (RpInv.init conn0) h

/-- **C96.** However connections come and go and share the pool of read buffers, the bytes a connection's reader takes are
    the bytes of that connection from the first on, in order and with none left out, and what it has not taken yet is still
    there for it (in its buffer or on the way); two readers in use never share a buffer, nor do a reader and the pool, and a
    read never meets a buffer that has no connection. -/
theorem C96 {conn0 : Nat → List Seg} {acts : List RpAct} {s : RpSt} (h : rpRun conn0 acts = some s) :
    (∀ c, s.got c <+: segBytes (conn0 c)) ∧
    (∀ c o, s.rd c = some o → s.got c ++ (s.buf o ++ segBytes (s.conn c)) = segBytes (conn0 c)) ∧
    (∀ c d o, s.rd c = some o → s.rd d = some o → c = d) ∧
    (∀ c o, s.rd c = some o → o ∉ s.pool) ∧
    (∀ c o n, s.rd c = some o → ∃ s', rpStep s (.read c n) = some s') := by
  have hi := RpInv.reach h
  refine ⟨hi.pre, fun c o hc => (hi.live c o hc).2.2.2.2, fun c d o hc hd => ?_, fun c o hc => (hi.live c o hc).2.2.1,
    fun c o n hc => ?_⟩
  · have := (hi.live c o hc).1
    rw [(hi.live d o hd).1] at this
    exact (Option.some.inj this).symm
  · simp only [rpStep, hc, (hi.live c o hc).1]
    split <;> exact ⟨_, rfl⟩

/-- The bytes of connection `c` left unread by a reader that is finalized are never seen by anyone: they are not in what another
    connection delivers. Here connection 0 leaves `[2, 3]` in the buffer, which connection 1 then uses. -/
def exPoolConn : Nat → List Seg
  | 0 => [.data [1, 2, 3]]
  | 1 => [.data [7, 8], .data [9]]
  | _ => []

def exPool : List RpAct := [.get 0 none, .read 0 0, .fin 0, .get 1 (some 0), .get 2 none, .read 1 0, .read 1 4, .read 1 4]

example : (rpRun exPoolConn exPool).map (fun s => (s.got 0, s.got 1, s.rd 1, s.rd 2)) = some ([1], [7, 8, 9], some 0, some 1) := by
  decide +kernel

example : ∃ s, rpRun exPoolConn exPool = some s ∧ s.got 1 <+: segBytes (exPoolConn 1) := by
  obtain ⟨s, hs⟩ := Option.isSome_iff_exists.1 (show (rpRun exPoolConn exPool).isSome = true by decide +kernel)
  exact ⟨s, hs, (C96 hs).1 1⟩

end Qrpc
