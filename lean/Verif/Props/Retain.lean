import Verif.Props.Registry
/-!
# C142 A server keeps nothing of connections that have ended
-/
namespace Qrpc

namespace Spec

/-- Somebody has called Close of the connection, or a SetID has found it registered under its id and displaces it. -/
def Ended (acts : List QAct) (s : QSt) (v : Nat) : Prop := (∃ i, .close i v ∈ acts) ∨ ∃ c id, .displaced c v id ∈ s.log

end Spec
open Spec

def QPc.casing : QPc → Option Nat
  | .utCas v _ => some v
  | _ => none

/-- The goroutine has untracked this connection and has not yet marked it closed. -/
def QPc.tears : QPc → Option Nat
  | .utGetId v _ | .utDel v _ _ | .utActive v _ | .utKick v _ | .utCloseCh v _ | .cuLock v _ => some v
  | _ => none

structure QInvR (acts : List QAct) (s : QSt) : Prop where
  act : ∀ v, v < s.n → s.active v = false → s.untrack v = true
  tear : ∀ v, s.untrack v = true → s.closed v = true ∨ (s.pc (s.owner v)).tears = some v
  cas : ∀ i v, (s.pc i).casing = some v → Ended acts s v
  un : ∀ v, s.untrack v = true → Ended acts s v
  ended : ∀ i v, .close i v ∈ acts → s.untrack v = true ∨ (s.pc i).casing = some v

theorem Ended.mono {acts : List QAct} {s s' : QSt} {a : QAct} {v : Nat} (h : Ended acts s v) (hl : ∀ e ∈ s.log, e ∈ s'.log) :
    Ended (acts ++ [a]) s' v := by
  rcases h with ⟨i, h⟩ | ⟨c, id, h⟩
  · exact .inl ⟨i, List.mem_append_left _ h⟩
  · exact .inr ⟨c, id, hl _ h⟩

theorem qStep_log {s s' : QSt} {a : QAct} (hs : qStep s a = some s') : ∀ e ∈ s.log, e ∈ s'.log := by
  qstep_cases hs a
  all_goals grind

theorem QInvR.step {acts : List QAct} {s s' : QSt} {a : QAct} (hA : QInvA s) (hD : QInvD s) (h : QInvR acts s) (hs : qStep s a = some s') :
    QInvR (acts ++ [a]) s' := by
  have hm : ∀ v, Ended acts s v → Ended (acts ++ [a]) s' v := fun v h => Ended.mono h (qStep_log hs)
  have a1 := hA.own_un
  have a2 := hA.own_owner
  have d1 := hD.un_lt
  have d2 := hD.lt
  have d3 := hD.act_lt
  clear hA hD
  obtain ⟨h1, h2, h3, h4, h5⟩ := h
  have e1 : ∀ i v, a = .close i v → Ended (acts ++ [a]) s' v := fun i v h => .inl ⟨i, by simp [h]⟩
  have e2 : ∀ c v id, .displaced c v id ∈ s'.log → Ended (acts ++ [a]) s' v := fun c v id h => .inr ⟨c, id, h⟩
  qstep_cases hs a
  all_goals constructor
  all_goals try simp only [] at *
  all_goals try first
    | assumption
    | grind [setAt, QPc.casing, QPc.tears, QPc.own]

theorem QInvR.run {bs : List QAct} : ∀ {as : List QAct} {s s' : QSt}, QInv s → QInvR as s → runActs qStep s bs = some s' →
    QInvR (as ++ bs) s' := by
  induction bs with
  | nil => intro as s s' _ h hr; simp only [runActs, Option.some.injEq] at hr; subst hr; simpa using h
  | cons b bs ih =>
    intro as s s' hq h hr
    simp only [runActs] at hr
    split at hr
    · simp at hr
    · next s1 hs =>
      have := ih (hq.step hs) (QInvR.step hq.a hq.d h hs) hr
      simpa using this

theorem QInvR.reach {acts : List QAct} {s : QSt} (h : qRun acts = some s) : QInvR acts s := by
  have h0 : QInvR [] QSt.init := by constructor <;> simp [QSt.init, QPc.casing]
  simpa using QInvR.run .init h0 h

/-- **C142, tables and contexts.** In every execution, when all calls have returned: a connection that somebody has closed or displaced is
not in the table of connections, its context has been cancelled - and is no longer registered with that of the server -, and none of its
callbacks are kept; a connection that nobody has closed or displaced is in the table, and its context is as it was. -/
theorem C142_tables {acts : List QAct} {s : QSt} (hrun : qRun acts = some s) (hq : ∀ i, s.pc i = .idle) {v : Nat} (hv : v < s.n) :
    (Ended acts s v → s.active v = false ∧ s.closed v = true ∧ s.cancelled v = true ∧ s.notify v = []) ∧
    (¬ Ended acts s v → s.active v = true ∧ s.closed v = false ∧ s.cancelled v = false) := by
  have q := QInv.reach hrun
  have r := QInvR.reach hrun
  constructor
  · intro he
    have hu : s.untrack v = true := by
      rcases he with ⟨i, h⟩ | ⟨c, id, h⟩
      · rcases r.ended i v h with h | h
        · exact h
        · rw [hq i] at h; simp [QPc.casing] at h
      · rcases q.c.disp c v id h with h | h
        · cases hu : s.untrack v with
          | true => rfl
          | false => have := (q.a.notun v hu).1; omega
        · rw [hq _] at h; simp [QPc.kicking] at h
    have hc : s.closed v = true := by
      rcases r.tear v hu with h | h
      · exact h
      · rw [hq _] at h; simp [QPc.tears] at h
    exact ⟨q.d.act v (q.a.cl_ch v hc), hc, by rw [C59_quiescent hrun hq, hc], q.b.cl_nil v hc⟩
  · intro he
    have hu : s.untrack v = false := by
      cases hu : s.untrack v with
      | false => rfl
      | true => exact absurd (r.un v hu) he
    have hc := (q.a.notun v hu).2.2.2.2
    refine ⟨?_, hc, by rw [C59_quiescent hrun hq, hc]⟩
    cases ha : s.active v with
    | true => rfl
    | false => rw [r.act v hv ha] at hu; simp at hu

/-- **C142, ids, in part.** In every execution in which no connection is closed before or during its SetID: when all calls have returned,
an id leads only to a connection that nobody has closed or displaced. Without this it fails (`C142_refuted`). -/
theorem C142_ids_partial {acts : List QAct} {s : QSt} (hrun : qRun acts = some s) (hq : ∀ i, s.pc i = .idle) (hl : s.late = false)
    {id v : Nat} (ht : s.tbl id = some v) : ¬ Ended acts s v := by
  intro he
  have := (C142_tables hrun hq ((QInv.reach hrun).d.tbl_lt id v ht)).1 he
  rw [C36_not_closed_partial hrun hl ht] at this
  simp at this

/-- The life of the connection `n`, in goroutine 0: it is closed and then given the id `n`, as by a handler that is still running. -/
def ghost (n : Nat) : List QAct := [.newConn, .close 0 n] ++ steps 0 8 ++ [.setID 0 n n] ++ steps 0 3

def ghosts : Nat → List QAct
  | 0 => []
  | n + 1 => ghosts n ++ ghost n

structure Ghosts (n : Nat) (s : QSt) : Prop where
  num : s.n = n
  pc : ∀ i, s.pc i = .idle
  fresh : ∀ v, n ≤ v → s.untrack v = false ∧ s.chCloses v = 0 ∧ s.closed v = false ∧ s.notify v = [] ∧ s.idOf v = none ∧ s.tbl v = none
  old : ∀ v, v < n → s.closed v = true ∧ .closeRet v ∈ s.log ∧ s.tbl v = some v

theorem Ghosts.step {n : Nat} {s : QSt} (h : Ghosts n s) : ∃ s', runActs qStep s (ghost n) = some s' ∧ Ghosts (n + 1) s' := by
  obtain ⟨h1, h2, h3, h4⟩ := h
  obtain ⟨f1, f2, f3, f4, f5, f6⟩ := h3 n (Nat.le_refl n)
  refine ⟨_, by simp [ghost, steps, List.replicate, runActs, qStep, h1, h2, setAt, f1, f2, f3, f4, f5, f6]; rfl, ?_⟩
  constructor
  · simp
  · intro i; simp only [setAt]; by_cases hi : i = 0 <;> simp [hi, h2]
  · intro v hv; simp only [setAt]; have := h3 v (by omega); simp [show v ≠ n by omega, this]
  · intro v hv
    simp only [setAt]
    by_cases he : v = n
    · simp [he]
    · have := h4 v (by omega); simp [he, this]

/-- **C142 is false of the table of ids**: for every `n` there is an execution of a server in which `n` connections have come, all of them
have been closed, all calls have returned, and `n` ids still lead to them. -/
theorem C142_refuted (n : Nat) : ∃ acts s, qRun acts = some s ∧ (∀ i, s.pc i = .idle) ∧ s.n = n ∧
    ∀ v, v < n → s.closed v = true ∧ .closeRet v ∈ s.log ∧ s.tbl v = some v := by
  have : ∃ s, qRun (ghosts n) = some s ∧ Ghosts n s := by
    induction n with
    | zero => exact ⟨_, rfl, by constructor <;> simp [QSt.init]⟩
    | succ n ih =>
      obtain ⟨s, h1, h2⟩ := ih
      obtain ⟨s', h3, h4⟩ := h2.step
      exact ⟨s', by rw [qRun, ghosts, runActs_append, show runActs qStep QSt.init (ghosts n) = some s from h1]; exact h3, h4⟩
  obtain ⟨s, h1, h2⟩ := this
  exact ⟨_, s, h1, h2.pc, h2.num, h2.old⟩

/-- A connection that was closed, registered under `id`, which no other connection has or is about to get. -/
structure QKept (id v : Nat) (s : QSt) : Prop where
  tbl : s.tbl id = some v
  ch : s.chCloses v = 1
  only : ∀ w, s.idOf w = some id → w = v
  nobody : ∀ i c, s.pc i ≠ .setLock c id

theorem QKept.step {id v : Nat} {s s' : QSt} {a : QAct} (q : QInv s) (h : QKept id v s) (ha : ∀ i c, a ≠ .setID i c id)
    (hs : qStep s a = some s') : QKept id v s' := by
  have a1 := q.a.own_un
  have a2 := q.c.del_id
  have a3 := q.c.set_own
  have a4 := q.a.ch_le v
  have a5 : ∀ i w k, s.pc i ≠ .utDel w k (some id) := by
    intro i w k he
    have hw := h.only w (a2 i w id (by rw [he]; rfl))
    have := (a1 i w (by rw [he]; rfl)).2
    rw [hw, h.ch] at this
    simp at this
  clear q
  obtain ⟨h1, h2, h3, h4⟩ := h
  qstep_cases hs a
  all_goals constructor
  all_goals try simp only [] at *
  all_goals try first
    | assumption
    | grind [setAt, QPc.own, QPc.delId, QPc.setter]

/-- Such an entry stays: in every execution, when all calls have returned and `id` leads to a closed connection and belongs to no other one,
it leads there whatever happens later, as long as nobody calls SetID with this id (and who does never returns: `C35_refuted_loop`). -/
theorem C142_refuted_kept {acts more : List QAct} {s s' : QSt} (hrun : qRun acts = some s) (hq : ∀ i, s.pc i = .idle) {id v : Nat}
    (ht : s.tbl id = some v) (hc : s.closed v = true) (honly : ∀ w, s.idOf w = some id → w = v)
    (hm : ∀ i c, .setID i c id ∉ more) (hr : runActs qStep s more = some s') : s'.tbl id = some v ∧ s'.closed v = true := by
  have q := QInv.reach hrun
  have k : QKept id v s := ⟨ht, q.a.cl_ch v hc, honly, fun i c => by rw [hq i]; simp⟩
  clear hrun hq ht honly
  induction more generalizing s with
  | nil => simp only [runActs, Option.some.injEq] at hr; subst hr; exact ⟨k.tbl, hc⟩
  | cons a more ih =>
    simp only [runActs] at hr
    split at hr
    · simp at hr
    · next s1 hs =>
      have hc' : s1.closed v = true := by
        clear hr ih hm k q
        qstep_cases hs a
        all_goals grind [setAt]
      exact ih hc' (fun i c hmem => hm i c (List.mem_cons_of_mem _ hmem)) hr (q.step hs)
        (k.step q (fun i c he => hm i c (by simp [he])) hs)

/-- Two connections get ids, one displaces the other, a third is closed: the hypotheses of C142_tables and C142_ids_partial hold at the
end, when one connection is left; and those of C142_refuted_kept hold after two ghosts. -/
example : (qRun ([.newConn, .newConn, .newConn, .notify 0 0, .go 0, .setID 0 0 7] ++ steps 0 3 ++ [.setID 1 1 7] ++ steps 1 15 ++
      [.close 2 2] ++ steps 2 8)).map (fun s => (s.log, [s.pc 0, s.pc 1, s.pc 2], s.late)) =
      some ([.stored 0 7, .setRet 0 7 false 0, .displaced 1 0 7, .stored 1 7, .setRet 1 7 true 1, .closeRet 2], [.idle, .idle, .idle], false) ∧
    (qRun ([.newConn, .newConn, .newConn, .notify 0 0, .go 0, .setID 0 0 7] ++ steps 0 3 ++ [.setID 1 1 7] ++ steps 1 15 ++
      [.close 2 2] ++ steps 2 8)).map (fun s => ([s.active 0, s.active 1, s.active 2], [s.cancelled 0, s.cancelled 1, s.cancelled 2],
        s.tbl 7, s.called)) = some ([false, true, false], [true, false, true], some 1, [0]) ∧
    (qRun (ghosts 2)).map (fun s => ([s.tbl 0, s.tbl 1], [s.closed 0, s.closed 1], [s.idOf 0, s.idOf 1])) =
      some ([some 0, some 1], [true, true], [some 0, some 1]) := by decide +kernel

end Qrpc
