import Verif.Lemmas.RegistryA
import Verif.Lemmas.RegistryB
import Verif.Lemmas.RegistryC
import Verif.Lemmas.RegistryD
import Verif.Lemmas.RegistryK
import Verif.Lemmas.RegistryL
import Verif.Lemmas.RegistryX
import Verif.Props.Client
/-! # Properties of registering, kicking and closing server connections: C32-C37, C59 -/
namespace Qrpc

/-- Everything known about reachable states. -/
structure QInv (s : QSt) : Prop where
  a : QInvA s
  b : QInvB s
  d : QInvD s
  c : QInvC s
  l : s.late = false → QInvL s
  k : QInvK s
  x : QInvX s

theorem QInv.init : QInv QSt.init := by
  refine ⟨?_, ?_, ?_, ?_, fun _ => ?_, ?_, ?_⟩ <;> constructor <;>
    simp [QSt.init, QPc.own, QPc.preKick, QPc.past, QPc.cu, QPc.waits, QPc.target, QPc.postActive, QPc.preDel, QPc.postDel,
      QPc.setter, QPc.hold, QPc.loading, QPc.delId, QPc.kickFlag, QPc.owes, QPc.notifies]

theorem QInv.step {s s' : QSt} {a : QAct} (h : QInv s) (hs : qStep s a = some s') : QInv s' :=
  ⟨h.a.step hs, h.b.step h.a hs, h.d.step h.a hs, h.c.step h.a h.d hs, QInvL.step h.a h.d h.c h.l hs, h.k.step h.c hs,
   h.x.step h.a hs⟩

theorem QInv.reach {acts s} (h : qRun acts = some s) : QInv s :=
  runActs_inv (fun _ _ _ h hs => h.step hs) .init h

/-- `n` steps of goroutine `i`. -/
def steps (i n : Nat) : List QAct := List.replicate n (.go i)

/-- Two connections, three callbacks (one of them registered while the connection is being closed, one afterwards), two
closers of connection 0. -/
def exClose : List QAct :=
  [.newConn, .newConn, .notify 5 0, .go 5, .notify 5 1, .go 5, .close 0 0, .close 1 0] ++ steps 0 2 ++ steps 1 1 ++
  [.notify 5 0, .go 5] ++ steps 0 6 ++ steps 1 2 ++ [.notify 5 0, .go 5, .go 5] ++ steps 0 2

example : (qRun exClose).map (fun s => (s.called, s.nextT, s.log)) =
    some ([0, 3, 2], 4, [.closeRet 0, .closeRet 0]) := by rfl

/-! ## C32 Close notifications run exactly once -/

/-- **C32, at most once.** In every execution no callback is called twice, only registered callbacks are called, and none
before its connection is closed. -/
theorem C32_at_most_once {acts : List QAct} {s : QSt} (hrun : qRun acts = some s) :
    s.called.Nodup ∧ ∀ t ∈ s.called, t < s.nextT ∧ s.closed (s.regOf t) = true :=
  ⟨(QInv.reach hrun).b.nd_c, (QInv.reach hrun).b.called_lt⟩

/-- **C32, exactly once.** In every execution, a callback of a closed connection has been called exactly once, or some goroutine
that is closing the connection (or registering the callback) is about to call it. -/
theorem C32_exactly_once {acts : List QAct} {s : QSt} (hrun : qRun acts = some s) {t : Nat} (ht : t < s.nextT)
    (hc : s.closed (s.regOf t) = true) : s.called.count t = 1 ∨ ∃ i, t ∈ (s.pc i).hold := by
  have h := (QInv.reach hrun).b
  rcases h.all t ht with h1 | h1 | h1
  · rw [h.cl_nil _ hc] at h1; cases h1
  · exact .inl (by rw [h.nd_c.count, if_pos h1])
  · exact .inr ⟨_, h1⟩

/-- When every call of SetID, Close and NotifyWhenClose has returned, exactly the callbacks of closed connections have been
called, each once. -/
theorem C32_quiescent {acts : List QAct} {s : QSt} (hrun : qRun acts = some s) (hq : ∀ i, s.pc i = .idle) {t : Nat}
    (ht : t < s.nextT) : s.called.count t = if s.closed (s.regOf t) then 1 else 0 := by
  split
  · next hc =>
    rcases C32_exactly_once hrun ht hc with h | ⟨i, hi⟩
    · exact h
    · rw [hq i] at hi; simp [QPc.hold] at hi
  · next hc =>
    refine List.count_eq_zero.mpr fun hm => hc ((C32_at_most_once hrun).2 t hm).2

/-- The hypotheses of the two theorems before: everybody is idle, connection 0 is closed, connection 1 is not; callback 1 belongs
to the latter. -/
example : (qRun exClose).map (fun s => ([s.pc 0, s.pc 1, s.pc 2], [s.closed 0, s.closed 1], (List.range s.nextT).map s.regOf,
    (List.range s.nextT).map (s.called.count ·))) =
    some ([.idle, .idle, .idle], [true, false], [0, 1, 0, 0], [1, 0, 1, 1]) := by rfl

/-- A goroutine that is about to call callbacks is never blocked. -/
theorem C32_progress {s : QSt} {i t : Nat} (h : t ∈ (s.pc i).hold) : ∃ s', qStep s (.go i) = some s' := by
  simp only [qStep]
  cases hp : s.pc i <;> rw [hp] at h <;> simp [QPc.hold] at h
  · exact ⟨_, rfl⟩
  · exact ⟨_, rfl⟩
  · rename_i v k l
    cases l with
    | nil => cases h
    | cons x l => exact ⟨_, rfl⟩

/-! ## C33 Teardown happens once -/

/-- Connection 0 is kicked by connection 1 while two goroutines close it. -/
def exKick : List QAct :=
  [.newConn, .newConn, .setID 0 0 7] ++ steps 0 3 ++ [.setID 0 1 7] ++ steps 0 3 ++ [.close 1 0, .close 2 0] ++ steps 1 1 ++
  steps 2 1 ++ steps 0 9 ++ steps 1 2 ++ steps 2 2 ++ steps 0 2

example : (qRun exKick).map (fun s => (s.log, s.kicks 0, s.chCloses 0, s.tbl 7)) =
    some ([.stored 0 7, .setRet 0 7 false 0, .displaced 1 0 7, .closeRet 0, .closeRet 0, .stored 1 7, .setRet 1 7 true 1],
      1, 1, some 1) := by rfl

/-- **C33.** In every execution every connection is untracked at most once, OnKickCB runs at most once for it, and its channel
is closed at most once. -/
theorem C33_once {acts : List QAct} {s : QSt} (hrun : qRun acts = some s) (v : Nat) :
    s.untracks v ≤ 1 ∧ s.kicks v ≤ 1 ∧ s.chCloses v ≤ 1 := by
  have h := (QInv.reach hrun).a
  refine ⟨?_, h.kicks_le v, h.ch_le v⟩
  cases hu : s.untrack v with
  | true => exact Nat.le_of_eq (h.untr v hu)
  | false => have := (h.notun v hu).2.2.1; omega

/-- In every execution, when a Close call of `v` has returned, `v` has been untracked completely: it is not among the active
connections any more, its channel has been closed, and it is marked closed. -/
theorem C33_close_returns {acts : List QAct} {s : QSt} (hrun : qRun acts = some s) {v : Nat} (hr : .closeRet v ∈ s.log) :
    s.untracks v = 1 ∧ s.chCloses v = 1 ∧ s.active v = false ∧ s.deleted v = true ∧ s.closed v = true := by
  have h := QInv.reach hrun
  have h1 := h.a.ret v hr
  have hu : s.untrack v = true := by
    cases hu : s.untrack v with
    | true => rfl
    | false => have := (h.a.notun v hu).1; omega
  exact ⟨h.a.untr v hu, h1.1, h.d.act v h1.1, h.d.ch_del v h1.1, h1.2⟩

/-- No goroutine can hang in Close or SetID: it can go on, or it waits for one that untracks the same connection, and that one
can go on (its OnKickCB returning being one of its steps). -/
theorem C33_progress {acts : List QAct} {s : QSt} (hrun : qRun acts = some s) (i : Nat) (hi : s.pc i ≠ .idle) :
    (∃ s', qStep s (.go i) = some s') ∨
      ∃ v j, (s.pc i).waits = some v ∧ (s.pc j).own = some v ∧ ∃ s', qStep s (.go j) = some s' := by
  have h := (QInv.reach hrun).a
  cases hw : (s.pc i).waits with
  | some v =>
    have hu := h.wait i v hw
    rcases h.un_own v hu with h1 | h1
    · refine .inl ?_
      cases hp : s.pc i <;> rw [hp] at hw <;> simp [QPc.waits] at hw
      subst hw
      simp [qStep, hp, h1]
    · refine .inr ⟨v, _, rfl, h1, ?_⟩
      simp only [qStep]
      cases hp : s.pc (s.owner v) <;> rw [hp] at h1 <;> simp [QPc.own] at h1
      · exact ⟨_, rfl⟩
      · rename_i o
        cases o <;> exact ⟨_, rfl⟩
      · rename_i k
        cases k <;> exact ⟨_, rfl⟩
      · exact ⟨_, rfl⟩
      · exact ⟨_, rfl⟩
  | none =>
    refine .inl ?_
    simp only [qStep]
    cases hp : s.pc i <;> rw [hp] at hw hi <;> simp [QPc.waits] at hw hi <;> try exact ⟨_, rfl⟩
    · simp only []; split <;> exact ⟨_, rfl⟩
    · simp only []; split <;> exact ⟨_, rfl⟩
    · simp only []; split
      · exact ⟨_, rfl⟩
      · split <;> exact ⟨_, rfl⟩
    · simp only []; split <;> exact ⟨_, rfl⟩
    · simp only []; split <;> exact ⟨_, rfl⟩
    · simp only []; split <;> exact ⟨_, rfl⟩
    · simp only []; split
      · split <;> exact ⟨_, rfl⟩
      · exact ⟨_, rfl⟩
    · simp only []; split
      · exact ⟨_, rfl⟩
      · split <;> exact ⟨_, rfl⟩

/-- Both cases: in the middle of this run goroutine 0 can go on, and goroutine 1 waits for connection 0, which goroutine 0 is
taking down. -/
example : (qRun ([.newConn, .newConn, .setID 0 0 7] ++ steps 0 3 ++ [.setID 0 1 7] ++ steps 0 3 ++ [.close 1 0, .go 1])).map
    (fun s => ((s.pc 0).own, (s.pc 1).waits, (qStep s (.go 0)).isSome, (qStep s (.go 1)).isSome)) =
    some (some 0, some 0, true, false) := by rfl

/-! ## C34 One connection per id -/

/-- **C34, displaced connections.** In every execution, when `SetID(id)` of connection `c` has returned, every connection it
displaced has been untracked and closed. -/
theorem C34_displaced_closed {acts : List QAct} {s : QSt} (hrun : qRun acts = some s) {c id x v id' : Nat} {k : Bool}
    (hr : .setRet c id k x ∈ s.log) (hd : .displaced c v id' ∈ s.log) :
    s.chCloses v = 1 ∧ s.closed v = true ∧ s.active v = false := by
  have h := QInv.reach hrun
  rcases h.c.disp c v id' hd with h1 | h1
  · exact ⟨h1.1, h1.2, h.d.act v h1.1⟩
  · exfalso
    have hst := (h.c.ret_st c id k x hr).1
    obtain ⟨id, h2⟩ := QPc.setter_of_kicking h1
    have := (h.c.set_own _ _ _ h2).2.2
    simp [hst] at this

/-- **C34, kick.** In every execution, `SetID` reports `kick = true` iff it displaced a connection. -/
theorem C34_kick_iff {acts : List QAct} {s : QSt} (hrun : qRun acts = some s) {c id x : Nat} {k : Bool}
    (hr : .setRet c id k x ∈ s.log) : k = true ↔ ∃ v, .displaced c v id ∈ s.log := by
  have h := QInv.reach hrun
  rw [h.c.flagR c id k x hr, List.any_eq_true]
  constructor
  · rintro ⟨e, he, h1⟩
    cases e <;> simp [dispBy] at h1
    subst h1
    rename_i v id'
    have h2 := (h.c.disp_id _ _ _ he).1
    have h3 := (h.c.ret_st _ _ _ _ hr).2
    rw [h2] at h3
    cases h3
    exact ⟨v, he⟩
  · rintro ⟨v, hv⟩
    exact ⟨_, hv, by simp [dispBy]⟩

/-- **C34, the table.** In every execution, a connection is found under no other id than its own. -/
theorem C34_own_id {acts : List QAct} {s : QSt} (hrun : qRun acts = some s) {id v : Nat} (h : s.tbl id = some v) :
    s.idOf v = some id := ((QInv.reach hrun).c.tbl_id id v h).1

/-- **C34** in executions where no connection is closed before or during its SetID: two registered connections with the same
id that have not been untracked are the same connection. Missing: see `C34_refuted_two_live`. -/
theorem C34_one_live_partial {acts : List QAct} {s : QSt} (hrun : qRun acts = some s) (hl : s.late = false) {v w id : Nat}
    (hv : s.stored v = true) (hw : s.stored w = true) (hiv : s.idOf v = some id) (hiw : s.idOf w = some id)
    (hdv : s.untrack v = false) (hdw : s.untrack w = false) : v = w := by
  have h := QInv.reach hrun
  have h1 := (h.l hl).tbl_of v id hv (h.a.notun v hdv).2.2.2.1 hiv
  have h2 := (h.l hl).tbl_of w id hw (h.a.notun w hdw).2.2.2.1 hiw
  rw [h1] at h2
  exact Option.some.inj h2

/-- Its hypotheses, for v = w = 1; connection 0 was stored under the same id and has been untracked. -/
example : (qRun exKick).map (fun s => (s.late, [s.stored 0, s.stored 1], [s.idOf 0, s.idOf 1], [s.untrack 0, s.untrack 1])) =
    some (false, [true, true], [some 7, some 7], [true, false]) := by rfl

/-- Connection 0 sets its id to 7 but has not entered the table yet; connection 1 registers under 7; connection 0 is closed,
which removes the entry of connection 1. -/
def exLostEntry : List QAct :=
  [.newConn, .newConn, .newConn, .setID 0 0 7] ++ steps 0 1 ++ [.setID 1 1 7] ++ steps 1 3 ++ [.close 2 0] ++ steps 2 8

/-- **C34 is false of the code**: after `exLostEntry`, connection 2 registers under 7 as well; `SetID` reported no kick to either,
both are open and none of them is going to be closed. -/
theorem C34_refuted_two_live :
    (qRun (exLostEntry ++ [.setID 1 2 7] ++ steps 1 3)).map (fun s => (s.log, s.untrack 1, s.untrack 2, s.pc 1, s.pc 2)) =
      some ([.stored 1 7, .setRet 1 7 false 0, .closeRet 0, .stored 2 7, .setRet 2 7 false 0], false, false, .idle, .idle) := by
  rfl

/-! ## C35 SetID terminates -/

/-- Connection 0 is closed and registers afterwards; connection 1 wants the same id. -/
def exLoop : List QAct :=
  [.newConn, .newConn, .close 0 0] ++ steps 0 8 ++ [.setID 0 0 7] ++ steps 0 3 ++ [.setID 1 1 7] ++ steps 1 1

/-- The goroutine of `SetID(id)` on `c` found the closed connection `v`. -/
structure Looping (i c id v : Nat) (s : QSt) : Prop where
  ent : s.tbl id = some v
  ne : v ≠ c
  un : s.untrack v = true
  ch : s.chCloses v = 1
  cl : s.closed v = true
  pc : (∃ k, s.pc i = .bind c id k) ∨ s.pc i = .utCas v (.kick c id) ∨ s.pc i = .utWait v (.kick c id) ∨
    s.pc i = .cuLock v (.kick c id) ∨ s.pc i = .addKick c id

theorem Looping.go {i c id v : Nat} {s : QSt} (h : Looping i c id v s) :
    ∃ s', qStep s (.go i) = some s' ∧ Looping i c id v s' := by
  obtain ⟨h1, h2, h3, h4, h5, hp⟩ := h
  rcases hp with ⟨k, hp⟩ | hp | hp | hp | hp
  · refine ⟨_, by simp only [qStep, hp, h1, if_neg h2]; rfl, ?_⟩
    exact ⟨h1, h2, h3, h4, h5, .inr (.inl (by simp [setAt]))⟩
  · refine ⟨_, by simp only [qStep, hp, if_pos h3]; rfl, ?_⟩
    exact ⟨h1, h2, h3, h4, h5, .inr (.inr (.inl (by simp [setAt])))⟩
  · refine ⟨_, by simp only [qStep, hp, if_neg (show ¬ s.chCloses v = 0 by omega)]; rfl, ?_⟩
    exact ⟨h1, h2, h3, h4, h5, .inr (.inr (.inr (.inl (by simp [setAt]))))⟩
  · refine ⟨_, by simp only [qStep, hp, if_pos h5]; rfl, ?_⟩
    exact ⟨h1, h2, h3, h4, h5, .inr (.inr (.inr (.inr (by simp [setAt]))))⟩
  · refine ⟨_, by simp only [qStep, hp]; rfl, ?_⟩
    exact ⟨h1, h2, h3, h4, h5, .inl ⟨true, by simp [setAt]⟩⟩

/-- **C35 is false of the code**: a `SetID` that finds a closed connection in the table goes round its loop forever, with no
other goroutine running: after any number of steps it has not returned. -/
theorem C35_refuted_loop {i c id v : Nat} {s : QSt} (h : Looping i c id v s) (n : Nat) :
    ∃ s', runActs qStep s (steps i n) = some s' ∧ s'.pc i ≠ .idle := by
  suffices ∃ s', runActs qStep s (steps i n) = some s' ∧ Looping i c id v s' by
    obtain ⟨s', h1, h2⟩ := this
    refine ⟨s', h1, ?_⟩
    rcases h2.pc with ⟨k, hp⟩ | hp | hp | hp | hp <;> simp [hp]
  induction n generalizing s with
  | zero => exact ⟨s, rfl, h⟩
  | succ n ih =>
    obtain ⟨s1, h1, h2⟩ := h.go
    obtain ⟨s', h3, h4⟩ := ih h2
    exact ⟨s', by simp only [steps, List.replicate_succ, runActs, h1]; exact h3, h4⟩

/-- Such a state is reached by closing a connection before its `SetID`. -/
theorem C35_refuted : ∃ s, qRun exLoop = some s ∧ Looping 1 1 7 0 s := by
  refine ⟨_, rfl, ⟨rfl, by decide, rfl, rfl, rfl, .inl ⟨false, rfl⟩⟩⟩

/-- **C35** in executions where no connection is closed before or during its SetID: the connections displaced by one `SetID`
are distinct, so that it goes round its loop at most once for every connection that exists. (Every step of the loop can be
taken, or waits for a goroutine that can go on: `C33_progress`.) -/
theorem C35_partial {acts : List QAct} {s : QSt} (hrun : qRun acts = some s) (hl : s.late = false) (c : Nat) :
    (s.log.filterMap (dispOf c)).Nodup ∧ (s.log.filterMap (dispOf c)).length ≤ s.n := by
  have h := QInv.reach hrun
  refine ⟨(h.l hl).disp_nd c, ?_⟩
  have := ((h.l hl).disp_nd c).length_le_of_subset (l₂ := List.range s.n) (by
    intro v hv
    obtain ⟨e, he, h1⟩ := List.mem_filterMap.mp hv
    cases e <;> simp [dispOf] at h1
    exact List.mem_range.mpr (h1.2 ▸ (h.c.disp_id _ _ _ he).2))
  simpa using this

example : (qRun exKick).map (fun s => (s.late, s.log.filterMap (dispOf 1))) = some (false, [0]) := by rfl

/-! ## C36 A live registered connection stays reachable by its id -/

/-- **C36 is false of the code**, first: `SetID` on a connection that was closed before makes it reachable forever. -/
theorem C36_refuted_closed :
    (qRun ([.newConn, .close 0 0] ++ steps 0 8 ++ [.setID 0 0 7] ++ steps 0 3)).map
      (fun s => (s.tbl 7, s.closed 0, s.log, s.pc 0)) = some (some 0, true, [.closeRet 0, .stored 0 7, .setRet 0 7 false 0], .idle) := by
  rfl

/-- **C36 is false of the code**, second: closing a connection that is inside `SetID` makes another one unreachable. -/
theorem C36_refuted_unreachable :
    (qRun exLostEntry).map (fun s => (s.tbl 7, s.log, s.untrack 1, s.closed 1)) =
      some (none, [.stored 1 7, .setRet 1 7 false 0, .closeRet 0], false, false) := by rfl

/-- **C36** in executions where no connection is closed before or during its SetID: after `SetID(id)` of `c` returned, `c` is
found under `id` as long as it is not being closed (by `Close` or by being displaced). -/
theorem C36_reachable_partial {acts : List QAct} {s : QSt} (hrun : qRun acts = some s) (hl : s.late = false) {c id x : Nat}
    {k : Bool} (hr : .setRet c id k x ∈ s.log) (hu : s.untrack c = false) : s.tbl id = some c := by
  have h := QInv.reach hrun
  have h1 := h.c.ret_st c id k x hr
  exact (h.l hl).tbl_of c id h1.1 (h.a.notun c hu).2.2.2.1 h1.2

/-- And closed connections are never found. -/
theorem C36_not_closed_partial {acts : List QAct} {s : QSt} (hrun : qRun acts = some s) (hl : s.late = false) {v id : Nat}
    (ht : s.tbl id = some v) : s.closed v = false := by
  have h := QInv.reach hrun
  cases hc : s.closed v with
  | false => rfl
  | true =>
    have h1 := h.d.ch_del v (h.a.cl_ch v hc)
    simp [(h.l hl).tbl_del id v ht] at h1

/-- The hypotheses of the two theorems before: after a kick, connection 1 has id 7 and has not been untracked. -/
example : (qRun exKick).map (fun s => (s.late, s.tbl 7, s.untrack 1, s.log.getLast?)) =
    some (false, some 1, false, some (.setRet 1 7 true 1)) := by rfl

/-- In every execution - even with connections closed at any moment - an entry of the table is removed only by a goroutine
that is closing a connection with that id. -/
theorem C36_removed_by {s s' : QSt} {a : QAct} {id c : Nat} (hs : qStep s a = some s') (h : s.tbl id = some c)
    (h' : s'.tbl id ≠ some c) : ∃ i v k, a = .go i ∧ s.pc i = .utDel v k (some id) := by
  qstep_cases hs a
  all_goals first
    | exact absurd h h'
    | (simp only [setAt] at h'; grind)

/-- A step that removes an entry: goroutine 0 takes connection 0 down. -/
example : (qRun ([.newConn, .newConn, .setID 0 0 7] ++ steps 0 3 ++ [.close 0 0] ++ steps 0 2)).bind
    (fun s => (qStep s (.go 0)).map fun s' => (s.tbl 7, s'.tbl 7, s.pc 0)) = some (some 0, none, .utDel 0 .close (some 7)) := by rfl

/-! ## C37 Kick order -/

/-- Connection 0 is stored; connection 1 displaces it and returns; only then connection 0 loads kickOrder. -/
def exOrder : List QAct :=
  [.newConn, .newConn, .setID 0 0 7] ++ steps 0 2 ++ [.setID 1 1 7] ++ steps 1 14 ++ steps 0 1

/-- **C37 is false of the code**: both get the same number. -/
theorem C37_refuted :
    (qRun exOrder).map (·.log) =
      some [.stored 0 7, .displaced 1 0 7, .stored 1 7, .setRet 1 7 true 1, .setRet 0 7 false 1] := by rfl

/-- The displaced connection can even get a greater one, when another connection is kicked meanwhile. -/
theorem C37_refuted_greater :
    (qRun ([.newConn, .newConn, .setID 0 0 7] ++ steps 0 2 ++ [.setID 1 1 7] ++ steps 1 14 ++ [.bump] ++ steps 0 1)).map (·.log) =
      some [.stored 0 7, .displaced 1 0 7, .stored 1 7, .setRet 1 7 true 1, .setRet 0 7 false 2] := by rfl

/-- **C37** for connections whose `SetID` returned before they were displaced: in every execution, if `SetID` of `a` has
returned number `x` when `SetID` of `c` finds `a` (or any other connection), then `SetID` of `c` returns a greater number. -/
theorem C37_partial {acts more : List QAct} {s s' : QSt} (hrun : qRun acts = some s) (hmore : runActs qStep s more = some s')
    {a c id ida idc x y v : Nat} {ka kc : Bool} (ha : .setRet a ida ka x ∈ s.log)
    (hd : .displaced c v id ∈ s'.log) (hnew : .displaced c v id ∉ s.log) (hc : .setRet c idc kc y ∈ s'.log) : x < y := by
  have h0 := QInv.reach hrun
  have hx := (h0.k.ret _ _ _ _ ha).2
  have key : ∀ u, QInv u ∧ s.ko ≤ u.ko ∧ (.displaced c v id ∈ u.log → s.ko + 1 ≤ u.floor c) →
      ∀ b u', qStep u b = some u' → QInv u' ∧ s.ko ≤ u'.ko ∧ (.displaced c v id ∈ u'.log → s.ko + 1 ≤ u'.floor c) := by
    rintro u ⟨hi, h1, h2⟩ b u' hs
    refine ⟨hi.step hs, ?_⟩
    clear hi
    qstep_cases hs b
    all_goals first
      | exact ⟨h1, h2⟩
      | grind [setAt]
  have := runActs_inv (P := fun u => QInv u ∧ s.ko ≤ u.ko ∧ (.displaced c v id ∈ u.log → s.ko + 1 ≤ u.floor c))
    (fun u b u' h hs => key u h b u' hs) ⟨h0, Nat.le_refl _, fun h => absurd h hnew⟩ hmore
  obtain ⟨hi, _, h2⟩ := this
  have := (hi.k.ret _ _ _ _ hc).1
  have := h2 hd
  omega

example : (qRun ([.newConn, .newConn, .setID 0 0 7] ++ steps 0 3 ++ [.setID 1 1 7] ++ steps 1 14)).map (·.log) =
    some [.stored 0 7, .setRet 0 7 false 0, .displaced 1 0 7, .stored 1 7, .setRet 1 7 true 1] := by rfl

/-! ## C59 Closing a connection cancels its context -/

/-- **C59.** In every execution, when all calls have returned, the context of every closed connection is cancelled. More
precisely: it is cancelled, or the goroutine that closes it does it next. -/
theorem C59_cancelled {acts : List QAct} {s : QSt} (hrun : qRun acts = some s) {v : Nat} (hc : s.closed v = true) :
    s.cancelled v = true ∨ ∃ i, (s.pc i).cancels = some v := by
  rcases (QInv.reach hrun).x.canc v hc with h | h
  · exact .inl h
  · exact .inr ⟨_, h⟩

/-- In every execution the context is cancelled before the first callback of `closeUntracked` runs. -/
theorem C59_before_callbacks {acts : List QAct} {s : QSt} (hrun : qRun acts = some s) {i v : Nat}
    (h : (s.pc i).notifies = some v) : s.cancelled v = true := (QInv.reach hrun).x.noti i v h

theorem C59_quiescent {acts : List QAct} {s : QSt} (hrun : qRun acts = some s) (hq : ∀ i, s.pc i = .idle) (v : Nat) :
    s.cancelled v = s.closed v := by
  cases hc : s.closed v with
  | true =>
    rcases C59_cancelled hrun hc with h | ⟨i, h⟩
    · exact h
    · rw [hq i] at h; simp [QPc.cancels] at h
  | false =>
    cases h : s.cancelled v with
    | false => rfl
    | true => simp [(QInv.reach hrun).x.ncanc v h] at hc

/-- The hypotheses: somewhere in this run the callbacks are about to be called; at its end everybody is idle. -/
example : (qRun ([.newConn, .newConn, .close 0 0] ++ steps 0 7)).map (fun s => ((s.pc 0).notifies, s.cancelled 0)) = some (some 0, true) ∧
    (qRun exKick).map (fun s => ([s.pc 0, s.pc 1, s.pc 2], [s.cancelled 0, s.cancelled 1], [s.closed 0, s.closed 1])) =
      some ([.idle, .idle, .idle], [true, false], [true, false]) := ⟨by rfl, by rfl⟩

/-- **C59 is false of the return of Close**: with two concurrent closers, one `Close` returns while the context is not
cancelled yet. -/
theorem C59_refuted_return :
    (qRun ([.newConn, .close 0 0] ++ steps 0 6 ++ [.close 1 0] ++ steps 1 3)).map (fun s => (s.log, s.cancelled 0)) =
      some ([.closeRet 0], false) := by rfl

end Qrpc
