import Verif.Props.Registry
/-! # Property C128: OnKickCB is called for a displaced connection that is still open

`OnKickCB` (server.go:505-509) is given the writer of the displaced connection, e.g. to tell the client why it is being
disconnected. The system is that of `Model/Registry.lean`. -/
namespace Qrpc

def QK.isKick : QK → Bool
  | .close => false
  | .kick _ _ => true

/-- A call of `OnKickCB` is made by a kick. -/
def QPc.kickPc : QPc → Bool
  | .utKick _ k => k.isKick
  | _ => true

theorem kickPc_step {s s' : QSt} {a : QAct} (h : ∀ i, (s.pc i).kickPc = true) (hs : qStep s a = some s') :
    ∀ i, (s'.pc i).kickPc = true := by
  qstep_cases hs a
  all_goals grind [setAt, QPc.kickPc, QK.isKick]

/-- **C128, the moment.** Whenever a goroutine calls `OnKickCB` for a connection `v`, it does so within a SetID that displaces `v`:
`v` can no longer be found, neither by its id nor by walking over the connections, but it is not closed and its context not
cancelled; nobody else is closing it, and all that want to are waiting; the callback was not called before; and the connection that
displaces `v` is not registered yet. -/
theorem C128 {acts : List QAct} {s : QSt} (hrun : qRun acts = some s) {i v : Nat} {k : QK} (hpc : s.pc i = .utKick v k) :
    ∃ c id, k = .kick c id ∧ s.idOf c = some id ∧ s.stored c = false ∧ s.deleted v = true ∧ s.active v = false ∧
      s.closed v = false ∧ s.cancelled v = false ∧ s.kicks v = 0 ∧
      (∀ j, (s.pc j).own = some v → j = i) ∧ (∀ j, (s.pc j).past ≠ some v) := by
  have hI := QInv.reach hrun
  have hk : ∀ i, (s.pc i).kickPc = true :=
    runActs_inv (P := fun s => ∀ i, (s.pc i).kickPc = true) (fun _ _ _ h hs => kickPc_step h hs) (by simp [QSt.init, QPc.kickPc]) hrun
  have h0 := hk i
  rw [hpc] at h0
  cases k with
  | close => simp [QPc.kickPc, QK.isKick] at h0
  | kick c id =>
    have hown : (s.pc i).own = some v := by rw [hpc]; rfl
    have hch := (hI.a.own_un i v hown).2
    have hcl : s.closed v = false := by
      cases h : s.closed v with
      | false => rfl
      | true => have := hI.a.cl_ch v h; omega
    have hset := hI.c.set_own i c id (by rw [hpc]; rfl)
    refine ⟨c, id, rfl, hset.2.1, hset.2.2, hI.d.post_del i v (by rw [hpc]; rfl), hI.d.act' i v (by rw [hpc]; rfl), hcl, ?_, ?_, ?_, ?_⟩
    · cases h : s.cancelled v with
      | false => rfl
      | true => have := hI.x.ncanc v h; rw [hcl] at this; cases this
    · exact hI.a.pre i v (by rw [hpc]; rfl)
    · intro j hj
      rw [← hI.a.own_owner j v hj, hI.a.own_owner i v hown]
    · intro j hj
      have := hI.a.past_ch j v hj
      omega

/-- The goroutine is on its way to the call of `OnKickCB` for `v`. -/
def QPc.toKick (v : Nat) : QPc → Bool
  | .utGetId w k | .utDel w k _ | .utActive w k | .utKick w k => w == v && k.isKick
  | _ => false

theorem QPc.own_of_toKick {p : QPc} {v : Nat} (h : p.toKick v = true) : p.own = some v := by
  cases p <;> simp_all [QPc.toKick, QPc.own]

/-- `v` is untracked by a kick: `OnKickCB` has been called or `i` will call it. -/
structure KickWins (v i : Nat) (s : QSt) : Prop where
  un : s.untrack v = true
  tell : s.kicks v = 1 ∨ (s.kicks v = 0 ∧ s.chCloses v = 0 ∧ (s.pc i).toKick v = true)

theorem KickWins.step {v i : Nat} {s s' : QSt} {a : QAct} (hA : QInvA s) (hA' : QInvA s') (h : KickWins v i s)
    (hs : qStep s a = some s') : KickWins v i s' := by
  have a1 := hA.own_owner
  have a2 := hA'.kicks_le v
  have a3 := hA.own_un
  have a4 : ∀ j, (s.pc j).own = some v → (s.pc i).toKick v = true → j = i := fun j h1 h2 => by
    rw [← a1 j v h1, a1 i v (QPc.own_of_toKick h2)]
  clear hA hA' a1
  obtain ⟨h1, h2⟩ := h
  qstep_cases hs a
  all_goals constructor
  all_goals try simp only [] at a2 ⊢
  all_goals try first
    | assumption
    | grind [setAt, QPc.toKick, QPc.own, QK.isKick]

/-- **C128, who is told.** If the connection is untracked by the SetID that displaces it - that is, no Close got there first - then
`OnKickCB` is called for it, before its channel of untracking is closed, hence before the connection is closed and before the
SetID or any Close of it returns. -/
theorem C128_told {acts more : List QAct} {s s' : QSt} (hrun : qRun acts = some s) {i v c id : Nat}
    (hpc : s.pc i = .utCas v (.kick c id)) (hun : s.untrack v = false) (hm : runActs qStep s (.go i :: more) = some s') :
    (s'.chCloses v = 1 → s'.kicks v = 1) ∧ (s'.closed v = true → s'.kicks v = 1) := by
  have hI := QInv.reach hrun
  rw [runActs] at hm
  obtain ⟨s1, h1⟩ : ∃ s1, qStep s (.go i) = some s1 := by
    cases h : qStep s (.go i) with
    | none => rw [h] at hm; simp at hm
    | some s1 => exact ⟨s1, rfl⟩
  rw [h1] at hm
  have hrun1 : qRun (acts ++ [.go i]) = some s1 := by
    unfold qRun at hrun ⊢; rw [runActs_append, hrun]; simp [runActs, h1]
  have hw1 : KickWins v i s1 := by
    have hn := hI.a.notun v hun
    simp only [qStep, hpc, hun, Bool.false_eq_true, if_false, Option.some.injEq] at h1
    subst h1
    exact ⟨by simp [setAt], .inr ⟨hn.2.1, hn.1, by simp [setAt, QPc.toKick, QK.isKick]⟩⟩
  have key := runActs_inv (P := fun s => (∃ acts, qRun acts = some s) ∧ KickWins v i s) (by
    rintro s a s' ⟨⟨as, h⟩, hw⟩ hs
    have h' : qRun (as ++ [a]) = some s' := by
      unfold qRun at h ⊢; rw [runActs_append, h]; simp [runActs, hs]
    exact ⟨⟨_, h'⟩, hw.step (QInv.reach h).a (QInv.reach h').a hs⟩) ⟨⟨_, hrun1⟩, hw1⟩ hm
  obtain ⟨⟨as, h2⟩, h3⟩ := key
  have hc : s'.chCloses v = 1 → s'.kicks v = 1 := by
    intro h
    rcases h3.tell with h4 | ⟨-, h4, -⟩
    · exact h4
    · omega
  exact ⟨hc, fun h => hc ((QInv.reach h2).a.cl_ch v h)⟩

/-- `v` is untracked by a Close. -/
structure CloseWins (v i : Nat) (s : QSt) : Prop where
  un : s.untrack v = true
  quiet : s.kicks v = 0 ∧ ∀ j, (s.pc j).toKick v = false

theorem CloseWins.step {v i : Nat} {s s' : QSt} {a : QAct} (h : CloseWins v i s) (hs : qStep s a = some s')
    (hk : ∀ i, (s.pc i).kickPc = true) : CloseWins v i s' := by
  obtain ⟨h1, h2, h3⟩ := h
  qstep_cases hs a
  all_goals constructor
  all_goals try simp only []
  all_goals try first
    | assumption
    | grind [setAt, QPc.toKick, QPc.kickPc, QK.isKick]

/-- **C128, who is not told.** If a Close untracks the connection, `OnKickCB` is never called for it, also if it is displaced later. -/
theorem C128_not_told {acts more : List QAct} {s s' : QSt} (hrun : qRun acts = some s) {i v : Nat}
    (hpc : s.pc i = .utCas v .close) (hun : s.untrack v = false) (hm : runActs qStep s (.go i :: more) = some s') : s'.kicks v = 0 := by
  have hI := QInv.reach hrun
  have hk0 : ∀ i, (s.pc i).kickPc = true :=
    runActs_inv (P := fun s => ∀ i, (s.pc i).kickPc = true) (fun _ _ _ h hs => kickPc_step h hs) (by simp [QSt.init, QPc.kickPc]) hrun
  rw [runActs] at hm
  obtain ⟨s1, h1⟩ : ∃ s1, qStep s (.go i) = some s1 := by
    cases h : qStep s (.go i) with
    | none => rw [h] at hm; simp at hm
    | some s1 => exact ⟨s1, rfl⟩
  rw [h1] at hm
  have hk1 := kickPc_step hk0 h1
  have hw1 : CloseWins v i s1 := by
    have hn := hI.a.notun v hun
    have hno : ∀ j, (s.pc j).toKick v = false := by
      intro j
      cases h : (s.pc j).toKick v with
      | false => rfl
      | true =>
        have := (hI.a.own_un j v (QPc.own_of_toKick h)).1
        rw [hun] at this; cases this
    simp only [qStep, hpc, hun, Bool.false_eq_true, if_false, Option.some.injEq] at h1
    subst h1
    refine ⟨by simp [setAt], hn.2.1, fun j => ?_⟩
    by_cases hj : j = i
    · simp [setAt, hj, QPc.toKick, QK.isKick]
    · simp [setAt, hj, hno]
  exact (runActs_inv (P := fun s => (∀ i, (s.pc i).kickPc = true) ∧ CloseWins v i s)
    (fun _ _ _ h hs => ⟨kickPc_step h.1 hs, h.2.step hs h.1⟩) ⟨hk1, hw1⟩ hm).2.quiet.1

/-- Connection 1 takes the id of connection 0; while it calls the callback, a Close of 0 waits. -/
def exKickCB : List QAct :=
  [.newConn, .newConn, .setID 0 0 7] ++ steps 0 3 ++ [.setID 1 1 7] ++ steps 1 2

example : (qRun exKickCB).map (fun s => (s.pc 1, s.untrack 0)) = some (.utCas 0 (.kick 1 7), false) := by rfl

example : (qRun (exKickCB ++ steps 1 4 ++ [.close 2 0, .go 2])).map (fun s => (s.pc 1, s.pc 2, s.closed 0, s.tbl 7)) =
    some (.utKick 0 (.kick 1 7), .utWait 0 .close, false, none) := by rfl

example : (qRun (exKickCB ++ [.close 2 0])).map (fun s => (s.pc 2, s.untrack 0)) = some (.utCas 0 .close, false) := by rfl

end Qrpc
