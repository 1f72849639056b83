import Verif.Model.CloseRate
import Verif.Props.Registry
/-! # Property C102: the limit on closing connections -/
namespace Qrpc

/-- A limiter keeps to `bound`: at no time have more calls returned than that. -/
def Spec.keeps (lim : Limiter) (bound : Nat → Nat) : Prop := ∀ ts now, lim ts now = true → ts.length < bound now

/-- The connections taken out of the server's tables so far. -/
def Spec.gone (q : QSt) : List Nat := (List.range q.n).filter fun v => q.untrack v

/-- The connections found registered under an id that another connection sets. -/
def Spec.displacedConns (q : QSt) : List Nat := q.log.filterMap fun e => match e with
  | .displaced _ v _ => some v
  | _ => none

/-- Why a goroutine is about to take a connection out of the tables. -/
def QPc.closes (v : Nat) : QPc → Bool
  | .utCas w .close => w == v
  | _ => false

def QPc.kicksOut (v : Nat) : QPc → Bool
  | .utCas w (.kick _ _) => w == v
  | _ => false

/-- `G`: the connections for whose `Close` the limiter was passed. -/
structure CrInv (G : List Nat) (q : QSt) : Prop where
  pend : ∀ i v, (q.pc i).closes v = true → v ∈ G
  kick : ∀ i v, (q.pc i).kicksOut v = true → v ∈ Spec.displacedConns q
  why : ∀ v, q.untrack v = true → v ∈ G ∨ v ∈ Spec.displacedConns q

def QAct.closing : QAct → List Nat
  | .close _ v => [v]
  | _ => []

theorem CrInv.step {G : List Nat} {s s' : QSt} {a : QAct} (h : CrInv G s) (hs : qStep s a = some s') : CrInv (G ++ a.closing) s' := by
  obtain ⟨h1, h2, h3⟩ := h
  qstep_cases hs a
  all_goals
    constructor <;>
    (intros; simp only [Spec.displacedConns, List.filterMap_append, List.filterMap_cons, List.filterMap_nil, List.mem_append] at *;
     grind [setAt, QPc.closes, QPc.kicksOut, QAct.closing, cases QK])

structure LmInv (lim : Limiter) (s : LmSt) : Prop where
  cr : CrInv (s.grants.map (·.2)) s.q
  q : QInv s.q
  sorted : ∀ g ∈ s.grants, g.1 ≤ s.now
  bound : ∀ bound, Spec.keeps lim bound → (∀ a b, a ≤ b → bound a ≤ bound b) → s.grants.length ≤ bound s.now

theorem LmInv.step {lim : Limiter} {s s' : LmSt} {a : LmAct} (h : LmInv lim s) (hs : lmStep lim s a = some s') : LmInv lim s' := by
  cases a with
  | tick d =>
    simp only [lmStep, Option.some.injEq] at hs
    subst hs
    exact ⟨h.cr, h.q, fun g hg => Nat.le_trans (h.sorted g hg) (Nat.le_add_right _ _),
      fun b hb hm => Nat.le_trans (h.bound b hb hm) (hm _ _ (Nat.le_add_right _ _))⟩
  | reg a =>
    have other : ∀ q, qStep s.q a = some q → a.closing = [] → LmInv lim { s with q := q } := by
      intro q hq ha
      have := h.cr.step hq
      rw [ha, List.append_nil] at this
      exact ⟨this, h.q.step hq, h.sorted, h.bound⟩
    cases a with
    | close i v =>
      simp only [lmStep] at hs
      split at hs
      · rename_i hl
        cases hq : qStep s.q (.close i v) with
        | none => rw [hq] at hs; cases hs
        | some q =>
          rw [hq] at hs
          simp only [Option.map_some, Option.some.injEq] at hs
          subst hs
          refine ⟨?_, h.q.step hq, ?_, ?_⟩
          · have := h.cr.step hq
            simpa [QAct.closing] using this
          · intro g hg
            rcases List.mem_append.1 hg with hg | hg
            · exact h.sorted g hg
            · cases List.mem_singleton.1 hg; exact Nat.le_refl _
          · intro b hb hm
            have := hb _ _ hl
            simp only [List.length_map] at this
            simp only [List.length_append, List.length_singleton]
            omega
      · cases hs
    | _ =>
      simp only [lmStep] at hs
      rw [Option.map_eq_some_iff] at hs
      obtain ⟨q, hq, rfl⟩ := hs
      exact other q hq rfl

theorem LmInv.reach {lim acts s} (h : lmRun lim acts = some s) : LmInv lim s :=
  runActs_inv (fun _ _ _ h hs => h.step hs) ⟨⟨by simp [LmSt.init, QSt.init, QPc.closes], by simp [LmSt.init, QSt.init, QPc.kicksOut],
    by simp [LmSt.init, QSt.init]⟩, .init, by simp [LmSt.init], by simp [LmSt.init]⟩ h

/-- **C102 (partial).** Whatever the limiter, at every moment of every execution each connection that was taken out of the server's
tables had its own passage through the limiter, or was displaced by the SetID of another one; so if no connection is displaced there are
never more connections closed than the limiter has let through. -/
theorem C102_partial {lim : Limiter} {acts : List LmAct} {s : LmSt} (hrun : lmRun lim acts = some s) :
    (∀ v, s.q.untrack v = true → (∃ t, (t, v) ∈ s.grants) ∨ ∃ c id, .displaced c v id ∈ s.q.log) ∧
    ((∀ e ∈ s.q.log, ∀ c v id, e ≠ .displaced c v id) → ∀ bound, Spec.keeps lim bound → (∀ a b, a ≤ b → bound a ≤ bound b) →
      (Spec.gone s.q).length ≤ bound s.now) := by
  have h := LmInv.reach hrun
  have hd : ∀ v, v ∈ Spec.displacedConns s.q → ∃ c id, .displaced c v id ∈ s.q.log := by
    intro v hv
    simp only [Spec.displacedConns, List.mem_filterMap] at hv
    obtain ⟨e, he, hv⟩ := hv
    split at hv
    · cases hv; exact ⟨_, _, he⟩
    · cases hv
  refine ⟨fun v hv => ?_, fun hn bound hb hm => ?_⟩
  · rcases h.cr.why v hv with hv | hv
    · obtain ⟨g, hg, rfl⟩ := List.mem_map.1 hv
      exact .inl ⟨g.1, hg⟩
    · exact .inr (hd v hv)
  · have hsub : Spec.gone s.q ⊆ s.grants.map (·.2) := by
      intro v hv
      have hv := (List.mem_filter.1 hv).2
      rcases h.cr.why v hv with hv | hv
      · exact hv
      · obtain ⟨c, id, he⟩ := hd v hv
        exact absurd rfl (hn _ he c v id)
    have hnd : (Spec.gone s.q).Nodup := List.nodup_range.filter _
    have := hnd.length_le_of_subset hsub
    have := h.bound bound hb hm
    simp only [List.length_map] at *
    omega

/-- A connection comes and sets the id that connection `k` has. -/
def kickOutActs (k : Nat) : List LmAct :=
  .reg .newConn :: .reg (.setID 0 (k + 1) 7) :: (List.replicate 14 (.go 0)).map .reg

/-- Connection `k` is the last one and the only live one, registered under id 7; no goroutine is busy with it. -/
structure LastOne (k : Nat) (q : QSt) : Prop where
  n : q.n = k + 1
  pc : q.pc 0 = .idle
  tbl : q.tbl 7 = some k
  id : q.idOf k = some 7
  live : q.closed k = false ∧ q.untrack k = false
  fresh : ∀ j, k < j → q.idOf j = none ∧ q.closed j = false ∧ q.untrack j = false
  notify : ∀ j, q.notify j = []

theorem kickOutActs_run {lim : Limiter} {s : LmSt} {k : Nat} (h : LastOne k s.q) :
    ∃ q, runActs (lmStep lim) s (kickOutActs k) = some { s with q := q } ∧ LastOne (k + 1) q ∧
      (∀ j, q.closed j = true ↔ s.q.closed j = true ∨ j = k) ∧ (∀ j, q.untrack j = true ↔ s.q.untrack j = true ∨ j = k) := by
  obtain ⟨h1, h2, h3, h4, ⟨h5, h6⟩, h7, h8⟩ := h
  have h9 := (h7 (k + 1) (by omega)).1
  simp [kickOutActs, List.replicate, runActs, lmStep, qStep, setAt, h1, h2, h3, h4, h5, h6, h8, h9]
  refine ⟨⟨rfl, by simp [setAt], by simp [setAt], by simp [setAt], ?_, ?_, ?_⟩, fun j => Or.comm, fun j => Or.comm⟩
  · have := h7 (k + 1) (by omega)
    simp [setAt, this]
  · intro j hj
    have := h7 j (by omega)
    simp [setAt, this, show j ≠ k + 1 by omega, show j ≠ k by omega]
  · intro j
    simp [setAt, h8]

/-- **C102 is false of the code**: connections closed by being displaced do not pass the limiter. Whatever the limiter, even one that lets
nothing through, for every number there is an execution, all at one moment, in which that many connections are closed. -/
theorem C102_refuted (lim : Limiter) (n : Nat) :
    ∃ acts s, lmRun lim acts = some s ∧ s.now = 0 ∧ s.grants = [] ∧ (∀ j < n, s.q.closed j = true) ∧
      n ≤ (Spec.gone s.q).length := by
  have key : ∀ n, ∃ acts s, lmRun lim acts = some s ∧ s.now = 0 ∧ s.grants = [] ∧ LastOne n s.q ∧
      (∀ j < n, s.q.closed j = true ∧ s.q.untrack j = true) := by
    intro n
    induction n with
    | zero =>
      refine ⟨.reg .newConn :: .reg (.setID 0 0 7) :: (List.replicate 3 (.go 0)).map .reg, _, rfl, rfl, rfl, ?_, fun j hj => by omega⟩
      constructor <;> simp [LmSt.init, QSt.init, setAt]
      intro j hj; omega
    | succ n ih =>
      obtain ⟨acts, s, hr, hn, hg, hL, hc⟩ := ih
      obtain ⟨q, h1, h2, h3, h4⟩ := kickOutActs_run (lim := lim) hL
      refine ⟨acts ++ kickOutActs n, { s with q := q }, ?_, hn, hg, h2, fun j hj => ?_⟩
      · rw [lmRun, runActs_append, show runActs (lmStep lim) LmSt.init acts = some s from hr]; exact h1
      · by_cases e : j = n
        · exact ⟨(h3 j).2 (.inr e), (h4 j).2 (.inr e)⟩
        · obtain ⟨a, b⟩ := hc j (by omega)
          exact ⟨(h3 j).2 (.inl a), (h4 j).2 (.inl b)⟩
  obtain ⟨acts, s, h1, h2, h3, h4, h5⟩ := key n
  refine ⟨acts, s, h1, h2, h3, fun j hj => (h5 j hj).1, ?_⟩
  have hsub : List.range n ⊆ Spec.gone s.q := by
    intro j hj
    have hj := List.mem_range.1 hj
    exact List.mem_filter.2 ⟨List.mem_range.2 (by rw [h4.n]; omega), (h5 j hj).2⟩
  have := List.nodup_range.length_le_of_subset hsub
  simpa using this

/-- **C102 is also false the other way**: closing one connection can take any number of passages through the limiter (`serve` closes
again when the connection was closed by a handler, and every `Close` call passes), so that with a limiter that lets `m` calls through
one connection can use up all of them. -/
theorem C102_refuted_waste (m : Nat) (hm : 0 < m) :
    ∃ acts s, lmRun (fun ts _ => decide (ts.length < m)) acts = some s ∧ Spec.gone s.q = [0] ∧ s.q.closed 0 = true ∧ s.q.n = 2 ∧
      (∀ i, s.q.pc i = .idle) ∧ s.grants.length = m ∧
      ∀ i v, lmStep (fun ts _ => decide (ts.length < m)) s (.reg (.close i v)) = none := by
  have key : ∀ k, k + 1 ≤ m → ∃ acts s, lmRun (fun ts _ => decide (ts.length < m)) acts = some s ∧ s.q.n = 2 ∧
      s.grants.length = k + 1 ∧ s.q.untrack 0 = true ∧ s.q.untrack 1 = false ∧ s.q.closed 0 = true ∧ s.q.chCloses 0 = 1 ∧
      ∀ i, s.q.pc i = .idle := by
    intro k
    induction k with
    | zero =>
      intro _
      refine ⟨.reg .newConn :: .reg .newConn :: .reg (.close 0 0) :: (List.replicate 8 (.go 0)).map .reg, ?_⟩
      simp [lmRun, LmSt.init, QSt.init, List.replicate, runActs, lmStep, qStep, setAt, hm]
      grind
    | succ k ih =>
      intro hk
      obtain ⟨acts, s, h1, h2, h3, h4, h5, h6, h7, h8⟩ := ih (by omega)
      refine ⟨acts ++ (.reg (.close 0 0) :: (List.replicate 3 (.go 0)).map .reg), ?_⟩
      rw [lmRun, runActs_append, show runActs (lmStep _) LmSt.init acts = some s from h1]
      simp [List.replicate, runActs, lmStep, qStep, setAt, h2, h3, h4, h5, h6, h7, h8, show k + 1 < m by omega]
      grind
  obtain ⟨acts, s, h1, h2, h3, h4, h5, h6, h7, h8⟩ := key (m - 1) (by omega)
  refine ⟨acts, s, h1, ?_, h6, h2, h8, by omega, fun i v => ?_⟩
  · simp [Spec.gone, h2, List.range_succ, h4, h5]
  · simp [lmStep, h3, show ¬ (m - 1 + 1 < m) by omega]

/-- Two connections closed under a limiter of one passage per unit of time. -/
example : (lmRun (fun ts now => decide (ts.length < now + 1)) ([.reg .newConn, .reg .newConn, .reg (.close 0 0), .tick 1,
    .reg (.close 1 1)] ++ (List.replicate 7 (.go 0)).map .reg ++ (List.replicate 7 (.go 1)).map .reg)).map
    (fun s => (Spec.gone s.q, s.grants, s.q.closed 0, s.q.closed 1)) = some ([0, 1], [(0, 0), (1, 1)], true, true) := by rfl

example : Spec.keeps (fun ts now => decide (ts.length < now + 1)) (fun now => now + 1) := by
  intro ts now h; simpa using h

end Qrpc
