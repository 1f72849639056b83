import Verif.Model.MuxConc
import Verif.Props.Mux
import Verif.Lemmas.Mem
/-!
# C124 Registering and dispatching at the same time
-/
namespace Qrpc

namespace Spec
variable {ρ : Type}

/-- A goroutine's calls, one after the other: each begins, takes effect once, and ends with the outcome it had then. -/
inductive Phase (ρ : Type) where
  | out
  | called (op : MqOp ρ)
  | done (op : MqOp ρ) (res : MqRes)

inductive Calls : List (MqEv ρ) → Phase ρ → Prop
  | nil : Calls [] .out
  | inv {l : List (MqEv ρ)} {op : MqOp ρ} : Calls l .out → Calls (l ++ [.inv op]) (.called op)
  | eff {l : List (MqEv ρ)} {op : MqOp ρ} {res : MqRes} : Calls l (.called op) → Calls (l ++ [.eff op res]) (.done op res)
  | ret {l : List (MqEv ρ)} {op : MqOp ρ} {res : MqRes} : Calls l (.done op res) → Calls (l ++ [.ret op res]) .out

def eventsOf (g : Nat) (h : List (Nat × MqEv ρ)) : List (MqEv ρ) := (h.filter (·.1 == g)).map (·.2)

/-- The registrations among the calls that took effect, in the order in which they did. -/
def regsSoFar : List (Nat × MqEv ρ) → List (Reg ρ × HandleRes)
  | [] => []
  | (_, .eff (.handle q) (.reg o)) :: rest => (q, o) :: regsSoFar rest
  | _ :: rest => regsSoFar rest

/-- What a call should yield after these registrations, as if there were no other goroutine. -/
def outcome (regs : List (Reg ρ × HandleRes)) : MqOp ρ → MqRes
  | .handle q =>
    if q.handler = none then .reg .nilHandler
    else if q.cmd.toNat > 0xffffff then .reg .tooBig
    else if q.cmd.toNat < 65536 ∧ (latest q.cmd.toNat regs).isSome then .reg .dup
    else .reg .ok
  | .serve cmd r => match latest (cmd.toNat % 65536) regs with
    | some e => .ran (mwTrace r e)
    | none => .ran [.close]

/-- Every call that took effect had the outcome it has when the calls are made one after the other in that order. -/
def Sequential (h : List (Nat × MqEv ρ)) : Prop :=
  ∀ p g op res q, h = p ++ (g, .eff op res) :: q → res = outcome (regsSoFar p) op

end Spec
open Spec
variable {ρ : Type}

/-! ## Control -/

def MqPc.wr : MqPc ρ → Bool
  | .hMake .. | .hFind .. | .hPut .. | .hUnlock .. => true
  | _ => false

def MqPc.rd : MqPc ρ → Bool
  | .sFind .. | .sUnlock .. => true
  | _ => false

def MqPc.okAt (s : MqSt ρ) : MqPc ρ → Prop
  | .hLock q h | .hMake q h => q.handler = some h ∧ ¬ q.cmd > MaxCmd
  | .hFind q h => q.handler = some h ∧ ¬ q.cmd > MaxCmd ∧ s.nil = false
  | .hPut q h => q.handler = some h ∧ ¬ q.cmd > MaxCmd ∧ s.nil = false ∧ s.m q.cmd = none
  | _ => True

structure MqCtl (s : MqSt ρ) : Prop where
  w1 : ∀ g, s.w = some g ↔ (s.pc g).wr = true
  r1 : ∀ g, g ∈ s.rs ↔ (s.pc g).rd = true
  ex : s.w ≠ none → s.rs = []
  ok : ∀ g, (s.pc g).okAt s
  us : ∀ g, g ∈ s.us ∨ s.pc g = .idle

theorem MqCtl.init : MqCtl (MqSt.init : MqSt ρ) := by
  constructor <;> simp [MqSt.init, MqPc.wr, MqPc.rd, MqPc.okAt]

/-- A step of `g` that moves it from `p` to `p'`. -/
theorem MqCtl.move {s s' : MqSt ρ} {g : Nat} {p' : MqPc ρ} (h : MqCtl s) (hu : g ∈ s.us) (hpc : s'.pc = setAt s.pc g p') (hus : s'.us = s.us)
    (hw : ∀ g', s'.w = some g' ↔ (if g' = g then p'.wr = true else s.w = some g'))
    (hr : ∀ g', g' ∈ s'.rs ↔ (if g' = g then p'.rd = true else g' ∈ s.rs))
    (hex : s'.w ≠ none → s'.rs = []) (hok : p'.okAt s')
    (hoth : ∀ g', g' ≠ g → (s.pc g').okAt s → (s.pc g').okAt s') : MqCtl s' := by
  refine ⟨fun g' => ?_, fun g' => ?_, hex, fun g' => ?_, fun g' => ?_⟩
  · rw [hw, hpc]; by_cases e : g' = g
    · subst e; simp [setAt]
    · simp [setAt, e, h.w1]
  · rw [hr, hpc]; by_cases e : g' = g
    · subst e; simp [setAt]
    · simp [setAt, e, h.r1]
  · rw [hpc]; by_cases e : g' = g
    · subst e; simpa [setAt] using hok
    · simpa [setAt, e] using hoth g' e (h.ok g')
  · rw [hus]; by_cases e : g' = g
    · subst e; exact .inl hu
    · rcases h.us g' with h | h
      · exact .inl h
      · exact .inr (by rw [hpc]; simp [setAt, e, h])

theorem MqPc.okAt_of {s s' : MqSt ρ} {p : MqPc ρ} (hm : s'.m = s.m) (hn : s.nil = false → s'.nil = false) (h : p.okAt s) : p.okAt s' := by
  cases p <;> simp_all [MqPc.okAt]

theorem MqCtl.goStep {s s' : MqSt ρ} {g : Nat} (h : MqCtl s) (hs : mqGo s g = some s') : MqCtl s' := by
  have hw := h.w1; have hr := h.r1; have hex := h.ex; have hok := h.ok g; have hu := h.us g
  have hwg := hw g; have hrg := hr g
  unfold mqGo at hs
  cases hp : s.pc g with
  | idle => rw [hp] at hs; cases hs
  | hCheck q =>
    simp only [hp, MqPc.wr, MqPc.rd, reduceCtorEq, or_false] at hs hu hwg hrg hok
    split at hs
    · cases hs
      refine h.move hu rfl rfl ?_ ?_ hex trivial (fun _ _ => MqPc.okAt_of rfl id)
      all_goals intro g'; by_cases e : g' = g <;> simp_all [MqSt.note, MqSt.at, MqPc.wr, MqPc.rd]
    · rename_i hq
      split at hs <;> cases hs
      · refine h.move hu rfl rfl ?_ ?_ hex trivial (fun _ _ => MqPc.okAt_of rfl id)
        all_goals intro g'; by_cases e : g' = g <;> simp_all [MqSt.note, MqSt.at, MqPc.wr, MqPc.rd]
      · rename_i hc
        refine h.move hu rfl rfl ?_ ?_ hex ⟨hq, hc⟩ (fun _ _ => MqPc.okAt_of rfl id)
        all_goals intro g'; by_cases e : g' = g <;> simp_all [MqSt.at, MqPc.wr, MqPc.rd]
  | hLock q k =>
    simp only [hp, MqPc.wr, MqPc.rd, reduceCtorEq, or_false] at hs hu hwg hrg hok
    split at hs <;> cases hs
    rename_i hc
    refine h.move hu rfl rfl ?_ ?_ (fun _ => hc.2) hok (fun _ _ => MqPc.okAt_of rfl id)
    all_goals intro g'; by_cases e : g' = g <;> simp_all [MqSt.emit, MqSt.at, MqPc.wr, MqPc.rd]
    exact fun h => e h.symm
  | hMake q k =>
    simp only [hp, MqPc.wr, MqPc.rd, reduceCtorEq, or_false] at hs hu hwg hrg hok
    split at hs <;> cases hs
    · refine h.move hu rfl rfl ?_ ?_ hex ⟨hok.1, hok.2, rfl⟩ (fun _ _ => MqPc.okAt_of rfl (fun _ => rfl))
      all_goals intro g'; by_cases e : g' = g <;> simp_all [MqSt.emit, MqSt.at, MqPc.wr, MqPc.rd]
    · rename_i hn
      refine h.move hu rfl rfl ?_ ?_ hex ⟨hok.1, hok.2, by simpa [MqSt.emit, MqSt.at] using hn⟩ (fun _ _ => MqPc.okAt_of rfl id)
      all_goals intro g'; by_cases e : g' = g <;> simp_all [MqSt.emit, MqSt.at, MqPc.wr, MqPc.rd]
  | hFind q k =>
    simp only [hp, MqPc.wr, MqPc.rd, reduceCtorEq, or_false] at hs hu hwg hrg hok
    split at hs <;> cases hs
    · refine h.move hu rfl rfl ?_ ?_ hex trivial (fun _ _ => MqPc.okAt_of rfl id)
      all_goals intro g'; by_cases e : g' = g <;> simp_all [MqSt.emit, MqSt.note, MqSt.at, MqPc.wr, MqPc.rd]
    · rename_i hn
      refine h.move hu rfl rfl ?_ ?_ hex ⟨hok.1, hok.2.1, hok.2.2, by simpa [MqSt.emit, MqSt.at] using hn⟩ (fun _ _ => MqPc.okAt_of rfl id)
      all_goals intro g'; by_cases e : g' = g <;> simp_all [MqSt.emit, MqSt.at, MqPc.wr, MqPc.rd]
  | hPut q k =>
    simp only [hp, MqPc.wr, MqPc.rd, reduceCtorEq, or_false] at hs hu hwg hrg hok
    cases hs
    refine h.move hu rfl rfl ?_ ?_ hex trivial ?_
    · intro g'; by_cases e : g' = g <;> simp_all [MqSt.emit, MqSt.note, MqSt.at, MqPc.wr, MqPc.rd]
    · intro g'; by_cases e : g' = g <;> simp_all [MqSt.emit, MqSt.note, MqSt.at, MqPc.wr, MqPc.rd]
    · intro g' e ho
      have hw' := hw g'
      rw [hwg.2 trivial] at hw'
      cases hp' : s.pc g' <;> simp_all [MqPc.okAt, MqPc.wr, MqSt.emit, MqSt.note, MqSt.at]
      all_goals exact absurd hw'.symm e
  | hUnlock q o =>
    simp only [hp, MqPc.wr, MqPc.rd, reduceCtorEq, or_false] at hs hu hwg hrg hok
    cases hs
    refine h.move hu rfl rfl ?_ ?_ (fun hx => absurd rfl hx) trivial (fun _ _ => MqPc.okAt_of rfl id)
    all_goals intro g'; by_cases e : g' = g <;> simp_all [MqSt.emit, MqSt.at, MqPc.wr, MqPc.rd]
    all_goals grind
  | sLock cmd r =>
    simp only [hp, MqPc.wr, MqPc.rd, reduceCtorEq, or_false] at hs hu hwg hrg hok
    split at hs <;> cases hs
    rename_i hc
    refine h.move hu rfl rfl ?_ ?_ (fun hx => absurd hc hx) trivial (fun _ _ => MqPc.okAt_of rfl id)
    all_goals intro g'; by_cases e : g' = g <;> simp_all [MqSt.emit, MqSt.at, MqPc.wr, MqPc.rd]
  | sFind cmd r =>
    simp only [hp, MqPc.wr, MqPc.rd, reduceCtorEq, or_false] at hs hu hwg hrg hok
    cases hs
    refine h.move hu rfl rfl ?_ ?_ hex trivial (fun _ _ => MqPc.okAt_of rfl id)
    all_goals intro g'; by_cases e : g' = g <;> simp_all [MqSt.emit, MqSt.note, MqSt.at, MqPc.wr, MqPc.rd]
  | sUnlock cmd r e =>
    simp only [hp, MqPc.wr, MqPc.rd, reduceCtorEq, or_false] at hs hu hwg hrg hok
    cases hs
    refine h.move hu rfl rfl ?_ ?_ (fun hx => by have := hex hx; simp_all) trivial (fun _ _ => MqPc.okAt_of rfl id)
    all_goals intro g'; by_cases e : g' = g <;> simp_all [MqSt.emit, MqSt.at, MqPc.wr, MqPc.rd]
  | ret op res =>
    simp only [hp, MqPc.wr, MqPc.rd, reduceCtorEq, or_false] at hs hu hwg hrg hok
    cases hs
    refine h.move hu rfl rfl ?_ ?_ hex trivial (fun _ _ => MqPc.okAt_of rfl id)
    all_goals intro g'; by_cases e : g' = g <;> simp_all [MqSt.note, MqSt.at, MqPc.wr, MqPc.rd]

theorem MqCtl.step {s s' : MqSt ρ} {a : MqAct ρ} (h : MqCtl s) (hs : mqStep s a = some s') : MqCtl s' := by
  cases a with
  | go g => exact h.goStep hs
  | call g op =>
    have hw := h.w1 g; have hr := h.r1 g
    simp only [mqStep] at hs
    split at hs <;> try cases hs
    rename_i hp
    split at hs <;> cases hs
    rename_i hu
    simp only [hp, MqPc.wr, MqPc.rd] at hw hr
    cases op <;> refine h.move hu rfl rfl ?_ ?_ h.ex trivial (fun _ _ => MqPc.okAt_of rfl id)
    all_goals intro g'; by_cases e : g' = g <;> simp_all [MqSt.note, MqSt.at, MqPc.wr, MqPc.rd]
  | share g j =>
    simp only [mqStep] at hs
    split at hs <;> try cases hs
    split at hs <;> cases hs
    exact ⟨h.w1, h.r1, h.ex, fun g' => MqPc.okAt_of rfl id (h.ok g'), fun g' => (h.us g').imp (.tail _) id⟩

/-! ## Outcomes -/

def MqPc.phase : MqPc ρ → Phase ρ
  | .idle => .out
  | .hCheck q | .hLock q _ | .hMake q _ | .hFind q _ | .hPut q _ => .called (.handle q)
  | .hUnlock q o => .done (.handle q) (.reg o)
  | .sLock cmd r | .sFind cmd r => .called (.serve cmd r)
  | .sUnlock cmd r e => .done (.serve cmd r) (.ran (entryRuns r e))
  | .ret op res => .done op res

theorem regsSoFar_append (a b : List (Nat × MqEv ρ)) : regsSoFar (a ++ b) = regsSoFar a ++ regsSoFar b := by
  induction a with
  | nil => rfl
  | cons x a ih =>
    obtain ⟨g, e⟩ := x
    cases e with
    | inv op => simpa [regsSoFar] using ih
    | ret op res => simpa [regsSoFar] using ih
    | eff op res => cases op <;> cases res <;> simpa [regsSoFar] using ih

theorem latest_cons (low : Nat) (q : Reg ρ) (o : HandleRes) (l : List (Reg ρ × HandleRes)) :
    latest low ((q, o) :: l) = match latest low l with
      | some e => some e
      | none => latest low [(q, o)] := by
  simp only [latest]
  cases latest low l <;> rfl

theorem latest_snoc (low : Nat) (l : List (Reg ρ × HandleRes)) (q : Reg ρ) (o : HandleRes) :
    latest low (l ++ [(q, o)]) = match o, q.handler with
      | .ok, some h => if q.cmd.toNat % 65536 = low then some ⟨h, q.mws⟩ else latest low l
      | _, _ => latest low l := by
  induction l with
  | nil => cases o <;> cases hq : q.handler <;> simp [latest, hq]
  | cons x l ih =>
    obtain ⟨q', o'⟩ := x
    rw [List.cons_append, latest_cons, latest_cons low q' o' l, ih]
    cases o <;> cases hq : q.handler <;> simp only []
    by_cases he : q.cmd.toNat % 65536 = low <;> simp [he]

theorem Sequential.snoc {h : List (Nat × MqEv ρ)} {x : Nat × MqEv ρ} (hs : Sequential h)
    (hx : ∀ op res, x.2 = .eff op res → res = outcome (regsSoFar h) op) : Sequential (h ++ [x]) := by
  intro p g op res q e
  rcases List.eq_nil_or_concat q with rfl | ⟨q', y, rfl⟩
  · have := List.append_inj' e rfl
    cases this.2; rw [← this.1]; exact hx op res rfl
  · rw [List.concat_eq_append, ← List.cons_append, ← List.append_assoc] at e
    have := List.append_inj' e rfl
    exact hs p g op res q' this.1

theorem eventsOf_self (g : Nat) (h : List (Nat × MqEv ρ)) (e : MqEv ρ) : eventsOf g (h ++ [(g, e)]) = eventsOf g h ++ [e] := by
  simp [eventsOf]

theorem eventsOf_other {g g' : Nat} (h : List (Nat × MqEv ρ)) (e : MqEv ρ) (hn : g' ≠ g) : eventsOf g' (h ++ [(g, e)]) = eventsOf g' h := by
  have : (g == g') = false := by simpa using fun h => hn h.symm
  simp [eventsOf, this]

structure MqLin (s : MqSt ρ) : Prop where
  calls : ∀ g, Calls (eventsOf g s.hist) (s.pc g).phase
  seq : Sequential s.hist
  map : ∀ c : Cmd, s.m c.routing = latest (c.toNat % 65536) (regsSoFar s.hist)
  keys : ∀ c : Cmd, (s.m c).isSome = true → c.toNat < 65536

theorem MqLin.init : MqLin (MqSt.init : MqSt ρ) := by
  refine ⟨fun g => .nil, ?_, fun c => rfl, fun c h => ?_⟩
  · intro p g op res q e
    exact absurd e (by simp [MqSt.init])
  · simp [MqSt.init, muxEmpty] at h

/-- A step without an event. -/
theorem MqLin.quiet {s s' : MqSt ρ} {g : Nat} {p' : MqPc ρ} (h : MqLin s) (hpc : s'.pc = setAt s.pc g p') (hh : s'.hist = s.hist) (hm : s'.m = s.m)
    (hp : p'.phase = (s.pc g).phase) : MqLin s' := by
  refine ⟨fun g' => ?_, by rw [hh]; exact h.seq, by rw [hh, hm]; exact h.map, by rw [hm]; exact h.keys⟩
  rw [hh, hpc]; by_cases e : g' = g
  · subst e; simp only [setAt, if_true, hp]; exact h.calls g'
  · simp only [setAt, e, if_false]; exact h.calls g'

/-- A step with an event. -/
theorem MqLin.event {s s' : MqSt ρ} {g : Nat} {p' : MqPc ρ} {e : MqEv ρ} (h : MqLin s) (hpc : s'.pc = setAt s.pc g p') (hh : s'.hist = s.hist ++ [(g, e)])
    (hc : Calls (eventsOf g s.hist) (s.pc g).phase → Calls (eventsOf g s.hist ++ [e]) p'.phase)
    (he : ∀ op res, e = .eff op res → res = outcome (regsSoFar s.hist) op)
    (hm : ∀ c : Cmd, s'.m c.routing = latest (c.toNat % 65536) (regsSoFar (s.hist ++ [(g, e)])))
    (hk : ∀ c : Cmd, (s'.m c).isSome = true → c.toNat < 65536) : MqLin s' := by
  refine ⟨fun g' => ?_, by rw [hh]; exact Sequential.snoc h.seq he, by rw [hh]; exact hm, hk⟩
  rw [hh, hpc]; by_cases e' : g' = g
  · subst e'; simp only [setAt, if_true]; rw [eventsOf_self]; exact hc (h.calls g')
  · simp only [setAt, e', if_false]; rw [eventsOf_other _ _ e']; exact h.calls g'

theorem maxCmd_iff (c : Cmd) : c > MaxCmd ↔ c.toNat > 0xffffff := by
  show MaxCmd < c ↔ _
  rw [UInt32.lt_iff_toNat_lt]; rfl

theorem routing_small {c : Cmd} (h : c.toNat < 65536) : c.routing = c := by
  apply UInt32.toNat_inj.mp; rw [routing_toNat]; omega

theorem MqLin.dup_iff {s : MqSt ρ} (h : MqLin s) (c : Cmd) :
    (s.m c).isSome = true ↔ (c.toNat < 65536 ∧ (latest c.toNat (regsSoFar s.hist)).isSome = true) := by
  constructor
  · intro hc
    have hk := h.keys c hc
    refine ⟨hk, ?_⟩
    have := h.map c
    rw [routing_small hk, Nat.mod_eq_of_lt hk] at this
    rw [← this]; exact hc
  · intro ⟨hk, hl⟩
    have := h.map c
    rw [routing_small hk, Nat.mod_eq_of_lt hk] at this
    rw [this]; exact hl

theorem entryRuns_eq (r : ρ) (e : Option (HEntry ρ)) :
    entryRuns r e = match e with
      | some e => mwTrace r e
      | none => [.close] := by
  cases e with
  | none => rfl
  | some e => exact C40 r e

theorem MqLin.goStep {s s' : MqSt ρ} {g : Nat} (c : MqCtl s) (h : MqLin s) (hs : mqGo s g = some s') : MqLin s' := by
  have hok := c.ok g
  unfold mqGo at hs
  cases hp : s.pc g with
  | idle => rw [hp] at hs; cases hs
  | hCheck q =>
    simp only [hp] at hs
    split at hs
    · rename_i hq
      cases hs
      refine h.event (g := g) (e := .eff (.handle q) (.reg .nilHandler)) rfl rfl (fun hc => ?_) ?_ ?_ h.keys
      · rw [hp] at hc; exact .eff hc
      · intro op res he; cases he; simp [outcome, hq]
      · intro c; rw [regsSoFar_append]; simp only [regsSoFar]; rw [latest_snoc]; exact h.map c
    · rename_i k hq
      split at hs <;> cases hs
      · rename_i hbig
        refine h.event (g := g) (e := .eff (.handle q) (.reg .tooBig)) rfl rfl (fun hc => ?_) ?_ ?_ h.keys
        · rw [hp] at hc; exact .eff hc
        · intro op res he; cases he; simp only [outcome, hq, (maxCmd_iff _).1 hbig]; simp
        · intro c; rw [regsSoFar_append]; simp only [regsSoFar]; rw [latest_snoc]; exact h.map c
      · exact h.quiet (g := g) rfl rfl rfl (by rw [hp]; rfl)
  | hLock q k =>
    simp only [hp] at hs
    split at hs <;> cases hs
    exact h.quiet (g := g) rfl rfl rfl (by rw [hp]; rfl)
  | hMake q k =>
    simp only [hp] at hs
    split at hs <;> cases hs
    · exact h.quiet (g := g) rfl rfl rfl (by rw [hp]; rfl)
    · exact h.quiet (g := g) rfl rfl rfl (by rw [hp]; rfl)
  | hFind q k =>
    simp only [hp] at hs
    rw [hp] at hok
    simp only [MqPc.okAt] at hok
    have hbig : ¬ q.cmd.toNat > 0xffffff := fun hx => hok.2.1 ((maxCmd_iff _).2 hx)
    split at hs <;> cases hs
    · rename_i hd
      refine h.event (g := g) (e := .eff (.handle q) (.reg .dup)) rfl rfl (fun hc => ?_) ?_ ?_ h.keys
      · rw [hp] at hc; exact .eff hc
      · intro op res he; cases he
        simp only [outcome, hok.1, if_neg hbig, if_pos ((h.dup_iff q.cmd).1 hd)]; simp
      · intro c; rw [regsSoFar_append]; simp only [regsSoFar]; rw [latest_snoc]; exact h.map c
    · exact h.quiet (g := g) rfl rfl rfl (by rw [hp]; rfl)
  | hPut q k =>
    simp only [hp] at hs
    rw [hp] at hok
    simp only [MqPc.okAt] at hok
    have hbig : ¬ q.cmd.toNat > 0xffffff := fun hx => hok.2.1 ((maxCmd_iff _).2 hx)
    cases hs
    refine h.event (g := g) (e := .eff (.handle q) (.reg .ok)) rfl rfl (fun hc => ?_) ?_ ?_ ?_
    · rw [hp] at hc; exact .eff hc
    · intro op res he; cases he
      have hn : ¬ (q.cmd.toNat < 65536 ∧ (latest q.cmd.toNat (regsSoFar s.hist)).isSome = true) := by
        rw [← h.dup_iff q.cmd, hok.2.2.2]; simp
      simp only [outcome, hok.1, if_neg hbig, if_neg hn]; simp
    · intro c; rw [regsSoFar_append]; simp only [regsSoFar]; rw [latest_snoc]
      simp only [hok.1, MqSt.at, MqSt.note, MqSt.emit]
      rw [← h.map c]
      by_cases he : q.cmd.toNat % 65536 = c.toNat % 65536
      · rw [if_pos he, if_pos ((routing_eq_iff c q.cmd).2 he.symm)]
      · rw [if_neg he, if_neg (fun hx => he ((routing_eq_iff c q.cmd).1 hx).symm)]
    · intro c hc
      simp only [MqSt.at, MqSt.note, MqSt.emit] at hc
      split at hc
      · next he => rw [he, routing_toNat]; omega
      · exact h.keys c hc
  | hUnlock q o =>
    simp only [hp] at hs
    cases hs
    exact h.quiet (g := g) rfl rfl rfl (by rw [hp]; rfl)
  | sLock cmd r =>
    simp only [hp] at hs
    split at hs <;> cases hs
    exact h.quiet (g := g) rfl rfl rfl (by rw [hp]; rfl)
  | sFind cmd r =>
    simp only [hp] at hs
    cases hs
    refine h.event (g := g) (e := .eff (.serve cmd r) (.ran (entryRuns r (s.m cmd.routing)))) rfl rfl (fun hc => ?_) ?_ ?_ h.keys
    · rw [hp] at hc; exact .eff hc
    · intro op res he; cases he
      rw [h.map cmd, entryRuns_eq]
      simp only [outcome]
      cases latest (cmd.toNat % 65536) (regsSoFar s.hist) <;> rfl
    · intro c; rw [regsSoFar_append]; simpa [regsSoFar, MqSt.at, MqSt.note, MqSt.emit] using h.map c
  | sUnlock cmd r e =>
    simp only [hp] at hs
    cases hs
    exact h.quiet (g := g) rfl rfl rfl (by rw [hp]; rfl)
  | ret op res =>
    simp only [hp] at hs
    cases hs
    refine h.event (g := g) (e := .ret op res) rfl rfl (fun hc => ?_) ?_ ?_ h.keys
    · rw [hp] at hc; exact .ret hc
    · intro op res he; cases he
    · intro c; rw [regsSoFar_append]; simpa [regsSoFar, MqSt.at, MqSt.note, MqSt.emit] using h.map c

theorem MqLin.step {s s' : MqSt ρ} {a : MqAct ρ} (c : MqCtl s) (h : MqLin s) (hs : mqStep s a = some s') : MqLin s' := by
  cases a with
  | go g => exact h.goStep c hs
  | call g op =>
    simp only [mqStep] at hs
    split at hs <;> try cases hs
    rename_i hp
    split at hs <;> cases hs
    cases op with
    | handle q =>
      refine h.event (g := g) (e := .inv (.handle q)) rfl rfl (fun hc => ?_) ?_ ?_ h.keys
      · rw [hp] at hc; exact .inv hc
      · intro op res he; cases he
      · intro c; rw [regsSoFar_append]; simpa [regsSoFar, MqSt.at, MqSt.note, MqSt.emit] using h.map c
    | serve cmd r =>
      refine h.event (g := g) (e := .inv (.serve cmd r)) rfl rfl (fun hc => ?_) ?_ ?_ h.keys
      · rw [hp] at hc; exact .inv hc
      · intro op res he; cases he
      · intro c; rw [regsSoFar_append]; simpa [regsSoFar, MqSt.at, MqSt.note, MqSt.emit] using h.map c
  | share g j =>
    simp only [mqStep] at hs
    split at hs <;> try cases hs
    split at hs <;> cases hs
    exact ⟨h.calls, h.seq, h.map, h.keys⟩

/-! ## Races -/

structure MqKn (tr : List MqMem) (w : Option Nat) (rs us : List Nat) : Prop where
  fst : ∀ i a, tr[i]? = some a → ∀ v p, a.op = .acc () v p → a.line = 77 → ∀ g ∈ us, Knows tr g i
  wr : ∀ i a, tr[i]? = some a → ∀ v p, a.op = .acc () v p → a.line ≠ 77 → a.line ≠ 114 →
    (w = none → KnowsO tr .w i) ∧ (∀ g, w = some g → Knows tr g i) ∧ (∀ g ∈ rs, Knows tr g i)
  rd : ∀ i a, tr[i]? = some a → ∀ v p, a.op = .acc () v p → a.line = 114 →
    v = false ∧ (a.g ∈ rs ∨ KnowsO tr .r i) ∧ (∀ g, w = some g → Knows tr g i)
  free : RaceFree tr ()

variable {tr : List MqMem} {w : Option Nat} {rs us : List Nat} {g : Nat}

theorem not_acc_free {e : MqMem} (h : RaceFree tr ()) (he : ∀ v p, e.op ≠ .acc () v p) : RaceFree (tr ++ [e]) () := by
  intro i j hr
  rcases new_race hr with hr | ⟨_, a, _, ⟨_, v, _, p, _, hc, _⟩, _⟩
  · exact h i j hr
  · exact he v p hc

/-- An event that is not an access. -/
theorem MqKn.sync {e : MqMem} (h : MqKn tr w rs us) (he : ∀ v p, e.op ≠ .acc () v p) : MqKn (tr ++ [e]) w rs us := by
  refine ⟨?_, ?_, ?_, not_acc_free h.free he⟩
  · intro i a hi v p ho hl g hg
    rcases getElem?_snoc hi with hi | ⟨rfl, rfl⟩
    · exact (h.fst i a hi v p ho hl g hg).mono _
    · exact absurd ho (he v p)
  · intro i a hi v p ho hl hl2
    rcases getElem?_snoc hi with hi | ⟨rfl, rfl⟩
    · have := h.wr i a hi v p ho hl hl2
      exact ⟨fun x => (this.1 x).mono _, fun g x => (this.2.1 g x).mono _, fun g x => (this.2.2 g x).mono _⟩
    · exact absurd ho (he v p)
  · intro i a hi v p ho hl
    rcases getElem?_snoc hi with hi | ⟨rfl, rfl⟩
    · have := h.rd i a hi v p ho hl
      exact ⟨this.1, this.2.1.imp id (·.mono _), fun g x => (this.2.2 g x).mono _⟩
    · exact absurd ho (he v p)

/-- An access by the writer. -/
theorem MqKn.accW {v : Bool} {l : Nat} (h : MqKn tr (some g) [] us) (hu : g ∈ us) (hl : l ≠ 77) (hl2 : l ≠ 114) :
    MqKn (tr ++ [⟨g, .acc () v false, l⟩]) (some g) [] us := by
  refine ⟨?_, ?_, ?_, ?_⟩
  · intro i a hi v' p ho hl' g' hg
    rcases getElem?_snoc hi with hi | ⟨rfl, rfl⟩
    · exact (h.fst i a hi v' p ho hl' g' hg).mono _
    · exact absurd hl' hl
  · intro i a hi v' p ho h1 h2
    refine ⟨fun x => (by cases x), fun g' x => ?_, fun g' x => by cases x⟩
    cases x
    rcases getElem?_snoc hi with hi' | ⟨rfl, rfl⟩
    · exact ((h.wr i a hi' v' p ho h1 h2).2.1 g rfl).mono _
    · exact .own' hi rfl
  · intro i a hi v' p ho h1
    rcases getElem?_snoc hi with hi | ⟨rfl, rfl⟩
    · have := h.rd i a hi v' p ho h1
      exact ⟨this.1, this.2.1.imp id (·.mono _), fun g x => (this.2.2 g x).mono _⟩
    · exact absurd h1 hl2
  · intro i j hr
    rcases new_race hr with hr | ⟨_, a, ha, ⟨v1, _, p1, _, hc, _, _⟩, hk⟩
    · exact h.free i j hr
    · apply hk
      by_cases e1 : a.line = 77
      · exact h.fst i a ha _ _ hc e1 g hu
      · by_cases e2 : a.line = 114
        · exact (h.rd i a ha _ _ hc e2).2.2 g rfl
        · exact (h.wr i a ha _ _ hc e1 e2).2.1 g rfl

/-- An access by a reader. -/
theorem MqKn.accR (h : MqKn tr none rs us) (hu : g ∈ us) (hg : g ∈ rs) :
    MqKn (tr ++ [⟨g, .acc () false false, 114⟩]) none rs us := by
  refine ⟨?_, ?_, ?_, ?_⟩
  · intro i a hi v' p ho hl' g' hg
    rcases getElem?_snoc hi with hi | ⟨rfl, rfl⟩
    · exact (h.fst i a hi v' p ho hl' g' hg).mono _
    · exact absurd hl' (by simp)
  · intro i a hi v' p ho h1 h2
    rcases getElem?_snoc hi with hi | ⟨rfl, rfl⟩
    · have := h.wr i a hi v' p ho h1 h2
      exact ⟨fun x => (this.1 x).mono _, fun g x => (this.2.1 g x).mono _, fun g x => (this.2.2 g x).mono _⟩
    · exact absurd rfl h2
  · intro i a hi v' p ho h1
    rcases getElem?_snoc hi with hi | ⟨rfl, rfl⟩
    · have := h.rd i a hi v' p ho h1
      exact ⟨this.1, this.2.1.imp id (·.mono _), fun g x => (this.2.2 g x).mono _⟩
    · cases ho; exact ⟨rfl, .inl hg, fun g x => by cases x⟩
  · intro i j hr
    rcases new_race hr with hr | ⟨_, a, ha, ⟨v1, v2, p1, _, hc, hc2, hv, _⟩, hk⟩
    · exact h.free i j hr
    · cases hc2
      apply hk
      by_cases e1 : a.line = 77
      · exact h.fst i a ha _ _ hc e1 g hu
      · by_cases e2 : a.line = 114
        · have := (h.rd i a ha _ _ hc e2).1
          rw [this] at hv; simp at hv
        · exact (h.wr i a ha _ _ hc e1 e2).2.2 g hg

theorem MqKn.lock (h : MqKn tr none [] us) :
    MqKn (tr ++ [⟨g, .acq .w, 95⟩] ++ [⟨g, .acq .r, 95⟩]) (some g) [] us := by
  have h2 := (h.sync (e := ⟨g, .acq .w, 95⟩) (by simp)).sync (e := ⟨g, .acq .r, 95⟩) (by simp)
  refine ⟨h2.fst, ?_, ?_, h2.free⟩
  · intro i a hi v p ho h1 h3
    refine ⟨fun x => (by cases x), fun g' x => ?_, fun g' x => by cases x⟩
    cases x
    rcases getElem?_snoc hi with hi | ⟨rfl, rfl⟩
    · rcases getElem?_snoc hi with hi | ⟨rfl, rfl⟩
      · exact (((h.wr i a hi v p ho h1 h3).1 rfl).acq (e := ⟨g, .acq .w, 95⟩) rfl).mono _
      · cases ho
    · cases ho
  · intro i a hi v p ho h1
    have := h2.rd i a hi v p ho h1
    refine ⟨this.1, this.2.1, fun g' x => ?_⟩
    cases x
    rcases getElem?_snoc hi with hi | ⟨rfl, rfl⟩
    · rcases getElem?_snoc hi with hi | ⟨rfl, rfl⟩
      · rcases (h.rd i a hi v p ho h1).2.1 with hx | hx
        · cases hx
        · exact (hx.mono _).acq (e := ⟨g, .acq .r, 95⟩) rfl
      · cases ho
    · cases ho

theorem MqKn.unlock (h : MqKn tr (some g) [] us) : MqKn (tr ++ [⟨g, .rel .w, 96⟩]) none [] us := by
  have h2 := h.sync (e := ⟨g, .rel .w, 96⟩) (by simp)
  refine ⟨h2.fst, ?_, ?_, h2.free⟩
  · intro i a hi v p ho h1 h3
    refine ⟨fun _ => ?_, fun g' x => (by cases x), fun g' x => by cases x⟩
    rcases getElem?_snoc hi with hi | ⟨rfl, rfl⟩
    · exact ((h.wr i a hi v p ho h1 h3).2.1 g rfl).rel (e := ⟨g, .rel .w, 96⟩) rfl
    · cases ho
  · intro i a hi v p ho h1
    have := h2.rd i a hi v p ho h1
    exact ⟨this.1, this.2.1, fun g' x => by cases x⟩

theorem MqKn.rlock (h : MqKn tr none rs us) : MqKn (tr ++ [⟨g, .acq .w, 113⟩]) none (g :: rs) us := by
  have h2 := h.sync (e := ⟨g, .acq .w, 113⟩) (by simp)
  refine ⟨h2.fst, ?_, ?_, h2.free⟩
  · intro i a hi v p ho h1 h3
    have := h2.wr i a hi v p ho h1 h3
    refine ⟨this.1, this.2.1, fun g' x => ?_⟩
    rcases List.mem_cons.1 x with rfl | x
    · rcases getElem?_snoc hi with hi | ⟨rfl, rfl⟩
      · exact ((h.wr i a hi v p ho h1 h3).1 rfl).acq (e := ⟨g', .acq .w, 113⟩) rfl
      · cases ho
    · exact this.2.2 g' x
  · intro i a hi v p ho h1
    have := h2.rd i a hi v p ho h1
    exact ⟨this.1, this.2.1.imp (.tail _) id, this.2.2⟩

theorem MqKn.runlock (h : MqKn tr none rs us) : MqKn (tr ++ [⟨g, .rel .r, 115⟩]) none (rs.filter (· != g)) us := by
  have h2 := h.sync (e := ⟨g, .rel .r, 115⟩) (by simp)
  refine ⟨h2.fst, ?_, ?_, h2.free⟩
  · intro i a hi v p ho h1 h3
    have := h2.wr i a hi v p ho h1 h3
    exact ⟨this.1, this.2.1, fun g' x => this.2.2 g' (List.mem_filter.1 x).1⟩
  · intro i a hi v p ho h1
    have := h2.rd i a hi v p ho h1
    refine ⟨this.1, ?_, this.2.2⟩
    rcases this.2.1 with hx | hx
    · by_cases e : a.g = g
      · right
        rcases getElem?_snoc hi with hi | ⟨rfl, rfl⟩
        · exact (Knows.own' hi e).rel (e := ⟨g, .rel .r, 115⟩) rfl
        · cases ho
      · exact .inl (List.mem_filter.2 ⟨hx, by simpa using e⟩)
    · exact .inr hx

theorem MqKn.share {j : Nat} (h : MqKn tr w rs us) (hu : g ∈ us) : MqKn (tr ++ [⟨g, .go j, 0⟩]) w rs (j :: us) := by
  have h2 := h.sync (e := ⟨g, .go j, 0⟩) (by simp)
  refine ⟨?_, h2.wr, h2.rd, h2.free⟩
  intro i a hi v p ho h1 g' hg
  rcases List.mem_cons.1 hg with rfl | hg
  · rcases getElem?_snoc hi with hi | ⟨rfl, rfl⟩
    · exact (h.fst i a hi v p ho h1 g hu).go (e := ⟨g, .go g', 0⟩) rfl
    · cases ho
  · exact h2.fst i a hi v p ho h1 g' hg

def MqSt.Kn (s : MqSt ρ) : Prop := MqKn s.tr s.w s.rs s.us

theorem MqKn.init : (MqSt.init : MqSt ρ).Kn := by
  refine ⟨?_, ?_, ?_, ?_⟩
  · intro i a hi v p ho hl g hg
    simp only [MqSt.init, List.mem_singleton] at hg hi
    subst hg
    rcases i with _ | i
    · exact .own' hi (by simp at hi; rw [← hi])
    · simp at hi
  · intro i a hi v p ho hl
    rcases i with _ | i
    · simp [MqSt.init] at hi; rw [← hi] at hl; exact absurd rfl hl
    · simp [MqSt.init] at hi
  · intro i a hi v p ho hl
    rcases i with _ | i
    · simp [MqSt.init] at hi; rw [← hi] at hl; simp at hl
    · simp [MqSt.init] at hi
  · intro i j ⟨h1, ⟨a, b, _, hb, _⟩, _⟩
    rcases j with _ | j
    · omega
    · simp [MqSt.init] at hb

theorem MqKn.step {s s' : MqSt ρ} {a : MqAct ρ} (c : MqCtl s) (h : s.Kn) (hs : mqStep s a = some s') : s'.Kn := by
  cases a with
  | call g op =>
    simp only [mqStep] at hs
    split at hs <;> try cases hs
    split at hs <;> cases hs
    exact h
  | share g j =>
    simp only [mqStep] at hs
    split at hs <;> try cases hs
    split at hs <;> cases hs
    rename_i hc
    exact MqKn.share h hc.1
  | go g =>
    have hw := c.w1 g; have hr := c.r1 g; have hu := c.us g; have hex := c.ex
    simp only [mqStep, mqGo] at hs
    unfold MqSt.Kn at h
    have key : s.w = some g → s.rs = [] := fun hx => hex (by rw [hx]; simp)
    have key2 : g ∈ s.rs → s.w = none := by
      intro hx
      cases hy : s.w with
      | none => rfl
      | some k => rw [hex (by rw [hy]; simp)] at hx; cases hx
    cases hp : s.pc g <;> simp only [hp, MqPc.wr, MqPc.rd, reduceCtorEq, or_false, iff_true, iff_false] at hs hw hr hu
    case hCheck q =>
      split at hs
      · cases hs; exact h
      · split at hs <;> cases hs <;> exact h
    case hLock q k =>
      split at hs <;> cases hs
      rename_i hc
      rw [hc.1, hc.2] at h
      show MqKn _ _ s.rs _
      rw [hc.2]; exact h.lock
    case hMake q k =>
      have h1 := key hw
      rw [hw, h1] at h
      split at hs <;> cases hs
      · show MqKn _ s.w s.rs _
        rw [h1, hw]
        exact (h.accW (v := false) (l := 98) hu (by simp) (by simp)).accW (v := true) (l := 99) hu (by simp) (by simp)
      · show MqKn _ s.w s.rs _
        rw [h1, hw]; exact h.accW (v := false) (l := 98) hu (by simp) (by simp)
    case hFind q k =>
      have h1 := key hw
      rw [hw, h1] at h
      split at hs <;> cases hs <;>
      · show MqKn _ s.w s.rs _
        rw [h1, hw]; exact h.accW (v := false) (l := 101) hu (by simp) (by simp)
    case hPut q k =>
      have h1 := key hw
      rw [hw, h1] at h
      cases hs
      show MqKn _ s.w s.rs _
      rw [h1, hw]; exact h.accW (v := true) (l := 105) hu (by simp) (by simp)
    case hUnlock q o =>
      have h1 := key hw
      rw [hw, h1] at h
      cases hs
      show MqKn _ _ s.rs _
      rw [h1]; exact h.unlock
    case sLock cmd r =>
      split at hs <;> cases hs
      rename_i hc
      rw [hc] at h
      show MqKn _ s.w _ _
      rw [hc]; exact h.rlock
    case sFind cmd r =>
      have h1 := key2 hr
      rw [h1] at h
      cases hs
      show MqKn _ s.w s.rs _
      rw [h1]; exact h.accR hu hr
    case sUnlock cmd r e =>
      have h1 := key2 hr
      rw [h1] at h
      cases hs
      show MqKn _ s.w _ _
      rw [h1]; exact h.runlock
    case ret op res => cases hs; exact h

/-! ## Results -/

theorem mqRun_inv {acts : List (MqAct ρ)} {s : MqSt ρ} (hr : mqRun acts = some s) : MqCtl s ∧ MqLin s ∧ s.Kn :=
  runActs_inv (P := fun s : MqSt ρ => MqCtl s ∧ MqLin s ∧ s.Kn)
    (fun _ _ _ h hs => ⟨h.1.step hs, h.2.1.step h.1 hs, MqKn.step h.1 h.2.2 hs⟩) ⟨MqCtl.init, MqLin.init, MqKn.init⟩ hr

/-- **C124.** In all executions, with any number of goroutines that register and dispatch: every call has the outcome it would have if the
calls were made one at a time, in the order in which they took effect, and each took effect between its beginning and its end. -/
theorem C124_atomic (acts : List (MqAct ρ)) (s : MqSt ρ) (hr : mqRun acts = some s) :
    (∀ g, ∃ ph, Calls (eventsOf g s.hist) ph) ∧ Sequential s.hist :=
  ⟨fun g => ⟨_, (mqRun_inv hr).2.1.calls g⟩, (mqRun_inv hr).2.1.seq⟩

/-- The map is used without data races. -/
theorem C124_raceFree (acts : List (MqAct ρ)) (s : MqSt ρ) (hr : mqRun acts = some s) : RaceFree s.tr () := (mqRun_inv hr).2.2.free

/-- The assignment at 105 is never one to a nil map (which would panic). -/
theorem C124_made (acts : List (MqAct ρ)) (s : MqSt ρ) (hr : mqRun acts = some s) (g : Nat) (q : Reg ρ) (h : Nat) (hp : s.pc g = .hPut q h) :
    s.nil = false := by
  have := (mqRun_inv hr).1.ok g
  rw [hp] at this; exact this.2.2.1

/-- No deadlock: when a goroutine is within a call, one that is within a call can go on, also if (as `sync.RWMutex` has it) those who wait
for the lock to register keep later readers out. -/
theorem C124_progress (acts : List (MqAct ρ)) (s : MqSt ρ) (hr : mqRun acts = some s) (g : Nat) (hg : s.pc g ≠ .idle) :
    ∃ g', (∃ s', mqStep s (.go g') = some s') ∧ (∀ cmd r, s.pc g' = .sLock cmd r → ∀ g'' q h, s.pc g'' ≠ .hLock q h) := by
  have c := (mqRun_inv hr).1
  cases hw : s.w with
  | some k =>
    have hk := (c.w1 k).1 hw
    refine ⟨k, ?_, fun cmd r hx => by rw [hx] at hk; cases hk⟩
    simp only [mqStep, mqGo]
    cases hp : s.pc k <;> rw [hp] at hk <;> cases hk <;> simp only [Option.some.injEq, exists_eq'] <;> split <;> exact ⟨_, rfl⟩
  | none =>
    cases hrs : s.rs with
    | cons k rest =>
      have hk := (c.r1 k).1 (by rw [hrs]; exact .head _)
      refine ⟨k, ?_, fun cmd r hx => by rw [hx] at hk; cases hk⟩
      simp only [mqStep, mqGo]
      cases hp : s.pc k <;> rw [hp] at hk <;> cases hk <;> exact ⟨_, rfl⟩
    | nil =>
      by_cases hq : ∃ g'' q h, s.pc g'' = .hLock q h
      · obtain ⟨k, q, h, hp⟩ := hq
        refine ⟨k, ?_, fun cmd r hx => by rw [hx] at hp; cases hp⟩
        simp only [mqStep, mqGo, hp, hw, hrs, and_self, if_true]
        exact ⟨_, rfl⟩
      · refine ⟨g, ?_, fun _ _ _ g'' q h hx => hq ⟨g'', q, h, hx⟩⟩
        have hwg := c.w1 g; have hrg := c.r1 g
        rw [hw] at hwg; rw [hrs] at hrg
        simp only [mqStep, mqGo]
        cases hp : s.pc g <;> rw [hp] at hwg hrg <;> simp [MqPc.wr, MqPc.rd] at hwg hrg
        case idle => exact absurd hp hg
        case hCheck q =>
          cases hh : q.handler with
          | none => simp [hh]
          | some k => simp only [hh]; split <;> exact ⟨_, rfl⟩
        case hLock q h => exact absurd ⟨g, q, h, hp⟩ hq
        case sLock cmd r => simp [hw]
        case ret op res => exact ⟨_, rfl⟩

/-- Handlers and middleware run, and `Handle` returns or panics, with the lock released: they may register handlers themselves. -/
theorem C124_unlocked (acts : List (MqAct ρ)) (s : MqSt ρ) (hr : mqRun acts = some s) (g : Nat)
    (hg : s.pc g = .idle ∨ ∃ op res, s.pc g = .ret op res) : s.w ≠ some g ∧ g ∉ s.rs := by
  have c := (mqRun_inv hr).1
  have h1 := c.w1 g; have h2 := c.r1 g
  rcases hg with hg | ⟨op, res, hg⟩ <;> rw [hg] at h1 h2 <;> simpa [MqPc.wr, MqPc.rd] using And.intro h1 h2

/-! ## Consequences of the order -/

theorem mem_regsSoFar {h : List (Nat × MqEv ρ)} {q : Reg ρ} {o : HandleRes} :
    (q, o) ∈ regsSoFar h ↔ ∃ g, (g, MqEv.eff (.handle q) (.reg o)) ∈ h := by
  induction h with
  | nil => simp [regsSoFar]
  | cons x h ih =>
    obtain ⟨g, e⟩ := x
    cases e with
    | inv op => simp [regsSoFar, ih]
    | ret op res => simp [regsSoFar, ih]
    | eff op res =>
      cases op <;> cases res <;> simp [regsSoFar, ih]
      rename_i q' o'
      constructor
      · rintro (⟨rfl, rfl⟩ | ⟨g', h⟩)
        · exact ⟨g, .inl ⟨rfl, rfl, rfl⟩⟩
        · exact ⟨g', .inr h⟩
      · rintro ⟨g', ⟨_, h1, h2⟩ | h⟩
        · exact .inl ⟨h1, h2⟩
        · exact .inr ⟨g', h⟩

theorem latest_isSome {low : Nat} {l : List (Reg ρ × HandleRes)} {q : Reg ρ} {k : Nat} (hm : (q, HandleRes.ok) ∈ l) (hh : q.handler = some k)
    (hl : q.cmd.toNat % 65536 = low) : (latest low l).isSome = true := by
  induction l with
  | nil => cases hm
  | cons x l ih =>
    obtain ⟨q', o'⟩ := x
    rw [latest_cons]
    cases hc : latest low l with
    | some e => rfl
    | none =>
      rcases List.mem_cons.1 hm with he | hm
      · cases he; simp [latest, hh, hl]
      · have := ih hm; rw [hc] at this; cases this

/-- What a goroutine's finished call yielded is what it had when it took effect. -/
theorem Calls.ret_eff {l : List (MqEv ρ)} {ph : Phase ρ} (h : Calls l ph) (p : List (MqEv ρ)) (op : MqOp ρ) (res : MqRes) (q : List (MqEv ρ))
    (e : l = p ++ .ret op res :: q) : MqEv.eff op res ∈ p := by
  have done : ∀ {l : List (MqEv ρ)} {ph : Phase ρ}, Calls l ph → ∀ op res, ph = .done op res → MqEv.eff op res ∈ l := by
    intro l ph h op res e
    cases h <;> cases e
    simp
  induction h generalizing q with
  | nil => simp at e
  | inv h ih | eff h ih =>
    rcases List.eq_nil_or_concat q with rfl | ⟨q', y, rfl⟩
    · have := (List.append_inj' e rfl).2; cases this
    · rw [List.concat_eq_append, ← List.cons_append, ← List.append_assoc] at e
      exact ih q' (List.append_inj' e rfl).1
  | ret h ih =>
    rcases List.eq_nil_or_concat q with rfl | ⟨q', y, rfl⟩
    · obtain ⟨h1, h2⟩ := List.append_inj' e rfl
      cases h2; rw [← h1]; exact done h _ _ rfl
    · rw [List.concat_eq_append, ← List.cons_append, ← List.append_assoc] at e
      exact ih q' (List.append_inj' e rfl).1

theorem eventsOf_append (g : Nat) (a b : List (Nat × MqEv ρ)) : eventsOf g (a ++ b) = eventsOf g a ++ eventsOf g b := by simp [eventsOf]

theorem mem_eventsOf {g : Nat} {h : List (Nat × MqEv ρ)} {e : MqEv ρ} : e ∈ eventsOf g h ↔ (g, e) ∈ h := by
  simp [eventsOf]

/-- A request dispatched (114) after a registration of its command has returned finds a handler: the connection is not closed. -/
theorem C124_seen (acts : List (MqAct ρ)) (s : MqSt ρ) (hr : mqRun acts = some s) (a b c : List (Nat × MqEv ρ)) (g g' : Nat) (q : Reg ρ)
    (cmd : Cmd) (r : ρ) (l : List MEv)
    (hh : s.hist = a ++ (g, .ret (.handle q) (.reg .ok)) :: (b ++ (g', .eff (.serve cmd r) (.ran l)) :: c))
    (hq : q.cmd.toNat % 65536 = cmd.toNat % 65536) :
    ∃ e, latest (cmd.toNat % 65536) (regsSoFar (a ++ (g, .ret (.handle q) (.reg .ok)) :: b)) = some e ∧ l = mwTrace r e ∧ MEv.close ∉ l := by
  have inv := (mqRun_inv hr).2.1
  have h1 := inv.calls g
  rw [hh, eventsOf_append] at h1
  have h2 := Calls.ret_eff h1 (eventsOf g a) (.handle q) (.reg .ok) (eventsOf g (b ++ (g', .eff (.serve cmd r) (.ran l)) :: c)) (by
    simp [eventsOf])
  have h3 : (q, HandleRes.ok) ∈ regsSoFar a := mem_regsSoFar.2 ⟨g, mem_eventsOf.1 h2⟩
  obtain ⟨g1, hm⟩ := mem_regsSoFar.1 h3
  obtain ⟨a1, a2, ha⟩ := List.append_of_mem hm
  have h4 := inv.seq a1 g1 (.handle q) (.reg .ok) (a2 ++ (g, .ret (.handle q) (.reg .ok)) :: (b ++ (g', .eff (.serve cmd r) (.ran l)) :: c)) (by
    rw [hh, ha]; simp)
  have hk : ∃ k, q.handler = some k := by
    cases hk : q.handler with
    | some k => exact ⟨k, rfl⟩
    | none => simp [outcome, hk] at h4
  obtain ⟨k, hk⟩ := hk
  have h5 := inv.seq (a ++ (g, .ret (.handle q) (.reg .ok)) :: b) g' (.serve cmd r) (.ran l) c (by rw [hh]; simp)
  have h6 : (latest (cmd.toNat % 65536) (regsSoFar (a ++ (g, .ret (.handle q) (.reg .ok)) :: b))).isSome = true :=
    latest_isSome (q := q) (by rw [regsSoFar_append]; exact List.mem_append_left _ h3) hk hq
  obtain ⟨e, he⟩ := Option.isSome_iff_exists.1 h6
  refine ⟨e, he, ?_⟩
  simp only [outcome, he, MqRes.ran.injEq] at h5
  refine ⟨h5, ?_⟩
  rw [h5, mwTrace]
  simp only [List.mem_append, List.mem_map, reduceCtorEq, and_false, exists_false, false_or]
  split <;> simp

/-- Of the registrations of one command without opaque byte that run at the same time, one at most is accepted. -/
theorem C124_once (acts : List (MqAct ρ)) (s : MqSt ρ) (hr : mqRun acts = some s) (a b c : List (Nat × MqEv ρ)) (g g' : Nat) (q q' : Reg ρ)
    (hh : s.hist = a ++ (g, .eff (.handle q) (.reg .ok)) :: (b ++ (g', .eff (.handle q') (.reg .ok)) :: c))
    (hc : q.cmd = q'.cmd) (hs : q.cmd.toNat < 65536) : False := by
  have inv := (mqRun_inv hr).2.1
  have h4 := inv.seq a g _ _ _ hh
  have hk : ∃ k, q.handler = some k := by
    cases hk : q.handler with
    | some k => exact ⟨k, rfl⟩
    | none => simp [outcome, hk] at h4
  obtain ⟨k, hk⟩ := hk
  have h5 := inv.seq (a ++ (g, .eff (.handle q) (.reg .ok)) :: b) g' (.handle q') (.reg .ok) c (by rw [hh]; simp)
  have h6 : (latest q'.cmd.toNat (regsSoFar (a ++ (g, .eff (.handle q) (.reg .ok)) :: b))).isSome = true := by
    refine latest_isSome (q := q) ?_ hk (by rw [hc, Nat.mod_eq_of_lt (hc ▸ hs)])
    rw [regsSoFar_append]; simp [regsSoFar]
  simp only [outcome, h6, and_true, if_pos (hc ▸ hs)] at h5
  split at h5
  · simp at h5
  · split at h5 <;> simp at h5

/-! ## An execution -/

/-- A request is dispatched between the check and the lock of a registration; a second registration of the command finds it taken. -/
def exMux : List (MqAct Nat) :=
  [.share 0 1, .share 0 2, .call 0 (.handle ⟨7, some 3, []⟩), .go 0, .call 1 (.serve 7 0), .go 1, .go 1, .go 1,
   .call 2 (.handle ⟨7, some 4, []⟩), .go 2, .go 0, .go 0, .go 0, .go 0, .go 0, .go 0, .go 1, .go 2, .go 2, .go 2, .go 2, .go 2,
   .call 1 (.serve 0x10007 5), .go 1, .go 1]

def exMuxRets (s : MqSt Nat) : List (Nat × MqRes) := s.hist.filterMap fun
  | (g, .ret _ res) => some (g, res)
  | _ => none

example : ∃ s, mqRun exMux = some s ∧ exMuxRets s = [(0, .reg .ok), (1, .ran [.close]), (2, .reg .dup)] ∧ s.tr.length = 20 ∧
    s.hist.length = 11 ∧ s.rs = [1] := by decide +kernel

/-- A registration that returns before another goroutine's dispatch: the hypotheses of C124_seen hold, and the handler runs. -/
def exMuxSeen : List (MqAct Nat) :=
  [.share 0 1, .call 0 (.handle ⟨7, some 3, []⟩), .go 0, .go 0, .go 0, .go 0, .go 0, .go 0, .go 0,
   .call 1 (.serve 0x10007 5), .go 1, .go 1, .go 1, .go 1]
example : (mqRun exMuxSeen).map (fun s => s.hist) =
    some ([(0, .inv (.handle ⟨7, some 3, []⟩)), (0, .eff (.handle ⟨7, some 3, []⟩) (.reg .ok))] ++
      (0, .ret (.handle ⟨7, some 3, []⟩) (.reg .ok)) :: ([(1, .inv (.serve 0x10007 5))] ++
        (1, .eff (.serve 0x10007 5) (.ran [.handler 3])) :: [(1, .ret (.serve 0x10007 5) (.ran [.handler 3]))])) := by rfl

end Qrpc
