import Verif.Model.Metrics
import Verif.Props.ServeRead
/-! # Property C94: metrics count every handled request once -/
namespace Qrpc
open Spec

/-- The main goroutine has begun and not yet instrumented the blocking frame `k`. -/
def MPc.open1 (k : Nat) : MPc → Nat
  | .handling j | .cleanup j => if j = k then 1 else 0
  | _ => 0

def MPc.clean1 (k : Nat) : MPc → Nat
  | .cleanup j => if j = k then 1 else 0
  | _ => 0

/-- Every handler that was started is either over with the metrics, or in exactly one place. -/
structure MtInvR (done : List Nat) (r : RSt) : Prop where
  one : ∀ k, done.count k + r.running.count k + r.ending.count k + r.main.open1 k = if HEv.start k ∈ r.log then 1 else 0
  fin : ∀ k, HEv.finish k ∈ r.log ↔ 0 < done.count k + r.ending.count k + r.main.clean1 k

def RAct.addDone (r : RSt) (a : RAct) (done : List Nat) : List Nat :=
  match a.instruments r with
  | some k => done ++ [k]
  | none => done

theorem count_snoc_nat (l : List Nat) (j k : Nat) : (l ++ [j]).count k = l.count k + if j = k then 1 else 0 := by
  rw [List.count_append, List.count_singleton]
  simp

theorem count_erase_nat (l : List Nat) (j k : Nat) : (l.erase j).count k = l.count k - if j = k then 1 else 0 := by
  rw [List.count_erase]
  simp

theorem mem_snoc_start (l : List HEv) (e : HEv) (k : Nat) : HEv.start k ∈ l ++ [e] ↔ HEv.start k ∈ l ∨ e = .start k := by
  simp [eq_comm]

theorem mem_snoc_finish (l : List HEv) (e : HEv) (k : Nat) : HEv.finish k ∈ l ++ [e] ↔ HEv.finish k ∈ l ∨ e = .finish k := by
  simp [eq_comm]

set_option maxHeartbeats 4000000 in
theorem MtInvR.step {c : RConf} {done : List Nat} {s s' : RSt} {a : RAct} (hA : RInvA c s) (h : MtInvR done s)
    (hs : rdStep c s a = some s') : MtInvR (a.addDone s done) s' := by
  obtain ⟨h1, h2⟩ := h
  have a1 : ∀ j p rest, s.ch = p :: rest → HEv.start j ∈ s.log → j < p :=
    fun j p rest hp hj => hA.startsCh j hj p (by simp [hp])
  have a2 := hA.startsRd
  have a3 := hA.startsMain
  have hc : ∀ (l : List Nat) k, k ∈ l → 0 < l.count k := fun l k hk => List.count_pos_iff.2 hk
  rdstep_cases hs a
  all_goals constructor
  all_goals intro k
  all_goals have q1 := h1 k
  all_goals have q2 := h2 k
  all_goals clear h1 h2 hA
  all_goals simp only [RAct.addDone, RAct.instruments, count_snoc_nat, count_erase_nat, mem_snoc_start, mem_snoc_finish] at *
  all_goals try first
    | assumption
    | grind [MPc.open1, MPc.clean1, MPc.item, RRd.item]

/-- The label values of frame `k`: its command, and how its handler ended. -/
def MtSt.labels (s : MtSt) (k : Nat) : Lvs := (s.cmds.getD k 0, errStr (s.err k))

structure MtInv (c : RConf) (m : MtConf) (s : MtSt) : Prop where
  r : RInvA c s.r
  one : MtInvR s.done s.r
  len : s.cmds.length = s.r.arr.length
  counts : s.counts = if m.counter then s.done.map s.labels else []
  observed : s.observed = if m.latency then s.done.map s.labels else []

theorem RSt.arr_step {c : RConf} {s s' : RSt} {a : RAct} (hs : rdStep c s a = some s') :
    s'.arr = s.arr ∨ ∃ x, s'.arr = s.arr ++ [x] := by
  rdstep_cases hs a
  all_goals first | exact .inl rfl | exact .inr ⟨_, rfl⟩

theorem RAct.ends_open {c : RConf} {s s' : RSt} {a : RAct} {k : Nat} (hs : rdStep c s a = some s') (he : a.ends s = some k) :
    k ∈ s.running ∨ s.main = .handling k := by
  rdstep_cases hs a
  all_goals simp_all [RAct.ends]

theorem RAct.instruments_open {c : RConf} {s s' : RSt} {a : RAct} {k : Nat} (hs : rdStep c s a = some s')
    (he : a.instruments s = some k) : (k ∈ s.ending ∨ s.main = .cleanup k) ∧ a.ends s = none := by
  rdstep_cases hs a
  all_goals simp_all [RAct.instruments, RAct.ends]

theorem MtInvR.lt {c : RConf} {done : List Nat} {s : RSt} (hA : RInvA c s) (h : MtInvR done s) {k : Nat}
    (hk : 0 < done.count k + s.running.count k + s.ending.count k + s.main.open1 k) : k < s.arr.length := by
  have := h.one k
  refine hA.startsLt k ?_
  split at this
  · assumption
  · omega

theorem MtInv.step {c : RConf} {m : MtConf} {s s' : MtSt} {x : MtAct} (h : MtInv c m s) (hs : mtStep c m s x = some s') :
    MtInv c m s' := by
  obtain ⟨hA, h1, h2, h3, h4⟩ := h
  simp only [mtStep] at hs
  split at hs
  · cases hs
  · next r hr =>
    generalize hcs : (if s.r.arr.length < r.arr.length then s.cmds ++ [x.cmd] else s.cmds) = cs at hs
    generalize hes : (fun k => if x.act.ends s.r = some k then x.err else s.err k) = es at hs
    have hlen : cs.length = r.arr.length := by
      rw [← hcs]
      rcases RSt.arr_step hr with e | ⟨y, e⟩ <;> rw [e] <;> simp [h2]
    have hcmd : ∀ k, k < s.cmds.length → cs.getD k 0 = s.cmds.getD k 0 := by
      intro k hk
      rw [← hcs]
      split
      · simp [List.getD, List.getElem?_append_left hk]
      · rfl
    have hdone : ∀ k ∈ s.done, (cs.getD k 0, errStr (es k)) = s.labels k := by
      intro k hk
      have hp := List.count_pos_iff.2 hk
      rw [hcmd k (by rw [h2]; exact h1.lt hA (by omega)), ← hes]
      simp only [MtSt.labels]
      split
      · next he =>
        exfalso
        have := h1.one k
        rcases RAct.ends_open hr he with hj | hj
        · have := List.count_pos_iff.2 hj
          grind
        · rw [hj] at this
          simp only [MPc.open1, if_true] at this
          grind
      · rfl
    have hlab : (s.done.map fun k => (cs.getD k 0, errStr (es k))) = s.done.map s.labels := List.map_congr_left hdone
    have hone := h1.step hA hr
    have hA' := hA.step hr
    split at hs
    · next k hk =>
      simp only [Option.some.injEq] at hs
      obtain ⟨ho, hn⟩ := RAct.instruments_open hr hk
      have hlk : (s.cmds.getD k 0, errStr (s.err k)) = (cs.getD k 0, errStr (es k)) := by
        rw [hcmd k, ← hes]
        · simp [hn]
        · rw [h2]
          refine h1.lt hA ?_
          rcases ho with ho | ho
          · have := List.count_pos_iff.2 ho; omega
          · rw [ho]; simp [MPc.open1]
      simp only [RAct.addDone, hk] at hone
      obtain ⟨mc, ml⟩ := m
      subst hs
      cases mc <;> cases ml <;> refine ⟨?_, ?_, ?_, ?_, ?_⟩ <;>
        simp only [instrument, and_self, and_true, true_and, Bool.true_eq_false, Bool.false_eq_true, if_true, if_false, and_false,
          false_and] at h3 h4 ⊢ <;>
        first
          | exact hA'
          | exact hone
          | exact hlen
          | exact h3
          | exact h4
          | (simp only [List.map_append, List.map_singleton, h3]; rw [← hlab, hlk]; rfl)
          | (simp only [List.map_append, List.map_singleton, h4]; rw [← hlab, hlk]; rfl)
    · next hk =>
      simp only [Option.some.injEq] at hs
      simp only [RAct.addDone, hk] at hone
      subst hs
      refine ⟨hA', hone, hlen, ?_, ?_⟩
      · simp only [h3]; rw [← hlab]; rfl
      · simp only [h4]; rw [← hlab]; rfl

theorem MtInv.reach {c : RConf} {m : MtConf} {t0 : Nat} {acts : List MtAct} {s : MtSt} (h : mtRun c m t0 acts = some s) : MtInv c m s := by
  refine runActs_inv (P := MtInv c m) (fun _ _ _ hi hs => hi.step hs) ⟨.init c t0, ⟨?_, ?_⟩, rfl, ?_, ?_⟩ h
  · simp [MtSt.init, RSt.init, MPc.open1]
  · simp [MtSt.init, RSt.init, MPc.clean1]
  · simp [MtSt.init]
  · simp [MtSt.init]

/-- The label `error` of a request: the panic value as printed, or what Go prints for the nil interface. -/
def Spec.errLabel (err : Option Bytes) : Bytes := err.getD ("<nil>".toList.map fun c => c.toNat.toUInt8)

theorem errStr_spec (err : Option Bytes) : errStr err = errLabel err := by
  cases err
  · decide
  · rfl

/-- **C94, the label.** The label tells a handler that returned from one that panicked, unless the panic value is printed as `<nil>`;
and panics with different texts have different labels. -/
theorem C94_label (err err' : Option Bytes) (h : errStr err = errStr err') :
    err = err' ∨ (err = none ∧ err' = some (errLabel none)) ∨ (err' = none ∧ err = some (errLabel none)) := by
  rw [errStr_spec, errStr_spec] at h
  cases err with
  | none => cases err' with
    | none => exact .inl rfl
    | some v => exact .inr (.inl ⟨rfl, by rw [h]; rfl⟩)
  | some v => cases err' with
    | none => exact .inr (.inr ⟨rfl, by rw [← h]; rfl⟩)
    | some v' => exact .inl (congrArg some h)

example : errStr none ≠ errStr (some []) := by decide
example : errStr none = errStr (some [0x3c, 0x6e, 0x69, 0x6c, 0x3e]) := by decide

/-- **C94.** In every execution there is a list `ks` of requests without repetitions such that the counter was incremented once for
each of them, with its command and with how its handler ended, and the latency observed once for each, with the same labels (if
they are configured; else not at all). All of them have an ended handler; an ended handler that is not among them is in its
deferred cleanup; and when the connection has ended, all requests given to a handler are among them. -/
theorem C94 {c : RConf} {m : MtConf} {t0 : Nat} {acts : List MtAct} {s : MtSt} (hrun : mtRun c m t0 acts = some s) :
    ∃ ks : List Nat, ks.Nodup ∧
      s.counts = (if m.counter then ks.map fun k => (s.cmds.getD k 0, errLabel (s.err k)) else []) ∧
      s.observed = (if m.latency then ks.map fun k => (s.cmds.getD k 0, errLabel (s.err k)) else []) ∧
      (∀ k ∈ ks, HEv.finish k ∈ s.r.log ∧ HEv.start k ∈ s.r.log) ∧
      (∀ k, HEv.finish k ∈ s.r.log → k ∈ ks ∨ k ∈ s.r.ending ∨ s.r.main = .cleanup k) ∧
      (s.r.main = .ended → ∀ k, HEv.start k ∈ s.r.log → k ∈ ks) := by
  have h := MtInv.reach hrun
  have hR : ∃ as, rdRun c t0 as = some s.r := by
    refine runActs_inv (P := fun s : MtSt => ∃ as, rdRun c t0 as = some s.r) ?_ ⟨[], rfl⟩ hrun
    rintro s x s' ⟨as, has⟩ hs
    simp only [mtStep] at hs
    split at hs
    · cases hs
    · next r hr =>
      have hr' : rdRun c t0 (as ++ [x.act]) = some r := by
        rw [rdRun, runActs_append, show runActs (rdStep c) (RSt.init t0) as = some s.r from has]; simp [runActs, hr]
      refine ⟨as ++ [x.act], hr'.trans ?_⟩
      split at hs <;> simp only [Option.some.injEq] at hs <;> subst hs
      · simp only [instrument]
        (repeat' split) <;> rfl
      · rfl
  obtain ⟨as, hR⟩ := hR
  have hl : (fun k => (s.cmds.getD k 0, errLabel (s.err k))) = s.labels := by
    funext k
    rw [MtSt.labels, errStr_spec]
  rw [hl]
  refine ⟨s.done, ?_, h.counts, h.observed, ?_, ?_, ?_⟩
  · rw [List.nodup_iff_count]
    intro k
    have := h.one.one k
    split at this <;> omega
  · intro k hk
    have hp := List.count_pos_iff.2 hk
    refine ⟨(h.one.fin k).2 (by omega), ?_⟩
    have := h.one.one k
    split at this
    · assumption
    · omega
  · intro k hk
    have := (h.one.fin k).1 hk
    by_cases h1 : k ∈ s.done
    · exact .inl h1
    · by_cases h2 : k ∈ s.r.ending
      · exact .inr (.inl h2)
      · rw [List.count_eq_zero_of_not_mem h1, List.count_eq_zero_of_not_mem h2] at this
        refine .inr (.inr ?_)
        cases hm : s.r.main <;> simp only [hm, MPc.clean1] at this <;> (try omega)
        split at this
        · next e => rw [e]
        · omega
  · intro he k hk
    obtain ⟨-, e1, e2, -, -⟩ := (RInv.reach hR).d.ended (by simp [he, MPc.over])
    have := h.one.one k
    rw [e1, e2, he] at this
    simp only [hk, if_true, List.count_nil, MPc.open1] at this
    exact List.count_pos_iff.1 (by omega)

/-- The requests of `exMixed` with commands 10, 11, 12, 13; 2 panics with "x". Afterwards the connection is closed. -/
def exMetrics : List MtAct :=
  ((exMixed.take 8).map fun a => ⟨a, 10, none⟩) ++ ((exMixed.drop 8).take 11 |>.map fun a => ⟨a, 12, none⟩) ++
  ((exMixed.drop 19).take 1 |>.map fun a => ⟨a, 0, some [0x78]⟩) ++ ((exMixed.drop 20).map fun a => ⟨a, 13, none⟩) ++
  [⟨.hDec 0, 0, none⟩]

example : (mtRun ⟨4, 0, 0, false⟩ ⟨true, false⟩ 100 exMetrics).map (fun s => (s.counts, s.observed, s.done, s.r.running)) =
    some ([(12, [0x78]), (13, errStr none), (10, errStr none)], [], [2, 3, 0], [1]) := by decide +kernel

/-- ... and after its end all four have been counted. -/
example : (mtRun ⟨4, 0, 0, false⟩ ⟨true, true⟩ 100 (exMetrics ++ ([.extClose, .mCtx, .mGo, .hTest 0, .hEnd 1, .hDec 1, .hTest 1, .hRst 1 false,
      .rCtx, .rGo, .mGo, .mGo] : List RAct).map fun a => ⟨a, 0, none⟩)).map (fun s => (s.counts, s.observed == s.counts, s.r.main)) =
    some ([(12, [0x78]), (13, errStr none), (10, errStr none), (10, errStr none)], true, MPc.ended) := by decide +kernel

end Qrpc
