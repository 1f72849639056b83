import Verif.Model.Walk
import Verif.Props.Registry
/-! # Property C87: walking over the connections; push ids -/
namespace Qrpc

theorem wk_reg {acts : List WkAct} {s : WkSt} (hrun : wkRun acts = some s) : ∃ as, qRun as = some s.q := by
  refine runActs_inv (P := fun s => ∃ as, qRun as = some s.q) ?_ ⟨[], rfl⟩ hrun
  intro s a s' ⟨as, h⟩ hs
  cases a <;> simp only [wkStep] at hs <;> (repeat' split at hs) <;>
    (try simp only [Option.some.injEq, reduceCtorEq] at hs) <;> (try contradiction) <;> (try subst hs) <;>
    (try exact ⟨as, h⟩)
  rename_i a _ q hq
  refine ⟨as ++ [a], ?_⟩
  rw [qRun, runActs_append, show runActs qStep QSt.init as = some s.q from h]
  simp [runActs, hq]

/-- Between two states of the registry nothing goes back. -/
structure QLe (s t : QSt) : Prop where
  log : ∀ e, e ∈ s.log → e ∈ t.log
  late : t.late = false → s.late = false
  n : s.n ≤ t.n
  un : ∀ c, s.untrack c = true → t.untrack c = true
  gone : ∀ c, c < s.n → s.active c = false → t.active c = false

theorem QLe.refl (s : QSt) : QLe s s := ⟨fun _ h => h, fun h => h, Nat.le_refl _, fun _ h => h, fun _ _ h => h⟩

theorem QLe.trans {s t u : QSt} (h : QLe s t) (h' : QLe t u) : QLe s u :=
  ⟨fun e he => h'.log e (h.log e he), fun hl => h.late (h'.late hl), Nat.le_trans h.n h'.n, fun c hc => h'.un c (h.un c hc), fun c hc ha => h'.gone c (Nat.lt_of_lt_of_le hc h.n) (h.gone c hc ha)⟩

theorem QLe.step {s t : QSt} {a : QAct} (hs : qStep s a = some t) : QLe s t := by
  qstep_cases hs a
  all_goals refine ⟨?_, ?_, ?_, ?_, ?_⟩
  all_goals try simp only []
  all_goals try first | (intro e he; exact he) | exact Nat.le_refl _ | exact Nat.le_succ _ | (intro c hc; exact hc) | (intro c _ hc; exact hc)
  all_goals grind [setAt]

/-- A connection leaves `activeConn` only when it is untracked. -/
structure QAct1 (s : QSt) : Prop where
  act : ∀ c, c < s.n → s.active c = false → s.untrack c = true
  out : ∀ c, s.n ≤ c → s.active c = false

theorem QAct1.reach {acts : List QAct} {s : QSt} (hrun : qRun acts = some s) : QAct1 s := by
  have : QInvA s ∧ QAct1 s := by
    refine runActs_inv (P := fun s => QInvA s ∧ QAct1 s) ?_ ?_ hrun
    · intro s a s' ⟨hA, h⟩ hs
      refine ⟨hA.step hs, ?_⟩
      obtain ⟨h1, h2⟩ := h
      have h3 := hA.own_un
      qstep_cases hs a
      all_goals refine ⟨?_, ?_⟩
      all_goals try simp only []
      all_goals try first | assumption | grind [setAt, QPc.own]
    · exact ⟨QInv.init.a, fun c hc => by simp [QSt.init] at hc, fun c _ => rfl⟩
  exact this.2

/-- What is known about a call of WalkConn when the registry is `q`. -/
structure WalkOk (w : Walk) (q : QSt) : Prop where
  run : ∃ as, qRun as = some w.from0
  le : QLe w.from0 q
  seen : ∀ c, w.seen c = true → c < q.n ∧ (c < w.from0.n → w.from0.active c = true)
  whole : ∀ c, c < w.from0.n → q.active c = true → w.whole c = true
  sub : ∀ c ∈ w.visited, w.seen c = true
  nodup : w.visited.Nodup

/-- What is known about a call of WalkConnByID when the registry is `q`. -/
structure WalkIDOk (w : WalkID) (q : QSt) : Prop where
  run : ∃ as, qRun as = some w.from0
  le : QLe w.from0 q
  pos : w.pos ≤ w.ids.length
  sorted : (w.hits.map Prod.fst).Pairwise (· < ·)
  hits : ∀ p c, (p, c) ∈ w.hits → p < w.pos ∧ ∃ id, w.ids[p]? = some id ∧ q.idOf c = some id
  open_ : ∀ p c, (p, c) ∈ w.hits → q.late = false → .closeRet c ∉ w.from0.log
  all : ∀ p id c k x, p < w.pos → w.ids[p]? = some id → .setRet c id k x ∈ w.from0.log → q.untrack c = false →
    q.late = false → (p, c) ∈ w.hits

def WkPc.Ok (q : QSt) : WkPc → Prop
  | .idle => True
  | .walk w => WalkOk w q
  | .byID w => WalkIDOk w q

def WkEv.Ok : WkEv → Prop
  | .walked w to1 stopped => (∃ as, qRun as = some to1) ∧ WalkOk w to1 ∧
      (stopped = false → ∀ c < to1.n, w.whole c = true → c ∈ w.visited)
  | .walkedID w to1 => (∃ as, qRun as = some to1) ∧ WalkIDOk w to1 ∧ w.pos = w.ids.length
  | .info id r q => (∀ c, r = some c → q.idOf c = some id ∧ (q.late = false → .closeRet c ∉ q.log)) ∧
      (q.late = false → ∀ c k x, .setRet c id k x ∈ q.log → q.untrack c = false → r = some c)
  | .pushID _ => True

theorem idOf_mono {s t : QSt} {a : QAct} (hs : qStep s a = some t) (c id : Nat) (h : s.idOf c = some id) : t.idOf c = some id := by
  qstep_cases hs a
  all_goals try simp only []
  all_goals first | exact h | grind [setAt]

theorem WkPc.Ok.observe {p : WkPc} {q q' : QSt} {a : QAct} (h : p.Ok q) (hs : qStep q a = some q')
    (hr : ∃ as, qRun as = some q') : (p.observe q').Ok q' := by
  have hle := QLe.step hs
  cases p with
  | idle => trivial
  | walk w =>
    obtain ⟨h1, h2, h3, h4, h5, h6⟩ := h
    have hle' := h2.trans hle
    refine ⟨h1, hle', ?_, ?_, fun c hc => by simp [h5 c hc], h6⟩
    · intro c hc
      simp only [Bool.or_eq_true] at hc
      obtain ⟨as, hr⟩ := hr
      rcases hc with hc | hc
      · have := h3 c hc
        exact ⟨Nat.lt_of_lt_of_le this.1 hle.n, this.2⟩
      · refine ⟨(QInv.reach hr).d.act_lt c hc, fun hlt => ?_⟩
        cases ha : w.from0.active c with
        | true => rfl
        | false => have := hle'.gone c hlt ha; simp_all
    · intro c hlt hc
      simp only [Bool.and_eq_true, hc, and_true]
      apply h4 c hlt
      cases ha : q.active c with
      | true => rfl
      | false => have := hle.gone c (Nat.lt_of_lt_of_le hlt h2.n) ha; simp_all
  | byID w =>
    obtain ⟨h1, h2, h3, h4, h5, h6, h7⟩ := h
    refine ⟨h1, h2.trans hle, h3, h4, ?_, fun p c hp hl => h6 p c hp (hle.late hl), ?_⟩
    · intro p c hp
      obtain ⟨h8, id, h9, h10⟩ := h5 p c hp
      exact ⟨h8, id, h9, idOf_mono hs c id h10⟩
    · intro p id c k x h8 h9 h10 h11 h12
      refine h7 p id c k x h8 h9 h10 ?_ (hle.late h12)
      cases hu : q.untrack c with
      | false => rfl
      | true => have := hle.un c hu; simp_all

structure WkInv (s : WkSt) : Prop where
  run : ∃ as, qRun as = some s.q
  pcs : ∀ i, (s.pc i).Ok s.q
  evs : ∀ e ∈ s.log, e.Ok

theorem WkInv.reach {acts : List WkAct} {s : WkSt} (hrun : wkRun acts = some s) : WkInv s := by
  refine runActs_inv (P := WkInv) ?_ ⟨⟨[], rfl⟩, fun _ => by simp [WkSt.init, WkPc.Ok], fun e he => by simp [WkSt.init] at he⟩ hrun
  intro s a s' ⟨⟨as, h0⟩, h1, h2⟩ hs
  have hI := QInv.reach h0
  have hset : ∀ (i : Nat) (p : WkPc), p.Ok s.q → ∀ j, (setAt s.pc i p j).Ok s.q := by
    intro i p hp j; simp only [setAt]; split
    · exact hp
    · exact h1 j
  have hlog : ∀ (e : WkEv), e.Ok → ∀ e' ∈ s.log ++ [e], e'.Ok := by
    intro e he e' hm
    rcases List.mem_append.1 hm with hm | hm
    · exact h2 e' hm
    · rw [List.mem_singleton.1 hm]; exact he
  cases a with
  | reg a =>
    simp only [wkStep] at hs
    split at hs
    · next q hq =>
      simp only [Option.some.injEq] at hs; subst hs
      have hr : ∃ as, qRun as = some q := ⟨as ++ [a], by
        rw [qRun, runActs_append, show runActs qStep QSt.init as = some s.q from h0]; simp [runActs, hq]⟩
      exact ⟨hr, fun i => (h1 i).observe hq hr, h2⟩
    · simp at hs
  | walk i =>
    simp only [wkStep] at hs
    split at hs
    · simp only [Option.some.injEq] at hs; subst hs
      refine ⟨⟨as, h0⟩, hset i _ ?_, h2⟩
      exact ⟨⟨as, h0⟩, .refl _, fun c hc => ⟨hI.d.act_lt c hc, fun _ => hc⟩, fun c _ hc => hc, by simp, by simp⟩
    · simp at hs
  | visit i c stop =>
    simp only [wkStep] at hs
    split at hs
    · next w hp =>
      have hw : WalkOk w s.q := by have := h1 i; rw [hp] at this; exact this
      obtain ⟨h3, h4, h5, h6, h7, h8⟩ := hw
      have hw' (hc : w.seen c = true ∧ c ∉ w.visited) : WalkOk { w with visited := w.visited ++ [c] } s.q :=
        ⟨h3, h4, h5, h6, by
          intro c' hc'
          rcases List.mem_append.1 hc' with hm | hm
          · exact h7 c' hm
          · rw [List.mem_singleton.1 hm]; exact hc.1,
         by
          rw [List.nodup_append]
          refine ⟨h8, by simp, ?_⟩
          intro x hx y hy
          rw [List.mem_singleton.1 hy]
          intro hxy; exact hc.2 (hxy ▸ hx)⟩
      split at hs
      · next hc =>
        split at hs
        · simp only [Option.some.injEq] at hs; subst hs
          exact ⟨⟨as, h0⟩, hset i _ trivial, hlog _ ⟨⟨as, h0⟩, hw' hc, by simp⟩⟩
        · simp only [Option.some.injEq] at hs; subst hs
          exact ⟨⟨as, h0⟩, hset i _ (hw' hc), h2⟩
      · simp at hs
    · simp at hs
  | walkEnd i =>
    simp only [wkStep] at hs
    split at hs
    · next w hp =>
      have hw : WalkOk w s.q := by have := h1 i; rw [hp] at this; exact this
      split at hs
      · next hc =>
        simp only [Option.some.injEq] at hs; subst hs
        exact ⟨⟨as, h0⟩, hset i _ trivial, hlog _ ⟨⟨as, h0⟩, hw, fun _ => hc⟩⟩
      · simp at hs
    · simp at hs
  | byID i ids =>
    simp only [wkStep] at hs
    split at hs
    · simp only [Option.some.injEq] at hs; subst hs
      refine ⟨⟨as, h0⟩, hset i _ ?_, h2⟩
      exact ⟨⟨as, h0⟩, .refl _, Nat.zero_le _, by simp, by simp, by simp, by simp⟩
    · simp at hs
  | next i =>
    simp only [wkStep] at hs
    split at hs
    · next w hp =>
      have hw : WalkIDOk w s.q := by have := h1 i; rw [hp] at this; exact this
      obtain ⟨h3, h4, h5, h6, h7, h8, h9⟩ := hw
      split at hs
      · next id hid =>
        have hlt : w.pos < w.ids.length := (List.getElem?_eq_some_iff.1 hid).1
        split at hs
        · next c hc =>
          simp only [Option.some.injEq] at hs; subst hs
          refine ⟨⟨as, h0⟩, hset i _ ?_, h2⟩
          refine ⟨h3, h4, hlt, ?_, ?_, ?_, ?_⟩
          · simp only [List.map_append, List.map_cons, List.map_nil]
            rw [List.pairwise_append]
            refine ⟨h6, by simp, ?_⟩
            intro p hp q hq
            obtain ⟨⟨p', c'⟩, hm, rfl⟩ := List.mem_map.1 hp
            rw [List.mem_singleton.1 hq]
            exact (h7 p' c' hm).1
          · intro p c' hm
            rcases List.mem_append.1 hm with hm | hm
            · obtain ⟨h10, id', h11, h12⟩ := h7 p c' hm
              exact ⟨Nat.lt_succ_of_lt h10, id', h11, h12⟩
            · simp only [List.mem_singleton, Prod.mk.injEq] at hm
              obtain ⟨rfl, rfl⟩ := hm
              exact ⟨Nat.lt_succ_self _, id, hid, C34_own_id h0 hc⟩
          · intro p c' hm hl
            rcases List.mem_append.1 hm with hm | hm
            · exact h8 p c' hm hl
            · simp only [List.mem_singleton, Prod.mk.injEq] at hm
              obtain ⟨rfl, rfl⟩ := hm
              intro hcl
              have := C36_not_closed_partial h0 hl hc
              have := (hI.a.ret _ (h4.log _ hcl)).2
              simp_all
          · intro p id' c' k x h10 h11 h12 h13 h14
            by_cases hpp : p < w.pos
            · exact List.mem_append_left _ (h9 p id' c' k x hpp h11 h12 h13 h14)
            · have : p = w.pos := Nat.le_antisymm (Nat.le_of_lt_succ h10) (Nat.le_of_not_lt hpp)
              subst this
              have : id = id' := by rw [hid] at h11; simpa using h11
              subst this
              have := C36_reachable_partial h0 h14 (h4.log _ h12) h13
              rw [hc] at this
              simp only [Option.some.injEq] at this
              subst this
              simp
        · next hc =>
          simp only [Option.some.injEq] at hs; subst hs
          refine ⟨⟨as, h0⟩, hset i _ ?_, h2⟩
          refine ⟨h3, h4, hlt, h6, ?_, h8, ?_⟩
          · intro p c' hm
            obtain ⟨h10, id', h11, h12⟩ := h7 p c' hm
            exact ⟨Nat.lt_succ_of_lt h10, id', h11, h12⟩
          · intro p id' c' k x h10 h11 h12 h13 h14
            by_cases hpp : p < w.pos
            · exact h9 p id' c' k x hpp h11 h12 h13 h14
            · have : p = w.pos := Nat.le_antisymm (Nat.le_of_lt_succ h10) (Nat.le_of_not_lt hpp)
              subst this
              have : id = id' := by rw [hid] at h11; simpa using h11
              subst this
              have := C36_reachable_partial h0 h14 (h4.log _ h12) h13
              simp [hc] at this
      · next hn =>
        simp only [Option.some.injEq] at hs; subst hs
        refine ⟨⟨as, h0⟩, hset i _ trivial, hlog _ ⟨⟨as, h0⟩, ⟨h3, h4, h5, h6, h7, h8, h9⟩, ?_⟩⟩
        have := List.getElem?_eq_none_iff.1 hn
        omega
    · simp at hs
  | info id =>
    simp only [wkStep, Option.some.injEq] at hs; subst hs
    refine ⟨⟨as, h0⟩, h1, hlog _ ⟨fun c hc => ⟨C34_own_id h0 hc, fun hl hcl => ?_⟩, fun hl c k x hx hu => C36_reachable_partial h0 hl hx hu⟩⟩
    have := C36_not_closed_partial h0 hl hc
    have := (hI.a.ret _ hcl).2
    simp_all
  | pushID =>
    simp only [wkStep, Option.some.injEq] at hs; subst hs
    exact ⟨⟨as, h0⟩, h1, hlog _ trivial⟩

/-- **C87, WalkConn.** In every execution, with connections coming, registering and closing at any moment: a call of WalkConn
that has returned visited no connection twice, none whose Close had returned before the call, and - unless it was stopped - every
connection that was there when it began and that nobody had begun to close when it ended. -/
theorem C87_walk {acts : List WkAct} {s : WkSt} (hrun : wkRun acts = some s) {w : Walk} {to1 : QSt} {stopped : Bool}
    (hw : .walked w to1 stopped ∈ s.log) :
    w.visited.Nodup ∧ (∀ c ∈ w.visited, c < to1.n ∧ .closeRet c ∉ w.from0.log) ∧
    (stopped = false → ∀ c, c < w.from0.n → to1.untrack c = false → c ∈ w.visited) := by
  obtain ⟨⟨as, hr⟩, h1, h2⟩ := (WkInv.reach hrun).evs _ hw
  refine ⟨h1.nodup, ?_, ?_⟩
  · intro c hc
    have h3 := h1.seen c (h1.sub c hc)
    refine ⟨h3.1, fun hcl => ?_⟩
    obtain ⟨bs, hb⟩ := h1.run
    have h4 := C33_close_returns hb hcl
    have hlt : c < w.from0.n := by
      have hI := QInv.reach hb
      refine hI.d.un_lt c ?_
      cases hu : w.from0.untrack c with
      | true => rfl
      | false => have := (hI.a.notun c hu).2.2.1; omega
    have := h3.2 hlt
    simp [h4.2.2.1] at this
  · intro hs c hc hu
    refine h2 hs c (Nat.lt_of_lt_of_le hc h1.le.n) (h1.whole c hc ?_)
    cases ha : to1.active c with
    | true => rfl
    | false =>
      have := (QAct1.reach hr).act c (Nat.lt_of_lt_of_le hc h1.le.n) ha
      simp [hu] at this

/-- **C87, WalkConnByID** calls the function for increasing positions of the list of ids, at most once for each, with a connection
whose id is at that position. In executions where no connection is closed before or during its SetID: not with one whose Close
had returned before the call; and for every position whose id was set, before the call, on a connection that nobody has begun to
close when it ended. Missing: without the condition this is false, see `C87_refuted_missed`, `C87_refuted_closed`. -/
theorem C87_byID_partial {acts : List WkAct} {s : WkSt} (hrun : wkRun acts = some s) {w : WalkID} {to1 : QSt}
    (hw : .walkedID w to1 ∈ s.log) :
    (w.hits.map Prod.fst).Pairwise (· < ·) ∧
    (∀ p c, (p, c) ∈ w.hits → ∃ id, w.ids[p]? = some id ∧ to1.idOf c = some id) ∧
    (to1.late = false → (∀ p c, (p, c) ∈ w.hits → .closeRet c ∉ w.from0.log) ∧
      ∀ p id c k x, w.ids[p]? = some id → .setRet c id k x ∈ w.from0.log → to1.untrack c = false → (p, c) ∈ w.hits) := by
  obtain ⟨_, h1, h2⟩ := (WkInv.reach hrun).evs _ hw
  refine ⟨h1.sorted, fun p c hc => (h1.hits p c hc).2, fun hl => ⟨fun p c hc => h1.open_ p c hc hl, ?_⟩⟩
  intro p id c k x h3 h4 h5
  refine h1.all p id c k x ?_ h3 h4 h5 hl
  rw [h2]; exact (List.getElem?_eq_some_iff.1 h3).1

/-- **C87, GetConnectionInfoByID** returns a connection with the id it was asked for or nil. In executions where no connection is
closed before or during its SetID: not one whose Close had returned; and if the id was set on a connection that nobody has begun to
close, that one. Missing: as for `C87_byID_partial`. -/
theorem C87_info_partial {acts : List WkAct} {s : WkSt} (hrun : wkRun acts = some s) {id : Nat} {r : Option Nat} {q : QSt}
    (hw : .info id r q ∈ s.log) :
    (∀ c, r = some c → q.idOf c = some id ∧ (q.late = false → .closeRet c ∉ q.log)) ∧
    (q.late = false → ∀ c k x, .setRet c id k x ∈ q.log → q.untrack c = false → r = some c) :=
  (WkInv.reach hrun).evs _ hw

/-- Three connections; a walk begins, visits 2; connection 1 is closed completely and a fourth one comes; the walk visits 0 and
3 - it could also have visited 1 - and ends. A second walk visits 0 only and is stopped. -/
def exWalk : List WkAct :=
  [.reg .newConn, .reg .newConn, .reg .newConn, .walk 0, .visit 0 2 false, .reg (.close 5 1)] ++
  (steps 5 8).map .reg ++ [.reg .newConn, .visit 0 0 false, .visit 0 3 false, .walkEnd 0, .walk 0, .visit 0 0 true]

/-- What a walk has visited, whether it was stopped; the connections there at its begin. -/
def walksOf (l : List WkEv) : List (List Nat × Bool × Nat) := l.filterMap fun e => match e with
  | .walked w _ st => some (w.visited, st, w.from0.n)
  | _ => none

example : (wkRun exWalk).map (fun s => (walksOf s.log, s.q.log)) =
    some ([([2, 0, 3], false, 3), ([0], true, 4)], [.closeRet 1]) := by decide +kernel

/-- Connection 0 has id 7, connection 1 id 8; the walk by ids 8, 9, 7, 8. -/
def exWalkID : List WkAct :=
  [.reg .newConn, .reg .newConn, .reg (.setID 5 0 7)] ++ (steps 5 3).map .reg ++ [.reg (.setID 6 1 8)] ++ (steps 6 3).map .reg ++
  [.byID 0 [8, 9, 7, 8], .next 0, .next 0, .next 0, .next 0, .next 0]

def hitsOf (l : List WkEv) : List (List (Nat × Nat)) := l.filterMap fun e => match e with
  | .walkedID w _ => some w.hits
  | _ => none

example : (wkRun exWalkID).map (fun s => (hitsOf s.log, s.q.late, s.q.log)) =
    some ([[(0, 1), (2, 0), (3, 1)]], false, [.stored 0 7, .setRet 0 7 false 0, .stored 1 8, .setRet 1 8 false 0]) := by
  decide +kernel

/-- With these ids, two calls; then connection 1 is closed completely, and a third. -/
def exInfo : List WkAct :=
  exWalkID ++ [.info 8, .info 9, .reg (.close 5 1)] ++ (steps 5 8).map .reg ++ [.info 8]

def infosOf (l : List WkEv) : List (Nat × Option Nat × Bool × List QEv) := l.filterMap fun e => match e with
  | .info id r q => some (id, r, q.late, q.log.drop 3)
  | _ => none

example : (wkRun exInfo).map (fun s => infosOf s.log) =
    some [(8, some 1, false, [.setRet 1 8 false 0]), (9, none, false, [.setRet 1 8 false 0]),
      (8, none, false, [.setRet 1 8 false 0, .closeRet 1])] := by
  decide +kernel

/-- **C87 is false of the code**, first: a connection closed before its `SetID` is found by WalkConnByID ever after. -/
theorem C87_refuted_closed :
    (wkRun ([.reg .newConn, .reg (.close 0 0)] ++ (steps 0 8).map .reg ++ [.reg (.setID 0 0 7)] ++ (steps 0 3).map .reg ++
      [.byID 0 [7], .next 0, .next 0, .info 7])).map (fun s => (hitsOf s.log, s.q.log)) =
    some ([[(0, 0)]], [.closeRet 0, .stored 0 7, .setRet 0 7 false 0]) := by decide +kernel

/-- **C87 is false of the code**, second: connection 1 has id 7 and nobody closes it, and WalkConnByID does not find it, since another
connection was closed inside its `SetID(7)`. -/
theorem C87_refuted_missed :
    (wkRun (exLostEntry.map .reg ++ [.byID 9 [7], .next 9, .next 9, .info 7])).map
      (fun s => (hitsOf s.log, (infosOf s.log).map (·.2.1), s.q.log, s.q.untrack 1, s.q.closed 1)) =
    some ([[]], [none], [.stored 1 7, .setRet 1 7 false 0, .closeRet 0], false, false) := by decide +kernel

/-! ## Push ids -/

def pushIDs (l : List WkEv) : List UInt64 := l.filterMap fun e => match e with
  | .pushID x => some x
  | _ => none

theorem pushIDs_append (l : List WkEv) (e : WkEv) : pushIDs (l ++ [e]) = pushIDs l ++ pushIDs [e] := by
  simp [pushIDs, List.filterMap_append]

theorem pushIDs_reach {acts : List WkAct} {s : WkSt} (hrun : wkRun acts = some s) :
    s.push = UInt64.ofNat (pushIDs s.log).length ∧
    pushIDs s.log = (List.range (pushIDs s.log).length).map fun k => UInt64.ofNat (k + 1) := by
  refine runActs_inv (P := fun s => s.push = UInt64.ofNat (pushIDs s.log).length ∧
    pushIDs s.log = (List.range (pushIDs s.log).length).map fun k => UInt64.ofNat (k + 1)) ?_ ⟨rfl, rfl⟩ hrun
  intro s a s' ⟨h1, h2⟩ hs
  cases a <;> simp only [wkStep] at hs <;> (repeat' split at hs) <;>
    (try simp only [Option.some.injEq, reduceCtorEq] at hs) <;> (try contradiction) <;> (try subst hs) <;>
    (try simp only [pushIDs_append]) <;> (try exact ⟨h1, h2⟩) <;>
    (try (simp only [pushIDs, List.filterMap_cons, List.filterMap_nil, List.append_nil] at h1 h2 ⊢; exact ⟨h1, h2⟩))
  have e1 : pushIDs [WkEv.pushID (s.push + 1)] = [s.push + 1] := rfl
  rw [e1]
  generalize pushIDs s.log = l at h1 h2
  simp only [List.length_append, List.length_cons, List.length_nil, Nat.zero_add]
  refine ⟨by rw [h1, UInt64.ofNat_add]; rfl, ?_⟩
  rw [List.range_succ, List.map_append, ← h2, h1]; simp [UInt64.ofNat_add]

/-- **C87, push ids.** In every execution with at most 2^64 calls of GetPushID no two calls returned the same id. -/
theorem C87_push {acts : List WkAct} {s : WkSt} (hrun : wkRun acts = some s) (hn : (pushIDs s.log).length ≤ 2 ^ 64) :
    (pushIDs s.log).Nodup := by
  have h := (pushIDs_reach hrun).2
  generalize (pushIDs s.log).length = n at h hn
  rw [h, List.nodup_iff_pairwise_ne, List.pairwise_map]
  refine (List.pairwise_lt_range (n := n)).imp_of_mem ?_
  intro a b ha hb hab he
  have ha := List.mem_range.1 ha
  have hb := List.mem_range.1 hb
  have := congrArg UInt64.toNat he
  simp only [UInt64.toNat_ofNat'] at this
  omega

example : (wkRun [.pushID, .reg .newConn, .pushID, .pushID]).map (fun s => pushIDs s.log) = some [1, 2, 3] := by decide +kernel

end Qrpc
