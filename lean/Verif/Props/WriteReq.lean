import Verif.Model.WriteReq
/-! # Property C105: recycled write requests carry the results of their own writes -/
namespace Qrpc

structure WqInv (s : WqSt) : Prop where
  noNil : ∀ o, s.nil o = false ∧ s.toNil o = false
  free : ∀ o, s.dfw o = none → s.res o = none ∧ s.lost o = false ∧ ∀ c, s.queue c o = 0 ∧ s.batch c o = 0
  pool : ∀ o, s.pool o ≤ 1 ∧ (0 < s.pool o → s.dfw o = none)
  full : ∀ o, s.res o ≠ none → s.lost o = false ∧ ∀ c, s.queue c o = 0 ∧ s.batch c o = 0
  own : ∀ o t, s.res o = some t → s.dfw o = some t
  once : ∀ o c, s.queue c o + s.batch c o ≤ 1 ∧ (0 < s.queue c o + s.batch c o → c = s.home o)
  got : ∀ i o, s.w i = .got o → s.dfw o = some i ∧ s.res o = none ∧ s.lost o = false ∧ ∀ c, s.queue c o = 0 ∧ s.batch c o = 0
  sent : ∀ i o, s.w i = .sent o → s.dfw o = some i ∧
    (s.res o = none → s.lost o = false → s.queue (s.home o) o + s.batch (s.home o) o = 1)
  done : ∀ i r, s.w i = .done r → r = i
  new : ∀ o, s.n ≤ o → s.dfw o = none ∧ s.pool o = 0
  lost : ∀ o, s.lost o = true → ∀ c, s.queue c o = 0 ∧ s.batch c o = 0

theorem WqInv.init : WqInv WqSt.init := by
  constructor <;> simp [WqSt.init]

theorem WqInv.step {s s' : WqSt} {a : WqAct} (h : WqInv s) (hp : a.plain = true) (hs : wqStep s a = some s') : WqInv s' := by
  obtain ⟨h1, h2, h3, h4, h5, h6, h7, h8, h9, h10, h11⟩ := h
  cases a with
  | new i =>
    simp only [wqStep] at hs
    split at hs <;> cases hs
    constructor <;> simp only [setAt, setAt2] <;> grind
  | get i o =>
    simp only [wqStep] at hs
    split at hs <;> cases hs
    constructor <;> simp only [setAt, setAt2] <;> grind
  | send i c =>
    simp only [wqStep] at hs
    split at hs <;> cases hs
    constructor <;> simp only [setAt, setAt2] <;> grind
  | leave i =>
    simp only [wqStep] at hs
    split at hs <;> cases hs
    all_goals constructor <;> simp only [setAt, setAt2] <;> grind
  | collect c o =>
    simp only [wqStep] at hs
    split at hs <;> cases hs
    constructor <;> simp only [setAt, setAt2] <;> grind
  | reject c o =>
    simp only [wqStep, WqSt.answerReq] at hs
    (repeat' split at hs) <;> cases hs
    constructor <;> simp only [setAt, setAt2] <;> grind
  | answer c o =>
    simp only [wqStep, WqSt.answerReq] at hs
    (repeat' split at hs) <;> cases hs
    constructor <;> simp only [setAt, setAt2] <;> grind
  | collide c o => cases hp
  | setNil o =>
    simp only [wqStep] at hs
    split at hs <;> cases hs
    grind
  | skip c o =>
    simp only [wqStep] at hs
    split at hs <;> cases hs
    grind
  | forget c o =>
    simp only [wqStep] at hs
    split at hs <;> cases hs
    constructor <;> simp only [setAt, setAt2] <;> grind
  | take i =>
    simp only [wqStep] at hs
    (repeat' split at hs) <;> cases hs
    constructor <;> simp only [setAt, setAt2] <;> grind
  | drop o =>
    simp only [wqStep] at hs
    cases hs
    constructor <;> simp only [setAt, setAt2] <;> grind

theorem WqInv.reach {acts : List WqAct} {s : WqSt} (hp : ∀ a ∈ acts, a.plain = true) (hr : wqRun acts = some s) : WqInv s := by
  have key : ∀ (acts : List WqAct) (s0 : WqSt), WqInv s0 → (∀ a ∈ acts, a.plain = true) → runActs wqStep s0 acts = some s → WqInv s := by
    intro acts
    induction acts with
    | nil => intro s0 h0 _ hr; simp only [runActs, Option.some.injEq] at hr; exact hr ▸ h0
    | cons a as ih =>
      intro s0 h0 hp hr
      simp only [runActs] at hr
      split at hr
      · cases hr
      · next hs => exact ih _ (h0.step (hp a (List.mem_cons_self ..)) hs) (fun b hb => hp b (List.mem_cons_of_mem _ hb)) hr
  exact key acts _ WqInv.init hp hr

/-- **C105 (partial).** As long as no request id is used twice: a write returns the result of its own frame, on whichever connection its
request was used before; the goroutine that answers never finds a full or missing channel or a missing frame; a request in the pool is empty, and
no queue, batch or other write knows it; and the request of a write that has no result yet is in its connection's queue or batch, unless
that connection ended. -/
theorem C105_partial {acts : List WqAct} {s : WqSt} (hp : ∀ a ∈ acts, a.plain = true) (hr : wqRun acts = some s) :
    (∀ i r, s.w i = .done r → r = i) ∧
    (∀ c o, 0 < s.batch c o → ∃ s', wqStep s (.answer c o) = some s') ∧
    (∀ c o, 0 < s.queue c o → (∃ s', wqStep s (.collect c o) = some s') ∧ ∃ s', wqStep s (.reject c o) = some s') ∧
    (∀ o, 0 < s.pool o → s.pool o = 1 ∧ s.res o = none ∧ (∀ c, s.queue c o = 0 ∧ s.batch c o = 0) ∧
      ∀ i, s.w i ≠ .got o ∧ s.w i ≠ .sent o) ∧
    (∀ i j o, s.w i = .sent o → s.w j = .sent o → i = j) ∧
    (∀ i o, s.w i = .sent o → (s.res o = some i ∧ ∃ s', wqStep s (.take i) = some s') ∨ s.lost o = true ∨
      ∃ c, s.queue c o + s.batch c o = 1) := by
  obtain ⟨h1, h2, h3, h4, h5, h6, h7, h8, h9, h10, h11⟩ := WqInv.reach hp hr
  refine ⟨h9, ?_, ?_, ?_, ?_, ?_⟩
  · intro c o hb
    have hd : s.dfw o ≠ none := fun h => by have := (h2 o h).2.2 c; omega
    have hres : s.res o = none := by
      cases h : s.res o with
      | none => rfl
      | some t => have := (h4 o (by simp [h])).2 c; omega
    obtain ⟨f, hf⟩ := Option.ne_none_iff_exists'.1 hd
    exact ⟨_, by simp only [wqStep, hb, if_true, WqSt.answerReq, hres, (h1 o).1, hf, and_self, Option.map_some]; rfl⟩
  · intro c o hb
    have hd : s.dfw o ≠ none := fun h => by have := (h2 o h).2.2 c; omega
    have hres : s.res o = none := by
      cases h : s.res o with
      | none => rfl
      | some t => have := (h4 o (by simp [h])).2 c; omega
    obtain ⟨f, hf⟩ := Option.ne_none_iff_exists'.1 hd
    refine ⟨⟨_, by simp only [wqStep, hb, hd, ne_eq, not_false_eq_true, and_self, if_true]; rfl⟩,
      ⟨_, by simp only [wqStep, hb, if_true, WqSt.answerReq, hres, (h1 o).1, hf, and_self, Option.map_some]; rfl⟩⟩
  · intro o ho
    have hd := (h3 o).2 ho
    have := (h3 o).1
    refine ⟨by omega, (h2 o hd).1, (h2 o hd).2.2, fun i => ⟨fun e => ?_, fun e => ?_⟩⟩
    · have := (h7 i o e).1; rw [hd] at this; cases this
    · have := (h8 i o e).1; rw [hd] at this; cases this
  · intro i j o hi hj
    have a := (h8 i o hi).1
    rw [(h8 j o hj).1] at a
    exact (Option.some.inj a).symm
  · intro i o hi
    cases h : s.res o with
    | some t =>
      have a := h5 o t h
      rw [(h8 i o hi).1] at a
      cases a
      exact .inl ⟨rfl, _, by simp only [wqStep, hi, h]; rfl⟩
    | none =>
      cases hl : s.lost o with
      | true => exact .inr (.inl rfl)
      | false => exact .inr (.inr ⟨_, (h8 i o hi).2 h hl⟩)

/-- Write 0 on connection 0 is answered while write 1's request waits for connection 1; write 2 reuses the first request on connection 1. -/
def wqGood : List WqAct :=
  [.new 0, .send 0 0, .new 1, .send 1 1, .collect 0 0, .answer 0 0, .take 0, .get 2 0, .send 2 1, .collect 1 1, .collect 1 0, .answer 1 0]

example : (∀ a ∈ wqGood, a.plain = true) ∧ (wqRun wqGood).map (fun s => (s.w 0, s.w 1, s.w 2, s.res 0, s.pool 0, s.batch 1 1)) =
    some (.done 0, .sent 1, .sent 0, some 2, 0, 1) := by decide

/-- Write 0 is refused because its request id is in use; write 1, on another connection, gets the same request. -/
def wqBad : List WqAct :=
  [.new 0, .send 0 0, .collect 0 0, .collide 0 0, .take 0, .setNil 0, .get 1 0, .send 1 1, .collect 1 0, .skip 1 0]

/-- **C105 is false of the code** if a request id is used twice (which needs 2^63 requests on one connection): the request goes back
into the pool without a channel, and a later write of any connection that gets it never returns its result, though its frame was written. -/
theorem C105_refuted : ∃ s, wqRun wqBad = some s ∧ (∀ c o, WqAct.forget c o ∉ wqBad) ∧ s.w 0 = .done 0 ∧ s.w 1 = .sent 0 ∧
    ∀ acts s', runActs wqStep s acts = some s' → s'.w 1 = .sent 0 ∨ s'.w 1 = .left := by
  cases h : wqRun wqBad with
  | none => exact absurd h (by decide)
  | some s =>
    have e : (wqRun wqBad).map (fun s => (s.w 0, s.w 1, s.nil 0, s.res 0)) = some (.done 0, .sent 0, true, none) := by decide
    rw [h] at e
    simp only [Option.map_some, Option.some.injEq, Prod.mk.injEq] at e
    refine ⟨s, rfl, by simp [wqBad], e.1, e.2.1, ?_⟩
    intro acts s' hr
    have inv : ∀ s', runActs wqStep s acts = some s' → (s'.w 1 = .sent 0 ∨ s'.w 1 = .left) ∧ s'.nil 0 = true ∧ s'.res 0 = none := by
      intro s' hr
      refine runActs_inv (P := fun s => (s.w 1 = .sent 0 ∨ s.w 1 = .left) ∧ s.nil 0 = true ∧ s.res 0 = none) ?_ ⟨.inl e.2.1, e.2.2.1, e.2.2.2⟩ hr
      intro s a s' h hs
      cases a <;> simp only [wqStep, WqSt.answerReq] at hs
      all_goals (repeat' split at hs)
      all_goals first
        | (cases hs; done)
        | (simp only [Option.map_none] at hs; cases hs; done)
        | (simp only [Option.map_some, Option.some.injEq] at hs; subst hs; grind [setAt])
    exact (inv s' hr).1

end Qrpc
