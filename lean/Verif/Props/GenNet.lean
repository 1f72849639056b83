import Verif.Model.GenNet
import Verif.Props.ApiNet
/-! # C115: generated calls over the connections of the client -/
namespace Qrpc
open Spec

/-- Counter value and iteration of a call under way. -/
def GNPc.turn : GNPc → Option (UInt32 × Nat)
  | .idle => none
  | .top idx k | .req idx k | .asked idx k | .sub idx k _ | .wait idx k _ | .rst idx k _ | .rsting idx k _ => some (idx, k)

/-- The request of this iteration, once it is submitted. -/
def GNPc.tk : GNPc → Option Nat
  | .sub _ _ t | .wait _ _ t | .rst _ _ t | .rsting _ _ t => some t
  | _ => none

def GNPc.isTop : GNPc → Bool
  | .top .. => true
  | _ => false

/-- The write of `t` returned an error to the caller. -/
def Spec.WriteFailed (e : ESt) (t : Nat) : Prop := ∃ r, r ≠ CRes.ok ∧ (t, r) ∈ e.c.rets

theorem WriteFailed.keeps {c : CConf} {e e' : ESt} {a : EAct} (hs : eStep c e a = some e') {t : Nat} (h : WriteFailed e t) : WriteFailed e' t := by
  obtain ⟨r, h1, h2⟩ := h
  exact ⟨r, h1, (eStep_keeps hs).2.1 _ h2⟩

structure GNInv (conf : CConf) (n : Nat) (cmd : Cmd) (dialed : Nat → Bool) (s : GNSt) : Prop where
  conR : ∀ c, ∃ acts, eRun conf (dialed c) acts = some (s.con c)
  noLt : ∀ i, s.pc i ≠ .idle → s.no i < s.calls.length
  noInj : ∀ i j, s.pc i ≠ .idle → s.pc j ≠ .idle → s.no i = s.no j → i = j
  load : ∀ q m, s.calls[q]? = some m → m.marshal = some (s.load q)
  tameP : ∀ c i p b, ((s.con c).c.pc i = .check p b ∨ (s.con c).c.pc i = .genId p b) → p = false
  tameO : ∀ c i f, ((s.con c).c.pc i).own = some f → f.resp = true ∨ f.rid % 2 = 0 ∨ f = rstFrame f.rid
  tameF : ∀ c, ∀ f ∈ (s.con c).c.frames, f.resp = true ∨ f.rid % 2 = 0 ∨ f = rstFrame f.rid
  ask : ∀ c i, ((s.con c).c.pc i).isRq = true → ∃ idx k, s.pc i = .asked idx k ∧ genPos n idx k = c
  askB : ∀ c i f, ((s.con c).c.pc i).own = some f → f.resp = true → f.bytes = apiFrame f.rid cmd (s.load (s.no i))
  kLt : ∀ i idx k, (s.pc i).turn = some (idx, k) → (s.pc i).isTop = false → k < n
  subW : conf.reconnect = true → ∀ i idx k t, s.pc i = .sub idx k t →
    (∃ g, (s.con (genPos n idx k)).c.pc i = .wait t g) ∨
      ((s.con (genPos n idx k)).c.pc i = .idle ∧ ∃ r, (t, r) ∈ (s.con (genPos n idx k)).c.rets)
  wt : ∀ i idx k t, s.pc i = .wait idx k t → (t, CRes.ok) ∈ (s.con (genPos n idx k)).c.rets
  last : ∀ i idx k t, (s.pc i).turn = some (idx, k) → (s.pc i).tk = some t → (s.no i, genPos n idx k, t) ∈ s.reqs
  req : ∀ q c t, (q, c, t) ∈ s.reqs → q < s.calls.length ∧ Requested (s.con c) t cmd (s.load q)
  earlier : ∀ i idx k, (s.pc i).turn = some (idx, k) → ∀ c t, (s.no i, c, t) ∈ s.reqs →
    (∃ k', k' < k ∧ c = genPos n idx k' ∧ (conf.reconnect = true → WriteFailed (s.con c) t)) ∨ ((s.pc i).tk = some t ∧ c = genPos n idx k)
  dist : s.reqs.Pairwise fun a b => a.2 ≠ b.2
  once : s.reqs.Pairwise fun a b => a.1 = b.1 → a.2.1 ≠ b.2.1 ∧ (conf.reconnect = true → WriteFailed (s.con a.2.1) a.2.2)
  out : ∀ q c t f, (q, GNRes.frame c t f) ∈ s.out → (q, c, t) ∈ s.reqs ∧ (t, CRes.ok) ∈ (s.con c).c.rets ∧ REv.frame f ∈ (s.con c).c.revs t
  outQ : ∀ q r, (q, r) ∈ s.out → q < s.calls.length ∧ ∀ i, s.pc i ≠ .idle → s.no i ≠ q
  outD : s.out.Pairwise fun a b => a.1 ≠ b.1
  all : ∀ c t f, (s.con c).c.frames[t]? = some f → f.resp = true → ∃ q, (q, c, t) ∈ s.reqs
  conN : ∀ q c t, (q, c, t) ∈ s.reqs → c < n
  na : ∀ q, (q, GNRes.na) ∈ s.out → ∀ c t, (q, c, t) ∈ s.reqs → conf.reconnect = true → WriteFailed (s.con c) t

theorem GNInv.init (conf : CConf) (n : Nat) (cmd : Cmd) (dialed : Nat → Bool) : GNInv conf n cmd dialed (GNSt.init dialed) := by
  constructor <;> simp [GNSt.init, ESt.init, CSt.init, CPc.own, CPc.isRq, GNPc.turn]
  intro c
  exact ⟨[], rfl⟩

theorem asked_tk {p : GNPc} {idx : UInt32} {k : Nat} (h : p = .asked idx k) : p.turn = some (idx, k) ∧ p.tk = none ∧ p.isTop = false ∧ p ≠ .idle := by
  subst h; simp [GNPc.turn, GNPc.tk, GNPc.isTop]

/-! The steps that are not steps of a connection. -/

theorem GNInv.call {conf : CConf} {n : Nat} {cmd : Cmd} {dialed : Nat → Bool} {s s' : GNSt} {i : Nat} {m : RpcReq} (h : GNInv conf n cmd dialed s)
    (hs : gnStep conf n cmd s (.call i m) = some s') : GNInv conf n cmd dialed s' := by
  obtain ⟨conR, noLt, noInj, load, tameP, tameO, tameF, ask, askB, kLt, subW, wt, last, req, earlier, dist, once, out, outQ, outD, all, conN, na⟩ := h
  simp only [gnStep] at hs
  split at hs
  · next b hp hm =>
    cases hs
    have hreq : ∀ q c t, (q, c, t) ∈ s.reqs → q ≠ s.calls.length := fun q c t hq => Nat.ne_of_lt (req q c t hq).1
    have hno : ∀ c j f, ((s.con c).c.pc j).own = some f → f.resp = true → s.pc j ≠ .idle := by
      intro c j f hf hr
      obtain ⟨idx, k, e, -⟩ := ask c j (CPc.own_isRq hf hr)
      rw [e]; simp
    constructor
    all_goals try first | assumption | grind [setAt, GNPc.turn, GNPc.tk, GNPc.isTop]
  · cases hs

theorem GNInv.go {conf : CConf} {n : Nat} {cmd : Cmd} {dialed : Nat → Bool} {s s' : GNSt} {i : Nat} (h : GNInv conf n cmd dialed s)
    (hs : gnStep conf n cmd s (.go i) = some s') : GNInv conf n cmd dialed s' := by
  obtain ⟨conR, noLt, noInj, load, tameP, tameO, tameF, ask, askB, kLt, subW, wt, last, req, earlier, dist, once, out, outQ, outD, all, conN, na⟩ := h
  simp only [gnStep] at hs
  split at hs
  · next idx k hp =>
    split at hs
    · next hg =>
      cases hs
      constructor
      all_goals try first | assumption | grind [setAt, GNPc.turn, GNPc.tk, GNPc.isTop]
    · cases hs
      have hna : ∀ c t, (s.no i, c, t) ∈ s.reqs → conf.reconnect = true → WriteFailed (s.con c) t := by
        intro c t h1 h2
        rcases earlier i idx k (by rw [hp]; rfl) c t h1 with ⟨-, -, -, h3⟩ | ⟨h3, -⟩
        · exact h3 h2
        · rw [hp] at h3; cases h3
      constructor
      all_goals try first | assumption | grind [setAt, GNPc.turn, GNPc.tk, GNPc.isTop]
  · cases hs

theorem GNInv.sent {conf : CConf} {n : Nat} {cmd : Cmd} {dialed : Nat → Bool} {s s' : GNSt} {i : Nat} (h : GNInv conf n cmd dialed s)
    (hs : gnStep conf n cmd s (.sent i) = some s') : GNInv conf n cmd dialed s' := by
  obtain ⟨conR, noLt, noInj, load, tameP, tameO, tameF, ask, askB, kLt, subW, wt, last, req, earlier, dist, once, out, outQ, outD, all, conN, na⟩ := h
  simp only [gnStep] at hs
  split at hs
  · next idx k t hp =>
    split at hs
    · next hg =>
      cases hs
      constructor
      all_goals try first | assumption | grind [setAt, GNPc.turn, GNPc.tk, GNPc.isTop]
    · cases hs
  · cases hs

theorem GNInv.failed {conf : CConf} {n : Nat} {cmd : Cmd} {dialed : Nat → Bool} {s s' : GNSt} {i : Nat} (h : GNInv conf n cmd dialed s)
    (hs : gnStep conf n cmd s (.failed i) = some s') : GNInv conf n cmd dialed s' := by
  obtain ⟨conR, noLt, noInj, load, tameP, tameO, tameF, ask, askB, kLt, subW, wt, last, req, earlier, dist, once, out, outQ, outD, all, conN, na⟩ := h
  simp only [gnStep] at hs
  split at hs
  · next idx k hp =>
    split at hs
    · next hg =>
      cases hs
      have hno : ∀ c, ((s.con c).c.pc i).isRq = false := by
        intro c
        cases hq : ((s.con c).c.pc i).isRq with
        | false => rfl
        | true =>
          obtain ⟨idx', k', e, e'⟩ := ask c i hq
          rw [hp] at e
          first
            | (cases e; done)
            | (cases e; subst e'; rw [hg] at hq; cases hq)
      constructor
      all_goals try first | assumption | grind [setAt, GNPc.turn, GNPc.tk, GNPc.isTop]
    · cases hs
  · next idx k t hp =>
    split at hs
    · next hg =>
      cases hs
      have hd : conf.reconnect = true → WriteFailed (s.con (genPos n idx k)) t := by
        intro hc
        rcases subW hc i idx k t hp with ⟨g, hw⟩ | ⟨-, r, hr⟩
        · rw [hg.1] at hw; cases hw
        · exact ⟨r, fun e => hg.2 (e ▸ hr), hr⟩
      have hno : ∀ c, ((s.con c).c.pc i).isRq = false := by
        intro c
        cases hq : ((s.con c).c.pc i).isRq with
        | false => rfl
        | true =>
          obtain ⟨idx', k', e, e'⟩ := ask c i hq
          rw [hp] at e
          first
            | (cases e; done)
            | (cases e; subst e'; rw [hg] at hq; cases hq)
      constructor
      all_goals try first | assumption | grind [setAt, GNPc.turn, GNPc.tk, GNPc.isTop]
    · cases hs
  · cases hs

theorem GNInv.got {conf : CConf} {n : Nat} {cmd : Cmd} {dialed : Nat → Bool} {s s' : GNSt} {i : Nat} {f : InFrame} (h : GNInv conf n cmd dialed s)
    (hs : gnStep conf n cmd s (.got i f) = some s') : GNInv conf n cmd dialed s' := by
  obtain ⟨conR, noLt, noInj, load, tameP, tameO, tameF, ask, askB, kLt, subW, wt, last, req, earlier, dist, once, out, outQ, outD, all, conN, na⟩ := h
  simp only [gnStep] at hs
  split at hs
  · next idx k t hp =>
    split at hs
    · next hg =>
      cases hs
      constructor
      all_goals try first | assumption | grind [setAt, GNPc.turn, GNPc.tk, GNPc.isTop]
    · cases hs
  · cases hs

theorem GNInv.gaveUp {conf : CConf} {n : Nat} {cmd : Cmd} {dialed : Nat → Bool} {s s' : GNSt} {i : Nat} (h : GNInv conf n cmd dialed s)
    (hs : gnStep conf n cmd s (.gaveUp i) = some s') : GNInv conf n cmd dialed s' := by
  obtain ⟨conR, noLt, noInj, load, tameP, tameO, tameF, ask, askB, kLt, subW, wt, last, req, earlier, dist, once, out, outQ, outD, all, conN, na⟩ := h
  simp only [gnStep] at hs
  split at hs
  · next idx k t hp =>
    cases hs
    constructor
    all_goals try first | assumption | grind [setAt, GNPc.turn, GNPc.tk, GNPc.isTop]
  · cases hs

theorem GNInv.reset {conf : CConf} {n : Nat} {cmd : Cmd} {dialed : Nat → Bool} {s s' : GNSt} {i : Nat} (h : GNInv conf n cmd dialed s)
    (hs : gnStep conf n cmd s (.reset i) = some s') : GNInv conf n cmd dialed s' := by
  obtain ⟨conR, noLt, noInj, load, tameP, tameO, tameF, ask, askB, kLt, subW, wt, last, req, earlier, dist, once, out, outQ, outD, all, conN, na⟩ := h
  simp only [gnStep] at hs
  split at hs
  · next idx k t hp =>
    split at hs
    · next hg =>
      cases hs
      constructor
      all_goals try first | assumption | grind [setAt, GNPc.turn, GNPc.tk, GNPc.isTop]
    · cases hs
  · cases hs

/-! ## Steps of a connection -/

theorem cStep_rest {conf : CConf} {s s' : CSt} {a : CAct} (hs : cStep conf s a = some s') (j : Nat) :
    (s.pc j = .idle → s'.pc j = .idle ∨ (∃ p b, a = .request j p b) ∨ ∃ f, a = .send j f) ∧
    (conf.reconnect = true → ∀ t g, s.pc j = .wait t g → s'.pc j = .wait t g ∨ (s'.pc j = .idle ∧ ∃ r, (t, r) ∈ s'.rets)) := by
  cstep_cases hs a
  all_goals try first
    | exact ⟨fun h => .inl h, fun _ _ _ h => .inl h⟩
    | grind [setAt]
  all_goals
    simp only [setAt]
    split
    · next e =>
      subst e
      first
        | exact ⟨fun _ => .inr (.inl ⟨_, _, rfl⟩), fun _ _ _ h => by simp_all⟩
        | exact ⟨fun _ => .inr (.inr ⟨_, rfl⟩), fun _ _ _ h => by simp_all⟩
    · exact ⟨fun h => .inl h, fun _ _ _ h => .inl h⟩

theorem eStep_rest {conf : CConf} {e e' : ESt} {a : EAct} (hs : eStep conf e a = some e') (j : Nat) :
    (e.c.pc j = .idle → e'.c.pc j = .idle ∨ (∃ p b, a = .cl (.request j p b)) ∨ ∃ f, a = .cl (.send j f)) ∧
    (conf.reconnect = true → ∀ t g, e.c.pc j = .wait t g → e'.c.pc j = .wait t g ∨ (e'.c.pc j = .idle ∧ ∃ r, (t, r) ∈ e'.c.rets)) := by
  cases a with
  | cl a =>
    simp only [eStep] at hs
    split at hs
    · obtain ⟨c', h1, rfl⟩ := Option.map_eq_some_iff.1 hs
      obtain ⟨h2, h3⟩ := cStep_rest h1 j
      refine ⟨fun h => ?_, h3⟩
      rcases h2 h with h | ⟨p, b, rfl⟩ | ⟨f, rfl⟩
      · exact .inl h
      · exact .inr (.inl ⟨p, b, rfl⟩)
      · exact .inr (.inr ⟨f, rfl⟩)
    · cases hs
  | sRead g =>
    simp only [eStep] at hs
    split at hs <;> cases hs
    exact ⟨fun h => .inl h, fun _ _ _ h => .inl h⟩
  | sSend g f =>
    simp only [eStep] at hs
    split at hs <;> cases hs
    exact ⟨fun h => .inl h, fun _ _ _ h => .inl h⟩
  | recv =>
    simp only [eStep] at hs
    split at hs
    · obtain ⟨c', h1, rfl⟩ := Option.map_eq_some_iff.1 hs
      obtain ⟨h2, h3⟩ := cStep_rest h1 j
      refine ⟨fun h => ?_, h3⟩
      rcases h2 h with h | ⟨p, b, h4⟩ | ⟨f, h4⟩
      · exact .inl h
      all_goals cases h4
    · cases hs

/-- The four kinds of steps of a connection. -/
theorem gnCon_cases {conf : CConf} {n : Nat} {cmd : Cmd} {s s' : GNSt} {c : Nat} {a : EAct} (hs : gnCon conf n cmd s c a = some s') :
    ∃ e', eStep conf (s.con c) a = some e' ∧
      ((s' = { s with con := setAt s.con c e' } ∧ (∀ i p b, a ≠ .cl (.request i p b)) ∧
          (∀ i p b, a = .cl (.go i) → (s.con c).c.pc i = .genId p b → b = apiFrame (clientRid ((s.con c).c.ridGen + 1)) cmd (s.load (s.no i))) ∧
          (∀ i f, a = .cl (.send i f) → f.rid % 2 = 0 ∧ s.pc i = .idle) ∧
          (∀ i f g, a = .cl (.enq i) → (s.con c).c.pc i = .enq f g → f.resp = false)) ∨
       (∃ i b idx k, a = .cl (.request i false b) ∧ s.pc i = .req idx k ∧ genPos n idx k = c ∧
          s' = { s with con := setAt s.con c e', pc := setAt s.pc i (.asked idx k) }) ∨
       (∃ i f g idx k, a = .cl (.enq i) ∧ (s.con c).c.pc i = .enq f g ∧ f.resp = true ∧ s.pc i = .asked idx k ∧
          s' = { s with con := setAt s.con c e', pc := setAt s.pc i (.sub idx k (s.con c).c.frames.length)
                        reqs := s.reqs ++ [(s.no i, c, (s.con c).c.frames.length)] }) ∨
       (∃ i idx k t, a = .cl (.send i (rstFrame (cframeOf (s.con c).c.frames t).rid)) ∧ s.pc i = .rst idx k t ∧ genPos n idx k = c ∧
          s' = { s with con := setAt s.con c e', pc := setAt s.pc i (.rsting idx k t) })) := by
  unfold gnCon at hs
  split at hs
  · next i p b =>
    split at hs
    · next idx k h1 =>
      split at hs
      · next hg =>
        obtain ⟨e', hb, rfl⟩ := Option.map_eq_some_iff.1 hs
        obtain ⟨h2, rfl⟩ := hg
        exact ⟨e', hb, .inr (.inl ⟨i, b, idx, k, rfl, h1, h2, rfl⟩)⟩
      · cases hs
    · cases hs
  · next i =>
    split at hs
    · next p b h1 =>
      split at hs
      · next hg =>
        obtain ⟨e', hb, rfl⟩ := Option.map_eq_some_iff.1 hs
        refine ⟨e', hb, .inl ⟨rfl, by simp, ?_, by simp, by simp⟩⟩
        intro j p' b' ha h
        cases ha
        rw [h1] at h; cases h
        exact hg
      · cases hs
    · next h1 =>
      obtain ⟨e', hb, rfl⟩ := Option.map_eq_some_iff.1 hs
      refine ⟨e', hb, .inl ⟨rfl, by simp, ?_, by simp, by simp⟩⟩
      intro j p' b' ha h
      cases ha
      exact absurd h (h1 _ _)
  · next i =>
    split at hs
    · next f g h1 =>
      split at hs
      · next hg =>
        split at hs
        · next idx k h2 =>
          obtain ⟨e', hb, rfl⟩ := Option.map_eq_some_iff.1 hs
          exact ⟨e', hb, .inr (.inr (.inl ⟨i, f, g, idx, k, rfl, h1, hg, h2, rfl⟩))⟩
        · cases hs
      · next hg =>
        obtain ⟨e', hb, rfl⟩ := Option.map_eq_some_iff.1 hs
        refine ⟨e', hb, .inl ⟨rfl, by simp, by simp, by simp, ?_⟩⟩
        intro j f' g' ha h
        cases ha
        rw [h1] at h; cases h
        simpa using hg
    · cases hs
  · next i f =>
    split at hs
    · next h1 =>
      split at hs
      · next hg =>
        obtain ⟨e', hb, rfl⟩ := Option.map_eq_some_iff.1 hs
        refine ⟨e', hb, .inl ⟨rfl, by simp, by simp, ?_, by simp⟩⟩
        intro j f' ha
        cases ha
        exact ⟨hg, h1⟩
      · cases hs
    · next idx k t h1 =>
      split at hs
      · next hg =>
        obtain ⟨e', hb, rfl⟩ := Option.map_eq_some_iff.1 hs
        obtain ⟨h2, rfl⟩ := hg
        exact ⟨e', hb, .inr (.inr (.inr ⟨i, idx, k, t, rfl, h1, h2, rfl⟩))⟩
      · cases hs
    · cases hs
  · next h1 h2 h3 h4 =>
    obtain ⟨e', hb, rfl⟩ := Option.map_eq_some_iff.1 hs
    refine ⟨e', hb, .inl ⟨rfl, h1, ?_, ?_, ?_⟩⟩
    · intro i p b h; exact absurd h (h2 i)
    · intro i f h; exact absurd h (h4 i f)
    · intro i f g h; exact absurd h (h3 i)

/-- What a step of connection `c` keeps. -/
structure GNKeep (conf : CConf) (n : Nat) (cmd : Cmd) (dialed : Nat → Bool) (s : GNSt) (c : Nat) (a : EAct) (con' : Nat → ESt) : Prop where
  conR : ∀ c, ∃ acts, eRun conf (dialed c) acts = some (con' c)
  reqd : ∀ c' t cmd p, Requested (s.con c') t cmd p → Requested (con' c') t cmd p
  rets : ∀ c' x, x ∈ (s.con c').c.rets → x ∈ (con' c').c.rets
  revs : ∀ c' t x, x ∈ (s.con c').c.revs t → x ∈ (con' c').c.revs t
  wf : ∀ c' t, WriteFailed (s.con c') t → WriteFailed (con' c') t
  tameP : ∀ c i p b, ((con' c).c.pc i = .check p b ∨ (con' c).c.pc i = .genId p b) → p = false
  tameO : ∀ c i f, ((con' c).c.pc i).own = some f → f.resp = true ∨ f.rid % 2 = 0 ∨ f = rstFrame f.rid
  tameF : ∀ c, ∀ f ∈ (con' c).c.frames, f.resp = true ∨ f.rid % 2 = 0 ∨ f = rstFrame f.rid
  all : ∀ c' t f, (con' c').c.frames[t]? = some f → (s.con c').c.frames[t]? = some f ∨
    (c' = c ∧ t = (s.con c).c.frames.length ∧ ∃ i g, a = .cl (.enq i) ∧ (s.con c).c.pc i = .enq f g)
  askB : ∀ c i f, ((con' c).c.pc i).own = some f → f.resp = true → f.bytes = apiFrame f.rid cmd (s.load (s.no i))
  ask : ∀ c' i, ((con' c').c.pc i).isRq = true →
    (((s.con c').c.pc i).isRq = true ∧ (c' = c → a ≠ .cl (.enq i))) ∨ (c' = c ∧ ∃ p b, a = .cl (.request i p b))
  subW : conf.reconnect = true → ∀ i idx k t, s.pc i = .sub idx k t → (∀ p b, a ≠ .cl (.request i p b)) → (∀ f, a ≠ .cl (.send i f)) →
    (∃ g, (con' (genPos n idx k)).c.pc i = .wait t g) ∨
      ((con' (genPos n idx k)).c.pc i = .idle ∧ ∃ r, (t, r) ∈ (con' (genPos n idx k)).c.rets)

theorem GNInv.keep {conf : CConf} {n : Nat} {cmd : Cmd} {dialed : Nat → Bool} {s : GNSt} {c : Nat} {a : EAct} {e' : ESt} (h : GNInv conf n cmd dialed s)
    (he : eStep conf (s.con c) a = some e') (G1 : ∀ i p b, a = .cl (.request i p b) → p = false)
    (G2 : ∀ i p b, a = .cl (.go i) → (s.con c).c.pc i = .genId p b → b = apiFrame (clientRid ((s.con c).c.ridGen + 1)) cmd (s.load (s.no i)))
    (G3 : ∀ i f, a = .cl (.send i f) → f.rid % 2 = 0 ∨ f = rstFrame f.rid) :
    GNKeep conf n cmd dialed s c a (setAt s.con c e') := by
  obtain ⟨p1, p2⟩ := eStep_pc he
  obtain ⟨q1, q2, q3⟩ := eStep_keeps he
  have hat : ∀ c' : Nat, setAt s.con c e' c' = if c' = c then e' else s.con c' := fun c' => rfl
  refine ⟨?_, ?_, ?_, ?_, ?_, ?_, ?_, ?_, ?_, ?_, ?_, ?_⟩
  · intro c'
    rw [hat]
    split
    · next e => subst e; exact eRun_snoc (h.conR c') he
    · exact h.conR c'
  · intro c' t cmd p hq
    rw [hat]
    split
    · next e => subst e; exact Requested.keeps he hq
    · exact hq
  · intro c' x hx
    rw [hat]
    split
    · next e => subst e; exact q2 x hx
    · exact hx
  · intro c' t x hx
    rw [hat]
    split
    · next e => subst e; exact q3 t x hx
    · exact hx
  · intro c' t hx
    rw [hat]
    split
    · next e => subst e; exact WriteFailed.keeps he hx
    · exact hx
  · intro c' i p b
    rw [hat]
    split
    · intro hi
      rcases p2 i with hp | hp | ⟨t, g, hp⟩ | ⟨p', b', ha, hp⟩ | ⟨f, ha, hp, -⟩ | ⟨ha, ⟨p', b', ho, hp⟩ | ⟨p', b', ho, hp⟩ | ⟨f, g, ho, hp⟩⟩
      · rw [hp] at hi; exact h.tameP c i p b hi
      · simp [hp] at hi
      · simp [hp] at hi
      · simp only [hp, CPc.check.injEq, reduceCtorEq, or_false] at hi
        rw [← hi.1]; exact G1 i p' b' ha
      · simp [hp] at hi
      · simp only [hp, CPc.genId.injEq, reduceCtorEq, false_or] at hi
        rw [← hi.1]; exact h.tameP c i p' b' (.inl ho)
      · simp [hp] at hi
      · simp [hp] at hi
    · exact h.tameP c' i p b
  · intro c' i f
    rw [hat]
    split
    · intro hi
      rcases p2 i with hp | hp | ⟨t, g, hp⟩ | ⟨p', b', ha, hp⟩ | ⟨f', ha, hp, -⟩ | ⟨ha, ⟨p', b', ho, hp⟩ | ⟨p', b', ho, hp⟩ | ⟨f', g, ho, hp⟩⟩
      · rw [hp] at hi; exact h.tameO c i f hi
      · simp [hp, CPc.own] at hi
      · simp [hp, CPc.own] at hi
      · simp [hp, CPc.own] at hi
      · simp only [hp, CPc.own, Option.some.injEq] at hi
        subst hi; exact .inr (G3 i f' ha)
      · simp [hp, CPc.own] at hi
      · simp only [hp, CPc.own, Option.some.injEq] at hi
        subst hi
        left
        rw [h.tameP c i p' b' (.inr ho)]; rfl
      · simp only [hp, CPc.own, Option.some.injEq] at hi
        subst hi
        exact h.tameO c i f' (by rw [ho]; rfl)
    · exact h.tameO c' i f
  · intro c'
    rw [hat]
    split
    · intro f hf
      rcases p1 with hp | ⟨i, f', g, -, hi, hp⟩
      · rw [hp] at hf; exact h.tameF c f hf
      · rw [hp] at hf
        rcases List.mem_append.1 hf with hf | hf
        · exact h.tameF c f hf
        · cases List.mem_singleton.1 hf
          exact h.tameO c i f (by rw [hi]; rfl)
    · exact h.tameF c'
  · intro c' t f
    rw [hat]
    split
    · next e =>
      subst e
      intro hf
      rcases p1 with hp | ⟨i, f', g, ha, hi, hp⟩
      · rw [hp] at hf; exact .inl hf
      · rw [hp, List.getElem?_append] at hf
        split at hf
        · exact .inl hf
        · next hl =>
          obtain ⟨h1, h2⟩ := List.getElem?_eq_some_iff.1 hf
          simp only [List.length_singleton] at h1
          simp only [List.getElem_singleton] at h2
          subst h2
          exact .inr ⟨rfl, by omega, i, g, ha, hi⟩
    · exact .inl
  · intro c' i f
    rw [hat]
    split
    · intro hi hr
      rcases p2 i with hp | hp | ⟨t, g, hp⟩ | ⟨p', b', ha, hp⟩ | ⟨f', ha, hp, hf⟩ | ⟨ha, ⟨p', b', ho, hp⟩ | ⟨p', b', ho, hp⟩ | ⟨f', g, ho, hp⟩⟩
      · rw [hp] at hi; exact h.askB c i f hi hr
      · simp [hp, CPc.own] at hi
      · simp [hp, CPc.own] at hi
      · simp [hp, CPc.own] at hi
      · simp only [hp, CPc.own, Option.some.injEq] at hi
        subst hi; rw [hf] at hr; cases hr
      · simp [hp, CPc.own] at hi
      · simp only [hp, CPc.own, Option.some.injEq] at hi
        subst hi
        exact G2 i p' b' ha ho
      · simp only [hp, CPc.own, Option.some.injEq] at hi
        subst hi
        exact h.askB c i f' (by rw [ho]; rfl) hr
    · exact h.askB c' i f
  · intro c' i
    rw [hat]
    split
    · next e =>
      subst e
      intro hi
      rcases p2 i with hp | hp | ⟨t, g, hp⟩ | ⟨p', b', ha, hp⟩ | ⟨f', ha, hp, hf⟩ | ⟨ha, ⟨p', b', ho, hp⟩ | ⟨p', b', ho, hp⟩ | ⟨f', g, ho, hp⟩⟩
      · refine .inl ⟨by rw [← hp]; exact hi, ?_⟩
        rintro - rfl
        obtain ⟨f, g, k1, k2, -⟩ := enq_pc he
        rw [k2] at hi; cases hi
      · rw [hp] at hi; cases hi
      · rw [hp] at hi; cases hi
      · exact .inr ⟨rfl, p', b', ha⟩
      · rw [hp] at hi; simp [CPc.isRq, hf] at hi
      · exact .inl ⟨by rw [ho]; rfl, by rw [ha]; simp⟩
      · exact .inl ⟨by rw [ho]; rfl, by rw [ha]; simp⟩
      · refine .inl ⟨?_, by rw [ha]; simp⟩
        rw [hp] at hi; rw [ho]; exact hi
    · next e => exact fun hi => .inl ⟨hi, fun e' => absurd e' e⟩
  · intro hc i idx k t hi h1 h2
    rw [hat]
    split
    · next e =>
      obtain ⟨r1, r2⟩ := eStep_rest he i
      rcases h.subW hc i idx k t hi with ⟨g, hw⟩ | ⟨hw, r, hr⟩
      · rw [e] at hw
        rcases r2 hc t g hw with k | k
        · exact .inl ⟨g, k⟩
        · exact .inr k
      · rw [e] at hw hr
        rcases r1 hw with k | ⟨p, b, k⟩ | ⟨f, k⟩
        · exact .inr ⟨k, r, q2 _ hr⟩
        · exact absurd k (h1 p b)
        · exact absurd k (h2 f)
    · exact h.subW hc i idx k t hi

/-- Any step of a connection that does not submit a request. -/
theorem GNInv.pass {conf : CConf} {n : Nat} {cmd : Cmd} {dialed : Nat → Bool} {s : GNSt} {c : Nat} {a : EAct} {con' : Nat → ESt} {pc' : Nat → GNPc}
    (h : GNInv conf n cmd dialed s) (K : GNKeep conf n cmd dialed s c a con')
    (hpc : ∀ i, (pc' i = s.pc i ∧ (∀ p b, a ≠ .cl (.request i p b)) ∧ ((∀ f, a ≠ .cl (.send i f)) ∨ s.pc i = .idle)) ∨
      (∃ idx k, s.pc i = .req idx k ∧ genPos n idx k = c ∧ pc' i = .asked idx k) ∨ ∃ idx k t, s.pc i = .rst idx k t ∧ pc' i = .rsting idx k t ∧ ∀ p b, a ≠ .cl (.request i p b))
    (hq : ∀ i f g, a = .cl (.enq i) → (s.con c).c.pc i = .enq f g → f.resp = false) :
    GNInv conf n cmd dialed { s with con := con', pc := pc' } := by
  have same : ∀ i, (pc' i).turn = (s.pc i).turn ∧ (pc' i).tk = (s.pc i).tk ∧ (pc' i).isTop = (s.pc i).isTop ∧ (pc' i = .idle ↔ s.pc i = .idle) ∧
      (∀ idx k t, pc' i = .wait idx k t → s.pc i = .wait idx k t) ∧
      (∀ idx k t, pc' i = .sub idx k t → s.pc i = .sub idx k t) ∧ (∀ idx k, s.pc i = .asked idx k → pc' i = .asked idx k) := by
    intro i
    rcases hpc i with ⟨e, -⟩ | ⟨idx, k, e, -, e'⟩ | ⟨idx, k, t, e, e', -⟩
    · rw [e]; simp
    · rw [e, e']; simp [GNPc.turn, GNPc.tk, GNPc.isTop]
    · rw [e, e']; simp [GNPc.turn, GNPc.tk, GNPc.isTop]
  constructor
  · exact K.conR
  · intro i hi; exact h.noLt i fun e => hi ((same i).2.2.2.1.2 e)
  · intro i j hi hj; exact h.noInj i j (fun e => hi ((same i).2.2.2.1.2 e)) (fun e => hj ((same j).2.2.2.1.2 e))
  · exact h.load
  · exact K.tameP
  · exact K.tameO
  · exact K.tameF
  · intro c' i hi
    rcases K.ask c' i hi with ⟨h1, -⟩ | ⟨rfl, p, b, ha⟩
    · obtain ⟨idx, k, h2, h3⟩ := h.ask c' i h1
      exact ⟨idx, k, (same i).2.2.2.2.2.2 idx k h2, h3⟩
    · rcases hpc i with ⟨-, e, -⟩ | ⟨idx, k, e, e2, e'⟩ | ⟨idx, k, t, e, e', e3⟩
      · exact absurd ha (e p b)
      · exact ⟨idx, k, e', e2⟩
      · exact absurd ha (e3 p b)
  · exact K.askB
  · intro i idx k
    show (pc' i).turn = _ → (pc' i).isTop = _ → _
    rw [(same i).1, (same i).2.2.1]; exact h.kLt i idx k
  · intro hc i idx k t hi
    have hi' := (same i).2.2.2.2.2.1 idx k t hi
    rcases hpc i with ⟨-, e, e2⟩ | ⟨idx', k', e, e2, e'⟩ | ⟨idx', k', t', e, e', -⟩
    · refine K.subW hc i idx k t hi' e ?_
      rcases e2 with e2 | e2
      · exact e2
      · rw [hi'] at e2; cases e2
    · rw [e] at hi'; cases hi'
    · rw [e] at hi'; cases hi'
  · intro i idx k t hi
    exact K.rets _ _ (h.wt i idx k t ((same i).2.2.2.2.1 idx k t hi))
  · intro i idx k t
    show (pc' i).turn = _ → (pc' i).tk = _ → _
    rw [(same i).1, (same i).2.1]; exact h.last i idx k t
  · intro q c' t hq
    obtain ⟨h1, h2⟩ := h.req q c' t hq
    exact ⟨h1, K.reqd _ _ _ _ h2⟩
  · intro i idx k
    show (pc' i).turn = _ → ∀ c t, _ → (_ ∨ ((pc' i).tk = _ ∧ _))
    rw [(same i).1, (same i).2.1]
    intro h1 c' t h2
    rcases h.earlier i idx k h1 c' t h2 with ⟨k', h3, h4, h5⟩ | h3
    · exact .inl ⟨k', h3, h4, fun hc => K.wf _ _ (h5 hc)⟩
    · exact .inr h3
  · exact h.dist
  · exact h.once.imp fun h1 h2 => ⟨(h1 h2).1, fun hc => K.wf _ _ ((h1 h2).2 hc)⟩
  · intro q c' t f hq
    obtain ⟨h1, h2, h3⟩ := h.out q c' t f hq
    exact ⟨h1, K.rets _ _ h2, K.revs _ _ _ h3⟩
  · intro q r hq
    obtain ⟨h1, h2⟩ := h.outQ q r hq
    exact ⟨h1, fun i hi => h2 i fun e => hi ((same i).2.2.2.1.2 e)⟩
  · exact h.outD
  · intro c' t f h1 h2
    rcases K.all c' t f h1 with h3 | ⟨-, -, i, g, h3, h4⟩
    · exact h.all c' t f h3 h2
    · rw [hq i f g h3 h4] at h2; cases h2
  · exact h.conN
  · exact fun q h1 c' t h2 hc => K.wf _ _ (h.na q h1 c' t h2 hc)

/-- Two of the first `n` turns of a call take the same connection only if they are the same. -/
theorem genPos_inj {n : Nat} {idx : UInt32} {k k' : Nat} (h : k < n) (h' : k' < n) (e : genPos n idx k = genPos n idx k') : k = k' := by
  unfold genPos at e
  have h1 := Nat.sub_mod_eq_zero_of_mod_eq e
  have h2 := Nat.sub_mod_eq_zero_of_mod_eq e.symm
  rw [Nat.mod_eq_of_lt (by omega)] at h1 h2
  omega

/-- A request is submitted. -/
theorem GNInv.submit {conf : CConf} {n : Nat} {cmd : Cmd} {dialed : Nat → Bool} {s : GNSt} {c i : Nat} {e' : ESt} {f : CFrame} {g : Nat}
    {idx : UInt32} {k : Nat} (h : GNInv conf n cmd dialed s) (K : GNKeep conf n cmd dialed s c (.cl (.enq i)) (setAt s.con c e'))
    (he : eStep conf (s.con c) (.cl (.enq i)) = some e') (hi : (s.con c).c.pc i = .enq f g) (hr : f.resp = true) (hp : s.pc i = .asked idx k) :
    GNInv conf n cmd dialed { s with con := setAt s.con c e', pc := setAt s.pc i (.sub idx k (s.con c).c.frames.length)
                                     reqs := s.reqs ++ [(s.no i, c, (s.con c).c.frames.length)] } := by
  obtain ⟨f', g', k3, k4, k5⟩ := enq_pc he
  rw [hi] at k3; cases k3
  obtain ⟨idx', k', k6, hc⟩ := h.ask c i (by rw [hi]; exact hr)
  rw [hp] at k6; cases k6
  obtain ⟨a1, a2, a3, a4⟩ := asked_tk hp
  have hkn := h.kLt i idx k a1 a3
  have hwf : conf.reconnect = true → ∀ c' t, (s.no i, c', t) ∈ s.reqs → WriteFailed (s.con c') t := by
    intro hcc c' t hq
    rcases h.earlier i idx k a1 c' t hq with ⟨k', -, -, h3⟩ | ⟨h3, -⟩
    · exact h3 hcc
    · rw [a2] at h3; cases h3
  have hne : ∀ c' t, (s.no i, c', t) ∈ s.reqs → c' ≠ c := by
    intro c' t hq e
    rcases h.earlier i idx k a1 c' t hq with ⟨k', h1, h2, h3⟩ | ⟨h3, -⟩
    · rw [e, ← hc] at h2
      have := genPos_inj hkn (Nat.lt_trans h1 hkn) h2
      omega
    · rw [a2] at h3; cases h3
  have hnew : Requested (setAt s.con c e' c) (s.con c).c.frames.length cmd (s.load (s.no i)) := by
    refine ⟨f, ?_, hr, h.askB c i f (by rw [hi]; rfl) hr⟩
    simp [setAt, k5]
  have hat : ∀ j x, setAt s.pc i x j = if j = i then x else s.pc j := fun j x => rfl
  have hisub : ∀ t, ∀ j, (setAt s.pc i (.sub idx k t) j) ≠ .idle → s.pc j ≠ .idle := by
    intro t j; rw [hat]
    split
    · next e => subst e; exact fun _ => a4
    · exact id
  constructor
  · exact K.conR
  · intro j hj; exact h.noLt j (hisub _ j hj)
  · intro j j' hj hj'; exact h.noInj j j' (hisub _ j hj) (hisub _ j' hj')
  · exact h.load
  · exact K.tameP
  · exact K.tameO
  · exact K.tameF
  · intro c' j hj
    rcases K.ask c' j hj with ⟨h1, h0⟩ | ⟨rfl, p, b, ha⟩
    · obtain ⟨idx', k', h2, h3⟩ := h.ask c' j h1
      refine ⟨idx', k', ?_, h3⟩
      show setAt s.pc i _ j = _
      rw [hat]
      split
      · next e =>
        subst e
        rw [hp] at h2; cases h2
        exact absurd rfl (h0 (h3.symm.trans hc))
      · exact h2
    · cases ha
  · exact K.askB
  · intro j idx' k'
    show (setAt s.pc i _ j).turn = _ → _ → _
    rw [hat]
    split
    · next e => intro h1 _; cases h1; exact hkn
    · next e =>
      intro h1 h2
      refine h.kLt j idx' k' h1 ?_
      have h2 : (setAt s.pc i _ j).isTop = _ := h2
      rwa [hat, if_neg e] at h2
  · intro hcc j idx' k' t hj
    have hj : setAt s.pc i _ j = _ := hj
    rw [hat] at hj
    split at hj
    · next e =>
      cases hj; subst e
      refine .inl ⟨g, ?_⟩
      simp only [hc, setAt, if_pos]
      exact k4
    · exact K.subW hcc j idx' k' t hj (by simp) (by simp)
  · intro j idx' k' t hj
    have hj : setAt s.pc i _ j = _ := hj
    rw [hat] at hj
    split at hj
    · cases hj
    · exact K.rets _ _ (h.wt j idx' k' t hj)
  · intro j idx' k' t h1 h2
    have h1 : (setAt s.pc i _ j).turn = _ := h1
    have h2 : (setAt s.pc i _ j).tk = _ := h2
    rw [hat] at h1 h2
    by_cases e : j = i
    · rw [if_pos e] at h1 h2; cases h1; cases h2; subst e
      rw [hc]; simp
    · rw [if_neg e] at h1 h2
      exact List.mem_append_left _ (h.last j idx' k' t h1 h2)
  · intro q c' t hq
    rcases List.mem_append.1 hq with hq | hq
    · obtain ⟨h1, h2⟩ := h.req q c' t hq
      exact ⟨h1, K.reqd _ _ _ _ h2⟩
    · cases List.mem_singleton.1 hq
      exact ⟨h.noLt i a4, hnew⟩
  · intro j idx' k' h1 c' t hq
    have h1 : (setAt s.pc i _ j).turn = _ := h1
    show _ ∨ ((setAt s.pc i _ j).tk = _ ∧ _)
    rw [hat] at h1 ⊢
    by_cases e : j = i
    · rw [if_pos e] at h1 ⊢; cases h1; subst e
      rcases List.mem_append.1 hq with hq | hq
      · rcases h.earlier j idx k a1 c' t hq with ⟨k', h1, h2, h3⟩ | ⟨h3, -⟩
        · exact .inl ⟨k', h1, h2, fun hcc => K.wf _ _ (h3 hcc)⟩
        · rw [a2] at h3; cases h3
      · cases List.mem_singleton.1 hq
        exact .inr ⟨rfl, hc.symm⟩
    · rw [if_neg e] at h1 ⊢
      rcases List.mem_append.1 hq with hq | hq
      · rcases h.earlier j idx' k' h1 c' t hq with ⟨k', h1, h2, h3⟩ | h3
        · exact .inl ⟨k', h1, h2, fun hcc => K.wf _ _ (h3 hcc)⟩
        · exact .inr h3
      · have := List.mem_singleton.1 hq
        simp only [Prod.mk.injEq] at this
        refine absurd (h.noInj j i ?_ a4 this.1) e
        intro e0; rw [e0] at h1; cases h1
  · refine List.pairwise_append.2 ⟨h.dist, List.pairwise_singleton _ _, ?_⟩
    rintro ⟨q, c', t⟩ hq b hb e
    cases List.mem_singleton.1 hb
    cases e
    exact absurd (Requested.lt (h.req _ _ _ hq).2) (Nat.lt_irrefl _)
  · refine List.pairwise_append.2 ⟨h.once.imp fun h1 h2 => ⟨(h1 h2).1, fun hc => K.wf _ _ ((h1 h2).2 hc)⟩, List.pairwise_singleton _ _, ?_⟩
    rintro ⟨q, c', t⟩ hq b hb e
    cases List.mem_singleton.1 hb
    cases e
    exact ⟨hne c' t hq, fun hcc => K.wf _ _ (hwf hcc c' t hq)⟩
  · intro q c' t f hq
    obtain ⟨h1, h2, h3⟩ := h.out q c' t f hq
    exact ⟨List.mem_append_left _ h1, K.rets _ _ h2, K.revs _ _ _ h3⟩
  · intro q r hq
    obtain ⟨h1, h2⟩ := h.outQ q r hq
    exact ⟨h1, fun j hj => h2 j (hisub _ j hj)⟩
  · exact h.outD
  · intro c' t f' h1 h2
    rcases K.all c' t f' h1 with h3 | ⟨rfl, rfl, -⟩
    · obtain ⟨q, hq⟩ := h.all c' t f' h3 h2
      exact ⟨q, List.mem_append_left _ hq⟩
    · exact ⟨s.no i, by simp⟩
  · intro q c' t hq
    rcases List.mem_append.1 hq with hq | hq
    · exact h.conN q c' t hq
    · cases List.mem_singleton.1 hq
      rw [← hc]; exact Nat.mod_lt _ (by omega)
  · intro q h1 c' t hq hcc
    rcases List.mem_append.1 hq with hq | hq
    · exact K.wf _ _ (h.na q h1 c' t hq hcc)
    · cases List.mem_singleton.1 hq
      exact absurd rfl ((h.outQ _ _ h1).2 i a4)

theorem GNInv.con {conf : CConf} {n : Nat} {cmd : Cmd} {dialed : Nat → Bool} {s s' : GNSt} {c : Nat} {a : EAct} (h : GNInv conf n cmd dialed s)
    (hs : gnCon conf n cmd s c a = some s') : GNInv conf n cmd dialed s' := by
  obtain ⟨e', he, ⟨rfl, h1, h2, h3, h4⟩ | ⟨i, b, idx, k, rfl, h1, h2, rfl⟩ | ⟨i, f, g, idx, k, rfl, h1, h2, h3, rfl⟩ | ⟨i, idx, k, t, rfl, h1, h2, rfl⟩⟩ :=
    gnCon_cases hs
  · have K := h.keep he (fun i p b ha => absurd ha (h1 i p b)) h2 (fun i f ha => .inl (h3 i f ha).1)
    refine h.pass K (fun i => .inl ⟨rfl, h1 i, ?_⟩) h4
    by_cases hf : ∃ f, a = .cl (.send i f)
    · obtain ⟨f, hf⟩ := hf
      exact .inr (h3 i f hf).2
    · exact .inl fun f hf' => hf ⟨f, hf'⟩
  · have K := h.keep he (by simp) (by simp) (by simp)
    refine h.pass K (fun j => ?_) (by simp)
    by_cases e : j = i
    · subst e; exact .inr (.inl ⟨idx, k, h1, h2, by simp [setAt]⟩)
    · exact .inl ⟨by simp [setAt, e], by simp [Ne.symm e], by simp⟩
  · have K := h.keep he (by simp) (by simp) (by simp)
    exact h.submit K he h1 h2 h3
  · have K := h.keep he (by simp) (by simp) (by
      intro j f hf; cases hf; exact .inr rfl)
    refine h.pass K (fun j => ?_) (by simp)
    by_cases e : j = i
    · subst e; exact .inr (.inr ⟨idx, k, t, h1, by simp [setAt], by simp⟩)
    · exact .inl ⟨by simp [setAt, e], by simp, by simp [Ne.symm e]⟩

theorem GNInv.step {conf : CConf} {n : Nat} {cmd : Cmd} {dialed : Nat → Bool} {s s' : GNSt} {a : GNAct} (h : GNInv conf n cmd dialed s)
    (hs : gnStep conf n cmd s a = some s') : GNInv conf n cmd dialed s' := by
  cases a with
  | call i m => exact h.call hs
  | go i => exact h.go hs
  | con c a => exact h.con hs
  | sent i => exact h.sent hs
  | failed i => exact h.failed hs
  | got i f => exact h.got hs
  | gaveUp i => exact h.gaveUp hs
  | reset i => exact h.reset hs

theorem GNInv.reach {conf : CConf} {n : Nat} {cmd : Cmd} {dialed : Nat → Bool} {acts : List GNAct} {s : GNSt}
    (h : gnRun conf n cmd dialed acts = some s) : GNInv conf n cmd dialed s :=
  runActs_inv (fun _ _ _ h hs => GNInv.step h hs) (GNInv.init conf n cmd dialed) h

theorem rstBytes_layout (id : UInt64) : rstBytes id = layout id 0 StreamRstFlag [] := by
  have hl : 16 ≤ DFW.new.wbuf.length := by decide
  have h1 := DFW.startWrite_holds DFW.new id 0 StreamRstFlag hl
  obtain ⟨sub, e1, e2, -⟩ := endWrite_ok h1 none (fun _ => (none : Option Unit)) (sentAs_noCodec none _ _ (by decide))
  rw [DFW.startWrite_payload _ _ _ _ hl, show DFW.new.payload = [] from rfl] at e2
  have h : (DFW.new.resetFrame none (fun _ => (none : Option Unit)) id 0).submitted = some sub := e1
  simp only [rstBytes, h]
  exact e2

/-- On a connection of the client the id of a request is nobody else's, but for resets. -/
theorem GNInv.uniq {conf : CConf} {n : Nat} {cmd : Cmd} {dialed : Nat → Bool} {s : GNSt} (h : GNInv conf n cmd dialed s) {c : Nat}
    (hr : (s.con c).c.ridGen < 2 ^ 63) {u t : Nat} {fu ft : CFrame} (hu : (s.con c).c.frames[u]? = some fu)
    (ht : (s.con c).c.frames[t]? = some ft) (hf : ft.resp = true) (hid : fu.rid = ft.rid) : u = t ∨ fu = rstFrame fu.rid := by
  obtain ⟨acts, he⟩ := h.conR c
  have hI := (EAll.reach he).i.i
  obtain ⟨hu1, hu2⟩ := List.getElem?_eq_some_iff.1 hu
  obtain ⟨ht1, ht2⟩ := List.getElem?_eq_some_iff.1 ht
  rcases h.tameF c fu (List.mem_of_getElem? hu) with h1 | h1 | h1
  · left
    have hpw := List.pairwise_iff_getElem.1 (hI.framesInj hr)
    rcases Nat.lt_trichotomy u t with hlt | rfl | hlt
    · exact absurd (by rw [hu2, ht2]; exact hid) (hpw u t hu1 ht1 hlt (by rw [hu2]; exact h1) (by rw [ht2]; exact hf))
    · rfl
    · exact absurd (by rw [hu2, ht2]; exact hid.symm) (hpw t u ht1 hu1 hlt (by rw [ht2]; exact hf) (by rw [hu2]; exact h1))
  · obtain ⟨g, -, -, hg⟩ := hI.inFrames ft (List.mem_of_getElem? ht) hf
    rw [hid, hg, (C20_parity g 0).1] at h1
    cases h1
  · exact .inr h1

/-- **C115, requests.** However the calls of a client interleave, and however often its connections break: every request on its
connections belongs to one call, has its marshalled bytes, the command of the client and no stream bits; a call makes at most one request on
each connection, so no more than there are connections; a call returns at most once. -/
theorem C115_requests {conf : CConf} {n : Nat} {cmd : Cmd} {dialed : Nat → Bool} {acts : List GNAct} {s : GNSt}
    (hrun : gnRun conf n cmd dialed acts = some s) :
    (∀ c t f, (s.con c).c.frames[t]? = some f → f.resp = true → ∃ q m b, (q, c, t) ∈ s.reqs ∧ s.calls[q]? = some m ∧ m.marshal = some b ∧
      f.bytes = layout f.rid cmd NBFlag b) ∧
    (∀ q q' c t, (q, c, t) ∈ s.reqs → (q', c, t) ∈ s.reqs → q = q') ∧
    (∀ q c t t', (q, c, t) ∈ s.reqs → (q, c, t') ∈ s.reqs → t = t') ∧
    (∀ q, (s.reqs.filter fun x => x.1 == q).length ≤ n) ∧
    ∀ q r r', (q, r) ∈ s.out → (q, r') ∈ s.out → r = r' := by
  have h := GNInv.reach hrun
  refine ⟨?_, ?_, ?_, ?_, ?_⟩
  · intro c t f h1 h2
    obtain ⟨q, hq⟩ := h.all c t f h1 h2
    obtain ⟨h3, f', h4, -, h5⟩ := h.req q c t hq
    rw [h1] at h4; cases h4
    have h6 : s.calls[q]? = some s.calls[q] := List.getElem?_eq_getElem h3
    exact ⟨q, s.calls[q], s.load q, hq, h6, h.load q _ h6, by rw [h5, apiFrame_layout]⟩
  · intro q q' c t h1 h2
    obtain ⟨i, hi⟩ := List.getElem?_of_mem h1
    obtain ⟨j, hj⟩ := List.getElem?_of_mem h2
    obtain ⟨hi1, hi2⟩ := List.getElem?_eq_some_iff.1 hi
    obtain ⟨hj1, hj2⟩ := List.getElem?_eq_some_iff.1 hj
    have hp := List.pairwise_iff_getElem.1 h.dist
    rcases Nat.lt_trichotomy i j with hl | rfl | hl
    · exact absurd (by rw [hi2, hj2]) (hp i j hi1 hj1 hl)
    · rw [hi2] at hj2; cases hj2; rfl
    · exact absurd (by rw [hi2, hj2]) (hp j i hj1 hi1 hl)
  · intro q c t t' h1 h2
    obtain ⟨i, hi⟩ := List.getElem?_of_mem h1
    obtain ⟨j, hj⟩ := List.getElem?_of_mem h2
    obtain ⟨hi1, hi2⟩ := List.getElem?_eq_some_iff.1 hi
    obtain ⟨hj1, hj2⟩ := List.getElem?_eq_some_iff.1 hj
    have hp := List.pairwise_iff_getElem.1 h.once
    rcases Nat.lt_trichotomy i j with hl | rfl | hl
    · exact absurd (by rw [hi2, hj2]) (hp i j hi1 hj1 hl (by rw [hi2, hj2])).1
    · rw [hi2] at hj2; cases hj2; rfl
    · exact absurd (by rw [hi2, hj2]) (hp j i hj1 hi1 hl (by rw [hi2, hj2])).1
  · intro q
    have hnd : ((s.reqs.filter fun x => x.1 == q).map fun x => x.2.1).Nodup := by
      rw [List.nodup_iff_pairwise_ne, List.pairwise_map]
      refine (h.once.sublist List.filter_sublist).imp_of_mem ?_
      intro a b ha hb hab
      have h1 := (List.mem_filter.1 ha).2
      have h2 := (List.mem_filter.1 hb).2
      simp only [beq_iff_eq] at h1 h2
      exact (hab (h1.trans h2.symm)).1
    have := hnd.length_le_of_subset (l₂ := List.range n) (by
      intro c hc
      obtain ⟨x, h1, rfl⟩ := List.mem_map.1 hc
      exact List.mem_range.2 (h.conN x.1 x.2.1 x.2.2 (List.mem_filter.1 h1).1))
    simpa using this
  · intro q r r' h1 h2
    obtain ⟨i, hi⟩ := List.getElem?_of_mem h1
    obtain ⟨j, hj⟩ := List.getElem?_of_mem h2
    obtain ⟨hi1, hi2⟩ := List.getElem?_eq_some_iff.1 hi
    obtain ⟨hj1, hj2⟩ := List.getElem?_eq_some_iff.1 hj
    have hp := List.pairwise_iff_getElem.1 h.outD
    rcases Nat.lt_trichotomy i j with hl | rfl | hl
    · exact absurd (by rw [hi2, hj2]) (hp i j hi1 hj1 hl)
    · rw [hi2] at hj2; cases hj2; rfl
    · exact absurd (by rw [hi2, hj2]) (hp j i hj1 hi1 hl)

/-- **C115.** A generated call is carried out at most once. In every execution of a client with its (reconnecting) connections, whatever their
servers do: the frames for which handlers are started on transport connection `g` of connection `c` are those of the submissions `ts c g`, in
order; among all of these, over all connections and transport connections, there is at most one request of each call; if the call
returned a frame, it is the one it got that frame for; and if the call returned ErrServiceNA, there is none. -/
theorem C115 {conf : CConf} (hc : conf.reconnect = true) {n : Nat} {cmd : Cmd} {dialed : Nat → Bool} {acts : List GNAct} {s : GNSt}
    (hrun : gnRun conf n cmd dialed acts = some s) (cfg : Nat → Nat → FrameReaderCfg) (fr : Nat → Nat → Frame)
    (henc : ∀ (c g t : Nat) (f : CFrame), (s.con c).c.frames[t]? = some f → Encodes (cfg c g) f.bytes (fr c t))
    (served : Nat → Nat → List Frame) (hsrv : ∀ c g, Serves (cfg c g) ((s.con c).c.wires g) (served c g)) :
    ∃ ts : Nat → Nat → List Nat, (∀ c g, served c g = (ts c g).map (fr c)) ∧ (∀ c g, (ts c g).Pairwise (· < ·)) ∧
      (∀ q c c' t t' g g', (q, c, t) ∈ s.reqs → (q, c', t') ∈ s.reqs → t ∈ ts c g → t' ∈ ts c' g' → c = c' ∧ t = t' ∧ g = g') ∧
      (∀ q c c' t t' f g, (q, .frame c' t' f) ∈ s.out → (q, c, t) ∈ s.reqs → t ∈ ts c g → c = c' ∧ t = t') ∧
      ∀ q c t g, (q, .na) ∈ s.out → (q, c, t) ∈ s.reqs → t ∉ ts c g := by
  have h := GNInv.reach hrun
  have key : ∀ c, ∃ ts : Nat → List Nat, (∀ g, served c g = (ts g).map (fr c)) ∧ (∀ g, (ts g).Pairwise (· < ·)) ∧
      (∀ g g' t, t ∈ ts g → t ∈ ts g' → g = g') ∧ ∀ g, ∀ t ∈ ts g, ∀ r, (t, r) ∈ (s.con c).c.rets → r = .ok := by
    intro c
    obtain ⟨eacts, he⟩ := h.conR c
    obtain ⟨cacts, hcr⟩ := eRun_client he
    exact C86_failed hcr (cfg c) (fr c) (henc c) (served c) (hsrv c)
  have nof : ∀ c t g, WriteFailed (s.con c) t → t ∉ Classical.choose (key c) g := by
    rintro c t g ⟨r, h1, h2⟩ hm
    exact h1 ((Classical.choose_spec (key c)).2.2.2 g t hm r h2)
  -- of two requests of a call at most one was written
  have two : ∀ q c c' t t', (q, c, t) ∈ s.reqs → (q, c', t') ∈ s.reqs → (c = c' ∧ t = t') ∨ WriteFailed (s.con c) t ∨ WriteFailed (s.con c') t' := by
    intro q c c' t t' h1 h2
    obtain ⟨i, hi⟩ := List.getElem?_of_mem h1
    obtain ⟨j, hj⟩ := List.getElem?_of_mem h2
    obtain ⟨hi1, hi2⟩ := List.getElem?_eq_some_iff.1 hi
    obtain ⟨hj1, hj2⟩ := List.getElem?_eq_some_iff.1 hj
    have hp := List.pairwise_iff_getElem.1 h.once
    rcases Nat.lt_trichotomy i j with hl | rfl | hl
    · have := (hp i j hi1 hj1 hl (by rw [hi2, hj2])).2 hc
      rw [hi2] at this; exact .inr (.inl this)
    · rw [hi2] at hj2; cases hj2; exact .inl ⟨rfl, rfl⟩
    · have := (hp j i hj1 hi1 hl (by rw [hi2, hj2])).2 hc
      rw [hj2] at this; exact .inr (.inr this)
  refine ⟨fun c => Classical.choose (key c), fun c => (Classical.choose_spec (key c)).1, fun c => (Classical.choose_spec (key c)).2.1, ?_, ?_, ?_⟩
  · intro q c c' t t' g g' h1 h2 h3 h4
    rcases two q c c' t t' h1 h2 with ⟨rfl, rfl⟩ | h5 | h5
    · exact ⟨rfl, rfl, (Classical.choose_spec (key c)).2.2.1 g g' t h3 h4⟩
    · exact absurd h3 (nof c t g h5)
    · exact absurd h4 (nof c' t' g' h5)
  · intro q c c' t t' f g h1 h2 h3
    obtain ⟨h4, h5, -⟩ := h.out q c' t' f h1
    rcases two q c c' t t' h2 h4 with h6 | h6 | ⟨r, h6, h7⟩
    · exact h6
    · exact absurd h3 (nof c t g h6)
    · obtain ⟨eacts, he⟩ := h.conR c'
      obtain ⟨cacts, hcr⟩ := eRun_client he
      obtain ⟨g', h8⟩ := (CInvW.reach hcr).okRets t' h5
      exact absurd h8 ((CInvX.reach hcr).rets t' r h7 h6 g')
  · intro q c t g h1 h2
    exact nof c t g (h.na q h1 c t h2 hc)

/-- **C115, the result.** If the connection `c` from which a call got its frame is wired to its server, which serves the command with the
generated service `S`: what the client makes of the frame is what `S` gives for the request of this call, and the server handled it. -/
theorem C115_result {conf : CConf} {n : Nat} {cmd : Cmd} {dialed : Nat → Bool} {acts : List GNAct} {s : GNSt}
    (hrun : gnRun conf n cmd dialed acts = some s) {q c t : Nat} {f : InFrame} (hout : (q, .frame c t f) ∈ s.out)
    (hr : (s.con c).c.ridGen < 2 ^ 63)
    {fr : Nat → Frame} {served : Nat → List Frame} {frs : Nat → Nat → Frame} {cnt : Nat → Nat} {ret : Nat → List Frame}
    (hw : Wired (s.con c) fr served frs cnt ret) {S : Service} {stack : Nat} {etext : PbErr → Bytes} {errCmd : Cmd}
    (hS : ∀ n ∈ S.names, (0x3a : UInt8) ∉ n.1 ∧ (0x3a : UInt8) ∉ n.2) (hcmd : cmd.toNat < 2 ^ 24) (herr : errCmd.toNat < 2 ^ 24)
    (hne : cmd ≠ errCmd) (hR : ∀ g, AnswerBy (ServiceAnswers S stack etext errCmd cmd) (served g) (frs g) (cnt g))
    {m : RpcReq} (hm : s.calls[q]? = some m) (hu : m.unrec = []) (hlen : (Spec.encode m).length < 2 ^ 63) :
    ∃ g k, k < cnt g ∧ f = (frs g k).toIn ∧ fr t ∈ served g ∧ S.Gives m (clientSees errCmd (frs g k)) := by
  have h := GNInv.reach hrun
  obtain ⟨h1, -, h3⟩ := h.out q c t f hout
  obtain ⟨-, ft, h4, h5, h6⟩ := h.req q c t h1
  obtain ⟨eacts, he⟩ := h.conR c
  obtain ⟨cfg, c1, -⟩ := hw.there
  have henc := c1 0 t ft h4
  rw [h6, apiFrame_layout] at henc
  have hfr := encodes_layout_flags (by decide) henc
  obtain ⟨g, i, k, q1, q2, -, q4, q5, q6⟩ := C110 he hr hw hS hcmd herr hne hR h3 (by
    intro u fu ft' hu ht hid
    rw [h4] at ht; cases ht
    refine (h.uniq hr hu h4 h5 hid).imp_right fun e => ?_
    have hu' := c1 0 u fu hu
    rw [e] at hu'
    simp only [rstFrame, rstBytes_layout] at hu'
    rw [encodes_layout_flags (by decide) hu']
    exact show FrameFlag.isRst StreamRstFlag = true by decide) (t := t) (by
      rw [hfr]
      simp only [Nat.mod_eq_of_lt hcmd, UInt32.ofNat_toNat]) hu hlen (by rw [hfr]; exact h.load q m hm)
  exact ⟨g, k, q1, q4, q5, q6⟩

/-! ## Executions

Two connections. The first call takes connection 1 first, where the transport fails after five bytes; then connection 0, where it is handled and
answered by the service of `gr_example`. -/

def cfgR : CConf := ⟨2, true, 1, false⟩

def gnA : RpcReq := ⟨[], [0x61], [7], []⟩

def gnAsk (c : Nat) : List GNAct :=
  ([.lGo, .lGo, .lGo, .request 0 false (layout 3 1 8 grA), .go 0, .go 0, .go 0, .enq 0, .wDeq true true, .wGo, .wGo] : List CAct).map fun a => .con c (.cl a)

def gnBreak (c : Nat) : List GNAct :=
  gnAsk c ++ ([.wWrite 5 false, .wGo, .recv 0] : List CAct).map (fun a => .con c (.cl a)) ++ [.failed 0]

def gnAnswered : List GNAct :=
  gnAsk 0 ++ ([.cl (.wWrite 22 true), .cl .wGo, .cl (.recv 0), .cl .rGo, .cl .rGo, .sRead 1, .sSend 1 (Frame.toIn ⟨3, 0, 1, [7, 7]⟩), .recv,
    .cl .rGo, .cl .rGo] : List EAct).map (fun a => .con 0 a) ++ [.sent 0, .got 0 (Frame.toIn ⟨3, 0, 1, [7, 7]⟩)]

def gnOne : List GNAct := [.call 0 gnA, .go 0] ++ gnBreak 1 ++ [.go 0] ++ gnAnswered

def gnSrcUp : Src := ⟨[], [.data ((layout 3 1 8 grA).take 9), .data ((layout 3 1 8 grA).drop 9)]⟩
def gnSrcDown : Src := ⟨[], [.data (layout 3 1 0 [7, 7])]⟩
def gnStreamsUp : List SAct := [.recv ⟨3, 8, 1, grA⟩, .rstep]
def gnStreamsDown : List SAct := [.wstart 3 8 true, .wstep, .wstep, .wstep, .recv ⟨3, 0, 1, [7, 7]⟩, .rstep, .rstep]
def gnDispatch : List RAct := [.rFrame (Frame.toR ⟨3, 8, 1, grA⟩), .rSend, .mGo, .mGo]
def gnServer : List GAct :=
  [.call 0 ⟨layout 3 1 0 [7, 7], false, false, false, false⟩, .enq 0, .lock 0, .go 0, .go 0, .deq 0 true true, .go 0, .go 0, .write 0 18 true]

theorem gnServes : Serves ⟨100, none⟩ (layout 3 1 8 grA) [⟨3, 8, 1, grA⟩] := by
  have h1 : okFrames (readN ⟨100, none⟩ 1 gnSrcUp).1 = some [⟨3, 8, 1, grA⟩] := by decide +kernel
  have h2 : (sRun SSt.init gnStreamsUp).map (fun t => (t.recv, returned t.log)) = some ([⟨3, 8, 1, grA⟩], [⟨3, 8, 1, grA⟩]) := by decide +kernel
  have h3 : (rdRun ⟨0, 0, 0, false⟩ 0 gnDispatch).map (fun u => (u.arr.map Prod.fst, u.log.filterMap startOf)) =
      some ([Frame.toR ⟨3, 8, 1, grA⟩], [0]) := by decide +kernel
  obtain ⟨t, h5, h6⟩ := Option.map_eq_some_iff.1 h2
  obtain ⟨u, h7, h8⟩ := Option.map_eq_some_iff.1 h3
  simp only [Prod.mk.injEq] at h6 h8
  refine ⟨gnSrcUp, 1, _, gnStreamsUp, t, _, 0, gnDispatch, u, ?_, okFrames_ok h1, h5, h6.1, h7, ?_, ?_⟩
  · exact (by decide +kernel : srcBytes gnSrcUp = layout 3 1 8 grA) ▸ List.prefix_refl _
  · rw [h8.1, h6.2]; exact List.prefix_refl _
  · rw [h8.2, h6.2]; rfl

theorem gnArrives : ∃ (gs : GSt), gRun 2 gnServer = some gs ∧ gs.frames.map (·.bytes) = [layout 3 1 0 [7, 7]] ∧
    Arrives ⟨0, none⟩ gs.wire [⟨3, 0, 1, [7, 7]⟩] [⟨3, 0, 1, [7, 7]⟩] := by
  have h1 : (gRun 2 gnServer).map (fun s => (s.wire, s.frames.map (·.bytes))) =
      some (layout 3 1 0 [7, 7], [layout 3 1 0 [7, 7]]) := by decide +kernel
  have h2 : okFrames (readN ⟨0, none⟩ 1 gnSrcDown).1 = some [⟨3, 0, 1, [7, 7]⟩] := by decide +kernel
  have h3 : (sRun SSt.init gnStreamsDown).map (fun t => (t.recv, returned t.log)) = some ([⟨3, 0, 1, [7, 7]⟩], [⟨3, 0, 1, [7, 7]⟩]) := by
    decide +kernel
  obtain ⟨gs, h4, h5⟩ := Option.map_eq_some_iff.1 h1
  obtain ⟨t, h6, h7⟩ := Option.map_eq_some_iff.1 h3
  simp only [Prod.mk.injEq] at h5 h7
  refine ⟨gs, h4, h5.2, gnSrcDown, 1, gnStreamsDown, t, ?_, okFrames_ok h2, h6, h7.1, h7.2.symm⟩
  rw [h5.1]
  exact (by decide +kernel : srcBytes gnSrcDown = layout 3 1 0 [7, 7]) ▸ List.prefix_refl _

/-- The connection a step is of. -/
def GNAct.of : GNAct → Option Nat
  | .con c _ => some c
  | _ => none

theorem gnStep_other {conf : CConf} {n : Nat} {cmd : Cmd} {s s' : GNSt} {a : GNAct} (hs : gnStep conf n cmd s a = some s') {c : Nat}
    (h : a.of ≠ some c) : s'.con c = s.con c := by
  cases a with
  | con c' b =>
    have hne : c ≠ c' := fun e => h (by rw [e]; rfl)
    obtain ⟨e', -, ⟨rfl, -⟩ | ⟨_, _, _, _, -, -, -, rfl⟩ | ⟨_, _, _, _, _, -, -, -, -, rfl⟩ | ⟨_, _, _, _, -, -, -, rfl⟩⟩ :=
      gnCon_cases (s := s) (s' := s') (c := c') (a := b) hs
    all_goals simp [setAt, hne]
  | _ =>
    simp only [gnStep] at hs
    repeat' (split at hs)
    all_goals first
      | (cases hs; rfl)
      | cases hs

theorem gnRun_other {conf : CConf} {n : Nat} {cmd : Cmd} {c : Nat} : ∀ {acts : List GNAct} {s s' : GNSt},
    runActs (gnStep conf n cmd) s acts = some s' → (∀ a ∈ acts, a.of ≠ some c) → s'.con c = s.con c := by
  intro acts
  induction acts with
  | nil => intro s s' h _; cases h; rfl
  | cons a acts ih =>
    intro s s' h ha
    simp only [runActs] at h
    cases h1 : gnStep conf n cmd s a with
    | none => rw [h1] at h; cases h
    | some s1 =>
      rw [h1] at h
      rw [ih h (fun b hb => ha b (by simp [hb])), gnStep_other h1 (ha a (by simp))]

/-- The hypotheses of C115 and C115_result hold of it: two requests, of which the second was handled and answered. -/
theorem gn_example : ∃ s, gnRun cfgR 2 1 (fun _ => true) gnOne = some s ∧ cfgR.reconnect = true ∧
    s.reqs = [(0, 1, 0), (0, 0, 0)] ∧ s.out = [(0, .frame 0 0 (Frame.toIn ⟨3, 0, 1, [7, 7]⟩))] ∧ s.calls = [gnA] ∧
    (∀ (c g t : Nat) (f : CFrame), (s.con c).c.frames[t]? = some f → Encodes ⟨100, none⟩ f.bytes ⟨3, 8, 1, grA⟩) ∧
    (∀ c g, Serves ⟨100, none⟩ ((s.con c).c.wires g) (if c = 0 ∧ g = 1 then [⟨3, 8, 1, grA⟩] else [])) ∧
    (s.con 0).c.ridGen < 2 ^ 63 ∧
    Wired (s.con 0) (fun _ => ⟨3, 8, 1, grA⟩) (fun g => if g = 1 then [⟨3, 8, 1, grA⟩] else []) (fun _ _ => ⟨3, 0, 1, [7, 7]⟩)
      (fun g => if g = 1 then 1 else 0) (fun g => if g = 1 then [⟨3, 0, 1, [7, 7]⟩] else []) ∧
    (∀ g, AnswerBy (ServiceAnswers grService 5 (fun _ => []) 11 1) (if g = 1 then [⟨3, 8, 1, grA⟩] else []) (fun _ => ⟨3, 0, 1, [7, 7]⟩)
      (if g = 1 then 1 else 0)) := by
  have h1 : (gnRun cfgR 2 1 (fun _ => true) gnOne).map (fun s => ((s.reqs, s.out, s.calls), ((s.con 0).down, (s.con 0).c.wires 1, (s.con 0).c.ridGen),
        ((s.con 0).c.frames.map fun f => (f.rid, f.bytes)), ((s.con 1).c.frames.map fun f => (f.rid, f.bytes)))) =
      some (([(0, 1, 0), (0, 0, 0)], [(0, .frame 0 0 (Frame.toIn ⟨3, 0, 1, [7, 7]⟩))], [gnA]),
        (setAt (fun _ => []) 1 [(Frame.toIn ⟨3, 0, 1, [7, 7]⟩, 1)], layout 3 1 8 grA, 1),
        [(3, layout 3 1 8 grA)], [(3, layout 3 1 8 grA)]) := by rfl
  obtain ⟨s, h2, h3⟩ := Option.map_eq_some_iff.1 h1
  simp only [Prod.mk.injEq] at h3
  obtain ⟨⟨e1, e2, e3⟩, ⟨d1, d2, d3⟩, d4, d5⟩ := h3
  have hrest : ∀ c, s.con (c + 2) = ESt.init true := by
    intro c
    refine gnRun_other (s := GNSt.init fun _ => true) h2 ?_
    intro a ha e
    have : (gnOne.all fun a => match a.of with | some c => decide (c < 2) | none => true) = true := by decide +kernel
    have := List.all_eq_true.1 this a ha
    rw [e] at this
    exact absurd (of_decide_eq_true this) (by omega)
  have one : ∀ (l : List CFrame), (l.map fun f => (f.rid, f.bytes)) = [(3, layout 3 1 8 grA)] → ∀ (t : Nat) (f : CFrame), l[t]? = some f →
      f.rid = 3 ∧ f.bytes = layout 3 1 8 grA := by
    intro l hl t f ht
    have : (f.rid, f.bytes) ∈ l.map fun f => (f.rid, f.bytes) := List.mem_map.2 ⟨f, List.mem_of_getElem? ht, rfl⟩
    rw [hl, List.mem_singleton, Prod.mk.injEq] at this
    exact this
  have henc : ∀ (c t : Nat) (f : CFrame), (s.con c).c.frames[t]? = some f → Encodes ⟨100, none⟩ f.bytes ⟨3, 8, 1, grA⟩ := by
    intro c t f ht
    match c with
    | 0 => rw [(one _ d4 t f ht).2]; exact grEncA
    | 1 => rw [(one _ d5 t f ht).2]; exact grEncA
    | c + 2 => rw [hrest] at ht; simp [ESt.init, CSt.init] at ht
  have hsrv : ∀ g, Serves ⟨100, none⟩ ((s.con 0).c.wires g) (if g = 1 then [⟨3, 8, 1, grA⟩] else []) := by
    intro g
    split
    · next e => subst e; rw [d2]; exact gnServes
    · exact Serves_none _ _
  obtain ⟨gs, g1, g2, g3⟩ := gnArrives
  refine ⟨s, h2, rfl, e1, e2, e3, fun c _ => henc c, ?_, by rw [d3]; decide, ⟨⟨fun _ => ⟨100, none⟩, fun _ => henc 0, hsrv⟩, ?_, ?_, ?_⟩, ?_⟩
  · intro c g
    by_cases h : c = 0
    · subst h; simpa using hsrv g
    · simpa [h] using Serves_none _ _
  · intro t f ht
    exact (one _ d4 t f ht).1
  · intro g
    by_cases hg : g = 1
    · subst hg
      have hl := congrArg List.length g2
      simp only [List.length_map, List.length_cons, List.length_nil] at hl
      refine ⟨2, gnServer, gs, ⟨0, none⟩, [⟨3, 0, 1, [7, 7]⟩], g1, hl, ?_, g3⟩
      intro k f hk
      have : f.bytes ∈ gs.frames.map (·.bytes) := List.mem_map.2 ⟨f, List.mem_of_getElem? hk, rfl⟩
      rw [g2, List.mem_singleton] at this
      rw [this]; exact grEncOk
    · simp only [hg, if_false]
      exact ⟨0, [], _, ⟨0, none⟩, [], rfl, rfl, by simp [GSt.init], ⟨[], []⟩, 0, [], SSt.init, List.nil_prefix, rfl, rfl, rfl, rfl⟩
  · intro g
    rw [d1]
    by_cases hg : g = 1
    · subst hg; rfl
    · simp [setAt, hg]
  · intro g k hk _ _
    by_cases hg : g = 1
    · subst hg
      exact ⟨⟨3, 8, 1, grA⟩, by simp, rfl, (grServed grService_has).2⟩
    · simp [hg] at hk

/-- A call for which both connections fail: it returns ErrServiceNA, and neither of its two requests has reached a server. -/
example : (gnRun cfgR 2 1 (fun _ => true) ([.call 0 gnA, .go 0] ++ gnBreak 1 ++ [.go 0] ++ gnBreak 0 ++ [.go 0])).map
    (fun s => (s.reqs, s.out, (s.con 0).c.wires 1, (s.con 1).c.wires 1)) =
    some ([(0, 1, 0), (0, 0, 0)], [(0, .na)], (layout 3 1 8 grA).take 5, (layout 3 1 8 grA).take 5) := by decide +kernel

/-- A call that is given up: its reset goes out on the connection of the request, with its id. -/
example : (gnRun cfgR 2 1 (fun _ => true) ([.call 0 gnA, .go 0] ++ gnAsk 1 ++
      ([.wWrite 22 true, .wGo, .recv 0, .wGo] : List CAct).map (fun a => .con 1 (.cl a)) ++ [.sent 0, .gaveUp 0] ++
      ([.send 0 (rstFrame 3), .go 0, .enq 0, .wDeq true true, .wGo, .wGo, .wWrite 16 true, .wGo, .recv 0] : List CAct).map (fun a => .con 1 (.cl a)) ++
      [.reset 0])).map
    (fun s => (s.reqs, s.out, (s.con 1).c.wires 1)) =
    some ([(0, 1, 0)], [(0, .failed)], layout 3 1 8 grA ++ layout 3 0 StreamRstFlag []) := by decide +kernel

end Qrpc
