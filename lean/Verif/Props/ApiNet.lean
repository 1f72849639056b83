import Verif.Model.ApiNet
import Verif.Props.Api
import Verif.Props.Channel
import Verif.Props.GenRpc
/-! # C113, C114: calls of the API, end to end -/
namespace Qrpc
open Spec

/-! ## What stays -/

theorem cStep_keeps {c : CConf} {s s' : CSt} {a : CAct} (hs : cStep c s a = some s') :
    (∀ x ∈ s.rets, x ∈ s'.rets) ∧ ∀ t x, x ∈ s.revs t → x ∈ s'.revs t := by
  cstep_cases hs a
  all_goals refine ⟨?_, ?_⟩
  all_goals try first
    | exact fun _ h => h
    | exact fun _ _ h => h
    | exact fun _ h => List.mem_append_left _ h
    | (intro t x h; simp only [setAt]; split <;> simp_all; done)
    | grind [setAt]

theorem eStep_keeps {c : CConf} {s s' : ESt} {a : EAct} (hs : eStep c s a = some s') :
    s.c.frames <+: s'.c.frames ∧ (∀ x ∈ s.c.rets, x ∈ s'.c.rets) ∧ ∀ t x, x ∈ s.c.revs t → x ∈ s'.c.revs t := by
  cases a with
  | cl a =>
    simp only [eStep] at hs
    split at hs
    · obtain ⟨s1, h1, rfl⟩ := Option.map_eq_some_iff.1 hs
      exact ⟨(cgrow h1).1, cStep_keeps h1⟩
    · cases hs
  | sRead g => simp only [eStep] at hs; split at hs <;> cases hs; exact ⟨List.prefix_refl _, fun _ h => h, fun _ _ h => h⟩
  | sSend g f => simp only [eStep] at hs; split at hs <;> cases hs; exact ⟨List.prefix_refl _, fun _ h => h, fun _ _ h => h⟩
  | recv =>
    simp only [eStep] at hs
    split at hs
    · obtain ⟨s1, h1, rfl⟩ := Option.map_eq_some_iff.1 hs
      exact ⟨(cgrow h1).1, cStep_keeps h1⟩
    · cases hs

theorem aStep_keeps {s s' : ASt} {a : AAct} (hlt : ∀ c, s.made c = true → c < s.nextC) (hs : aStep s a = some s') (c : Nat) (h : s.made c = true) :
    s'.made c = true ∧ s'.home c = s.home c := by
  have := hlt c h
  astep_cases hs a
  all_goals try first
    | exact ⟨h, rfl⟩
    | grind [setAt, ASt.fail]

/-- The mode and the endpoint of a call under way. -/
def APc.mi : APc → Option (AMode × Nat)
  | .load m i | .req m i _ _ | .cls m i _ _ | .delLock m i _ _ | .del1 m i _ _ | .del2 m i _ _ | .delUn m i _ | .ncLock m i | .ncLoad m i
  | .ncCheck m i | .ncDial m i | .ncErr m i | .ncSt1 m i _ | .ncSt2 m i _ | .ncUn m i _ | .wait m i _ => some (m, i)
  | _ => none

def APc.okArg (o : Option Nat) (p : APc) : Prop :=
  (∀ i, p.mi = some (.one, i) → o = some i) ∧ (∀ m i, p.mi = some (m, i) → m ≠ .one → o = none) ∧ (p = .range → o = none)

theorem okArg_step {s s' : ASt} {a : AAct} {o : Nat → Option Nat} (h : ∀ j, (s.pc j).okArg (o j)) (ha : ∀ i k, a ≠ .call i k ∧ a ≠ .callOne i k)
    (hs : aStep s a = some s') (j : Nat) : (s'.pc j).okArg (o j) := by
  have hj := h j
  astep_cases hs a
  all_goals try first
    | exact hj
    | exact absurd rfl (ha _ _).1
    | exact absurd rfl (ha _ _).2
    | grind [setAt, ASt.fail, APc.okArg, APc.mi]
  all_goals
    rename_i heq
    simp only [setAt]
    split
    · next e =>
      subst e
      exact ⟨by simp [APc.mi], by simp [APc.mi], fun _ => hj.2.1 .first _ (by rw [heq]; rfl) (by decide)⟩
    · exact hj

/-- The connection on which a goroutine makes its request or waits for the answer. -/
def APc.con : APc → Option Nat
  | .req _ _ c _ | .wait _ _ c => some c
  | _ => none

/-- Steps of the API leave a goroutine inside Request or GetFrameWithContext, unless they are the end of these. -/
theorem con_step {s s' : ASt} {a : AAct} (hs : aStep s a = some s') {j : Nat} (hc : (s.pc j).con ≠ none) (ha : ∀ b, a ≠ .res j b) :
    s'.pc j = s.pc j := by
  astep_cases hs a
  all_goals try first
    | rfl
    | exact absurd rfl (ha _)
    | grind [setAt, ASt.fail, APc.con]

theorem wait_step {s s' : ASt} {a : AAct} (hs : aStep s a = some s') {j : Nat} {m : AMode} {idx c : Nat} (h : s'.pc j = .wait m idx c) :
    s.pc j = .wait m idx c ∨ (a = .res j true ∧ ∃ nc, s.pc j = .req m idx c nc) := by
  astep_cases hs a
  all_goals try first
    | exact .inl h
    | grind [setAt, ASt.fail]

/-- How many requests a call may still submit. -/
def AMode.left : AMode → Nat
  | .first => 2
  | _ => 0

def APc.left (r : Rq) : APc → Nat
  | .load m _ => 2 + m.left
  | .req m _ _ nc => (match r with | .sub _ => 0 | _ => 1) + (if nc then 1 else 0) + m.left
  | .cls m _ _ nc | .delLock m _ _ nc | .del1 m _ _ nc | .del2 m _ _ nc | .delUn m _ nc => (if nc then 1 else 0) + m.left
  | .ncLock m _ | .ncLoad m _ | .ncCheck m _ | .ncDial m _ | .ncSt1 m _ _ | .ncSt2 m _ _ | .ncUn m _ _ => 1 + m.left
  | .ncErr m _ => m.left
  | .wait m _ _ => m.left
  | .range => 2
  | _ => 0

theorem aleft_step {s s' : ASt} {a : AAct} (hs : aStep s a = some s') (ha : ∀ i k, a ≠ .call i k ∧ a ≠ .callOne i k) {j : Nat} {r : Rq}
    (hr : r ≠ .no → (s.pc j).con ≠ none) (hb : ∀ b, a = .res j b → ∀ m idx c nc, s.pc j ≠ .req m idx c nc) :
    (s'.pc j).left r ≤ (s.pc j).left r := by
  astep_cases hs a
  all_goals try first
    | exact Nat.le_refl _
    | exact absurd rfl (ha _ _).1
    | exact absurd rfl (ha _ _).2
    | (simp only [setAt]; split <;> first | exact Nat.le_refl _ | skip)
  all_goals
    rename_i e
    subst e
  all_goals try (exact absurd (by assumption) (hb _ rfl _ _ _ _))
  all_goals
    have hp := ‹s.pc j = _›
    rw [hp]
    cases r <;> simp_all [APc.left, AMode.left] <;> omega

/-! ## Steps of the callers of a connection -/

theorem cStep_pc {conf : CConf} {s s' : CSt} {a : CAct} (hs : cStep conf s a = some s') :
    (s'.frames = s.frames ∨ ∃ i f g, a = .enq i ∧ s.pc i = .enq f g ∧ s'.frames = s.frames ++ [f]) ∧
    ∀ j, s'.pc j = s.pc j ∨ s'.pc j = .idle ∨ (∃ t g, s'.pc j = .wait t g) ∨
      (∃ p b, a = .request j p b ∧ s'.pc j = .check p b) ∨
      (∃ f, a = .send j f ∧ s'.pc j = .load f ∧ f.resp = false) ∨
      (a = .go j ∧ ((∃ p b, s.pc j = .check p b ∧ s'.pc j = .genId p b) ∨
        (∃ p b, s.pc j = .genId p b ∧ s'.pc j = .load ⟨clientRid (s.ridGen + 1), b, !p, false, p, false⟩) ∨
        ∃ f g, s.pc j = .load f ∧ s'.pc j = .enq f g)) := by
  cstep_cases hs a
  all_goals try first
    | exact ⟨.inl rfl, fun _ => .inl rfl⟩
    | (refine ⟨.inl rfl, fun j => ?_⟩; simp only [setAt]; split <;> grind)
    | (refine ⟨.inr ⟨_, _, _, rfl, by assumption, rfl⟩, fun j => ?_⟩; simp only [setAt]; split <;> grind)

/-- The caller is making a request. -/
def CPc.isRq : CPc → Bool
  | .check .. | .genId .. => true
  | .load f | .enq f _ => f.resp
  | _ => false

theorem eStep_pc {conf : CConf} {e e' : ESt} {a : EAct} (hs : eStep conf e a = some e') :
    (e'.c.frames = e.c.frames ∨ ∃ i f g, a = .cl (.enq i) ∧ e.c.pc i = .enq f g ∧ e'.c.frames = e.c.frames ++ [f]) ∧
    ∀ j, e'.c.pc j = e.c.pc j ∨ e'.c.pc j = .idle ∨ (∃ t g, e'.c.pc j = .wait t g) ∨
      (∃ p b, a = .cl (.request j p b) ∧ e'.c.pc j = .check p b) ∨
      (∃ f, a = .cl (.send j f) ∧ e'.c.pc j = .load f ∧ f.resp = false) ∨
      (a = .cl (.go j) ∧ ((∃ p b, e.c.pc j = .check p b ∧ e'.c.pc j = .genId p b) ∨
        (∃ p b, e.c.pc j = .genId p b ∧ e'.c.pc j = .load ⟨clientRid (e.c.ridGen + 1), b, !p, false, p, false⟩) ∨
        ∃ f g, e.c.pc j = .load f ∧ e'.c.pc j = .enq f g)) := by
  cases a with
  | cl a =>
    simp only [eStep] at hs
    split at hs
    · obtain ⟨c', h1, rfl⟩ := Option.map_eq_some_iff.1 hs
      obtain ⟨h2, h3⟩ := cStep_pc h1
      refine ⟨?_, fun j => ?_⟩
      · rcases h2 with h2 | ⟨i, f, g, rfl, h4, h5⟩
        · exact .inl h2
        · exact .inr ⟨i, f, g, rfl, h4, h5⟩
      · rcases h3 j with h | h | h | ⟨p, b, rfl, h⟩ | ⟨f, rfl, h⟩ | ⟨rfl, h⟩
        · exact .inl h
        · exact .inr (.inl h)
        · exact .inr (.inr (.inl h))
        · exact .inr (.inr (.inr (.inl ⟨p, b, rfl, h⟩)))
        · exact .inr (.inr (.inr (.inr (.inl ⟨f, rfl, h⟩))))
        · exact .inr (.inr (.inr (.inr (.inr ⟨rfl, h⟩))))
    · cases hs
  | sRead g =>
    simp only [eStep] at hs
    split at hs
    · cases hs; exact ⟨.inl rfl, fun _ => .inl rfl⟩
    · cases hs
  | sSend g f =>
    simp only [eStep] at hs
    split at hs
    · cases hs; exact ⟨.inl rfl, fun _ => .inl rfl⟩
    · cases hs
  | recv =>
    simp only [eStep] at hs
    split at hs
    · obtain ⟨c', h1, rfl⟩ := Option.map_eq_some_iff.1 hs
      obtain ⟨h2, h3⟩ := cStep_pc h1
      refine ⟨?_, fun j => ?_⟩
      · rcases h2 with h2 | ⟨i, f, g, h4, -⟩
        · exact .inl h2
        · cases h4
      · rcases h3 j with h | h | h | ⟨p, b, h4, h⟩ | ⟨f, h4, h⟩ | ⟨h4, h⟩
        · exact .inl h
        · exact .inr (.inl h)
        · exact .inr (.inr (.inl h))
        all_goals cases h4
    · cases hs

theorem enq_pc {conf : CConf} {e e' : ESt} {i : Nat} (hs : eStep conf e (.cl (.enq i)) = some e') :
    ∃ f g, e.c.pc i = .enq f g ∧ e'.c.pc i = .wait e.c.frames.length g ∧ e'.c.frames = e.c.frames ++ [f] := by
  simp only [eStep, CAct.proper, if_true] at hs
  obtain ⟨c', h1, rfl⟩ := Option.map_eq_some_iff.1 hs
  simp only [cStep] at h1
  split at h1
  · next f g hp =>
    split at h1
    · cases h1
      exact ⟨f, g, hp, by simp [setAt], rfl⟩
    · cases h1
  · cases h1

/-- The three kinds of steps of a connection. -/
theorem anCon_cases {conf : CConf} {s s' : ANSt} {c : Nat} {a : EAct} (hs : anCon conf s c a = some s') :
    ∃ e', eStep conf (s.con c) a = some e' ∧
      ((s' = { s with con := setAt s.con c e' } ∧ (∀ i p b, a ≠ .cl (.request i p b)) ∧
          (∀ i p b, a = .cl (.go i) → (s.con c).c.pc i = .genId p b →
            b = apiFrame (clientRid ((s.con c).c.ridGen + 1)) (s.arg i).1 (s.arg i).2.1) ∧
          (∀ i f, a = .cl (.send i f) → f.rid % 2 = 0) ∧
          (∀ i f g, a = .cl (.enq i) → (s.con c).c.pc i = .enq f g → f.resp = false)) ∨
       (∃ i b m idx nc, a = .cl (.request i false b) ∧ s.api.pc i = .req m idx c nc ∧ s.rq i = .no ∧
          s' = { s with con := setAt s.con c e', rq := setAt s.rq i .asked }) ∨
       (∃ i f g, a = .cl (.enq i) ∧ (s.con c).c.pc i = .enq f g ∧ f.resp = true ∧
          s' = { s with con := setAt s.con c e', rq := setAt s.rq i (.sub (s.con c).c.frames.length)
                        tries := setAt s.tries i ((c, (s.con c).c.frames.length) :: s.tries i) })) := by
  unfold anCon at hs
  split at hs
  · next i p b =>
    split at hs
    · next m idx c' nc h1 h2 =>
      split at hs
      · next hg =>
        obtain ⟨e', hb, rfl⟩ := Option.map_eq_some_iff.1 hs
        obtain ⟨rfl, rfl⟩ := hg
        exact ⟨e', hb, .inr (.inl ⟨i, b, m, idx, nc, rfl, h1, h2, rfl⟩)⟩
      · cases hs
    · cases hs
  · next i =>
    split at hs
    · next p b h1 =>
      split at hs
      · next hg =>
        obtain ⟨e', hb, rfl⟩ := Option.map_eq_some_iff.1 hs
        refine ⟨e', hb, .inl ⟨rfl, by simp, ?_, by simp, by simp⟩⟩
        intro j p' b' ha h
        cases ha
        rw [h1] at h; cases h
        exact hg
      · cases hs
    · next h1 =>
      obtain ⟨e', hb, rfl⟩ := Option.map_eq_some_iff.1 hs
      refine ⟨e', hb, .inl ⟨rfl, by simp, ?_, by simp, by simp⟩⟩
      intro j p' b' ha h
      cases ha
      exact absurd h (h1 _ _)
  · next i =>
    split at hs
    · next f g h1 =>
      split at hs
      · next hg =>
        obtain ⟨e', hb, rfl⟩ := Option.map_eq_some_iff.1 hs
        exact ⟨e', hb, .inr (.inr ⟨i, f, g, rfl, h1, hg, rfl⟩)⟩
      · next hg =>
        obtain ⟨e', hb, rfl⟩ := Option.map_eq_some_iff.1 hs
        refine ⟨e', hb, .inl ⟨rfl, by simp, by simp, by simp, ?_⟩⟩
        intro j f' g' ha h
        cases ha
        rw [h1] at h; cases h
        simpa using hg
    · cases hs
  · next i f =>
    split at hs
    · next hg =>
      obtain ⟨e', hb, rfl⟩ := Option.map_eq_some_iff.1 hs
      refine ⟨e', hb, .inl ⟨rfl, by simp, by simp, ?_, by simp⟩⟩
      intro j f' ha
      cases ha
      exact hg.1
    · cases hs
  · split at hs
    · obtain ⟨e', hb, rfl⟩ := Option.map_eq_some_iff.1 hs
      exact ⟨e', hb, .inl ⟨rfl, by simp, by simp, by simp, by simp⟩⟩
    · cases hs
  · next h1 h2 h3 h4 h5 =>
    obtain ⟨e', hb, rfl⟩ := Option.map_eq_some_iff.1 hs
    refine ⟨e', hb, .inl ⟨rfl, h1, ?_, ?_, ?_⟩⟩
    · intro i p b h; exact absurd h (h2 i)
    · intro i f h; exact absurd h (h4 i f)
    · intro i f g h; exact absurd h (h3 i)

/-! ## Calls and requests -/

/-- On a connection, request `t` was submitted with the frame of a call with these arguments. -/
def Spec.Requested (e : ESt) (t : Nat) (cmd : Cmd) (payload : Bytes) : Prop :=
  ∃ f, e.c.frames[t]? = some f ∧ f.resp = true ∧ f.bytes = apiFrame f.rid cmd payload

theorem Requested.keeps {c : CConf} {e e' : ESt} {a : EAct} (hs : eStep c e a = some e') {t : Nat} {cmd : Cmd} {p : Bytes} (h : Requested e t cmd p) :
    Requested e' t cmd p := by
  obtain ⟨f, h1, h2, h3⟩ := h
  obtain ⟨⟨x, hx⟩, -, -⟩ := eStep_keeps hs
  refine ⟨f, ?_, h2, h3⟩
  rw [← hx, List.getElem?_append_left (List.getElem?_eq_some_iff.1 h1).1]
  exact h1

theorem Requested.lt {e : ESt} {t : Nat} {cmd : Cmd} {p : Bytes} (h : Requested e t cmd p) : t < e.c.frames.length := by
  obtain ⟨f, h1, -⟩ := h
  exact (List.getElem?_eq_some_iff.1 h1).1

structure ANInv (conf : CConf) (n : Nat) (ok : Nat → Bool) (s : ANSt) : Prop where
  apiR : ∃ acts, aRun n ok acts = some s.api
  conR : ∀ c, ∃ acts, eRun conf true acts = some (s.con c)
  arg : ∀ j, (s.api.pc j).okArg (s.arg j).2.2
  tameP : ∀ c i p b, ((s.con c).c.pc i = .check p b ∨ (s.con c).c.pc i = .genId p b) → p = false
  tameO : ∀ c i f, ((s.con c).c.pc i).own = some f → f.resp = true ∨ f.rid % 2 = 0
  tameF : ∀ c, ∀ f ∈ (s.con c).c.frames, f.resp = true ∨ f.rid % 2 = 0
  ask : ∀ c i, ((s.con c).c.pc i).isRq = true → s.rq i = .asked ∧ ∃ m idx nc, s.api.pc i = .req m idx c nc
  askB : ∀ c i f, ((s.con c).c.pc i).own = some f → f.resp = true → f.bytes = apiFrame f.rid (s.arg i).1 (s.arg i).2.1
  rqAt : ∀ i, s.rq i ≠ .no → (s.api.pc i).con ≠ none
  sub : ∀ i t c, s.rq i = .sub t → (s.api.pc i).con = some c → (c, t) ∈ s.tries i
  wt : ∀ i m idx c, s.api.pc i = .wait m idx c → ∃ t, s.rq i = .sub t ∧ (t, CRes.ok) ∈ (s.con c).c.rets
  dist : ∀ i j c t, s.rq i = .sub t → s.rq j = .sub t → (s.api.pc i).con = some c → (s.api.pc j).con = some c → i = j
  fresh : ∀ r ∈ s.out, ∀ i, s.rq i = .sub r.req → (s.api.pc i).con ≠ some r.con
  nodup : s.out.Pairwise fun r r' => r.con = r'.con → r.req ≠ r'.req
  out : ∀ r ∈ s.out, s.api.made r.con = true ∧ s.api.home r.con = r.idx ∧ (∀ k, r.one = some k → r.idx = k) ∧
    Requested (s.con r.con) r.req r.cmd r.payload ∧ (r.req, CRes.ok) ∈ (s.con r.con).c.rets ∧ REv.frame r.frame ∈ (s.con r.con).c.revs r.req
  tried : ∀ i c t, (c, t) ∈ s.tries i → s.api.made c = true ∧ (∀ k, (s.arg i).2.2 = some k → s.api.home c = k) ∧
    Requested (s.con c) t (s.arg i).1 (s.arg i).2.1
  tnodup : ∀ i, (s.tries i).Nodup
  left : ∀ i, (s.tries i).length + (s.api.pc i).left (s.rq i) ≤ if (s.arg i).2.2 = none then 4 else 2

theorem aRun_snoc {n : Nat} {ok : Nat → Bool} {s s' : ASt} {a : AAct} (h : ∃ acts, aRun n ok acts = some s) (hs : aStep s a = some s') :
    ∃ acts, aRun n ok acts = some s' := by
  obtain ⟨acts, h⟩ := h
  refine ⟨acts ++ [a], ?_⟩
  unfold aRun at h ⊢
  rw [runActs_append, h]
  simp [runActs, hs]

theorem eRun_snoc {c : CConf} {d : Bool} {s s' : ESt} {a : EAct} (h : ∃ acts, eRun c d acts = some s) (hs : eStep c s a = some s') :
    ∃ acts, eRun c d acts = some s' := by
  obtain ⟨acts, h⟩ := h
  refine ⟨acts ++ [a], ?_⟩
  unfold eRun at h ⊢
  rw [runActs_append, h]
  simp [runActs, hs]

theorem CPc.own_isRq {p : CPc} {f : CFrame} (h : p.own = some f) (hr : f.resp = true) : p.isRq = true := by
  cases p <;> simp_all [CPc.own, CPc.isRq]

/-- A step of the API. -/
theorem ANInv.api {conf : CConf} {n : Nat} {ok : Nat → Bool} {s s' : ANSt} {a : AAct} (h : ANInv conf n ok s) (hs : aStep s.api a = some s'.api)
    (hc : s'.con = s.con) (ho : s'.out = s.out) (harg : ∀ j, (s'.api.pc j).okArg (s'.arg j).2.2)
    (hj : ∀ j, (s'.arg j = s.arg j ∧ s'.tries j = s.tries j ∧ (s'.api.pc j).left (s'.rq j) ≤ (s.api.pc j).left (s.rq j)) ∨
      (s.rq j = .no ∧ s'.tries j = [] ∧ (s'.api.pc j).left (s'.rq j) ≤ if (s'.arg j).2.2 = none then 4 else 2))
    (hrq : ∀ j, (s'.rq j = s.rq j ∧ (s.rq j ≠ .no → (s'.api.pc j).con = (s.api.pc j).con) ∧ (s.rq j = .asked → s'.api.pc j = s.api.pc j)) ∨
      (s'.rq j = .no ∧ ∀ c, ((s.con c).c.pc j).isRq = false))
    (hw : ∀ j m idx c, s'.api.pc j = .wait m idx c → ∃ t, s'.rq j = .sub t ∧ (t, CRes.ok) ∈ (s.con c).c.rets) :
    ANInv conf n ok s' := by
  have hlt : ∀ c, s.api.made c = true → c < s.api.nextC := by
    obtain ⟨acts, h⟩ := h.apiR
    exact (AInv.reach h).t.lt
  have hsub : ∀ j t c, s'.rq j = .sub t → (s'.api.pc j).con = some c → s.rq j = .sub t ∧ (s.api.pc j).con = some c := by
    intro j t c h1 h2
    rcases hrq j with ⟨h3, h4, -⟩ | ⟨h3, -⟩
    · rw [h3] at h1
      rw [h4 (by rw [h1]; simp)] at h2
      exact ⟨h1, h2⟩
    · rw [h3] at h1; cases h1
  have hno : ∀ j c, s.rq j = .no → ((s.con c).c.pc j).isRq = false := by
    intro j c h1
    cases e : ((s.con c).c.pc j).isRq with
    | false => rfl
    | true => have := (h.ask c j e).1; rw [h1] at this; cases this
  refine ⟨aRun_snoc h.apiR hs, by rw [hc]; exact h.conR, harg, by rw [hc]; exact h.tameP, by rw [hc]; exact h.tameO, by rw [hc]; exact h.tameF,
    ?_, ?_, ?_, ?_, by rw [hc]; exact hw, ?_, ?_, by rw [ho]; exact h.nodup, ?_, ?_, ?_, ?_⟩
  · intro c i hi
    rw [hc] at hi
    obtain ⟨h1, h2⟩ := h.ask c i hi
    rcases hrq i with ⟨h3, -, h4⟩ | ⟨-, h3⟩
    · rw [h3, h4 h1]; exact ⟨h1, h2⟩
    · rw [h3 c] at hi; cases hi
  · intro c i f h1 h2
    rw [hc] at h1
    rcases hj i with ⟨h3, -⟩ | ⟨h3, -⟩
    · rw [h3]; exact h.askB c i f h1 h2
    · have := hno i c h3
      rw [CPc.own_isRq h1 h2] at this; cases this
  · intro i h1
    rcases hrq i with ⟨h3, h4, -⟩ | ⟨h3, -⟩
    · rw [h3] at h1
      rw [h4 h1]; exact h.rqAt i h1
    · exact absurd h3 h1
  · intro i t c h1 h2
    obtain ⟨h3, h4⟩ := hsub i t c h1 h2
    rcases hj i with ⟨-, h5, -⟩ | ⟨h5, -⟩
    · rw [h5]; exact h.sub i t c h3 h4
    · rw [h5] at h3; cases h3
  · intro i j c t h1 h2 h3 h4
    obtain ⟨k1, k2⟩ := hsub i t c h1 h3
    obtain ⟨k3, k4⟩ := hsub j t c h2 h4
    exact h.dist i j c t k1 k3 k2 k4
  · intro r hr i h1 h2
    rw [ho] at hr
    obtain ⟨k1, k2⟩ := hsub i _ _ h1 h2
    exact h.fresh r hr i k1 k2
  · rw [ho]
    intro r hr
    obtain ⟨h1, h2, h3⟩ := h.out r hr
    obtain ⟨k1, k2⟩ := aStep_keeps hlt hs _ h1
    rw [hc]
    exact ⟨k1, k2.trans h2, h3⟩
  · intro i c t hi
    rcases hj i with ⟨h1, h2, -⟩ | ⟨-, h2, -⟩
    · rw [h2] at hi
      obtain ⟨k1, k2, k3⟩ := h.tried i c t hi
      obtain ⟨l1, l2⟩ := aStep_keeps hlt hs _ k1
      rw [h1, hc, l2]
      exact ⟨l1, k2, k3⟩
    · rw [h2] at hi; cases hi
  · intro i
    rcases hj i with ⟨-, h2, -⟩ | ⟨-, h2, -⟩
    · rw [h2]; exact h.tnodup i
    · rw [h2]; exact List.nodup_nil
  · intro i
    rcases hj i with ⟨h1, h2, h3⟩ | ⟨-, h2, h3⟩
    · rw [h1, h2]; exact Nat.le_trans (Nat.add_le_add_left h3 _) (h.left i)
    · rw [h2]; simpa using h3

theorem ANInv.init (conf : CConf) (n : Nat) (ok : Nat → Bool) : ANInv conf n ok (ANSt.init n ok) := by
  refine ⟨⟨[], rfl⟩, fun c => ⟨[], rfl⟩, ?_, ?_, ?_, ?_, ?_, ?_, ?_, ?_, ?_, ?_, ?_, List.Pairwise.nil, ?_, ?_, ?_, ?_⟩
  · intro j; simp [ANSt.init, ASt.init, APc.okArg, APc.mi]
  all_goals simp [ANSt.init, ASt.init, ESt.init, CSt.init, CPc.own, CPc.isRq, APc.left]

/-- A step of a connection. -/
theorem ANInv.con {conf : CConf} {n : Nat} {ok : Nat → Bool} {s s' : ANSt} {c : Nat} {a : EAct} (h : ANInv conf n ok s)
    (hs : anCon conf s c a = some s') : ANInv conf n ok s' := by
  obtain ⟨e', he, hk⟩ := anCon_cases hs
  obtain ⟨p1, p2⟩ := eStep_pc he
  obtain ⟨q1, q2, q3⟩ := eStep_keeps he
  have hreq : ∀ c' t cmd p, Requested (s.con c') t cmd p → Requested (setAt s.con c e' c') t cmd p := by
    intro c' t cmd p hq
    unfold setAt
    split
    · next e => subst e; exact Requested.keeps he hq
    · exact hq
  have hrets : ∀ c' x, x ∈ (s.con c').c.rets → x ∈ (setAt s.con c e' c').c.rets := by
    intro c' x hx
    unfold setAt
    split
    · next e => subst e; exact q2 x hx
    · exact hx
  have hrevs : ∀ c' t x, x ∈ (s.con c').c.revs t → x ∈ (setAt s.con c e' c').c.revs t := by
    intro c' t x hx
    unfold setAt
    split
    · next e => subst e; exact q3 t x hx
    · exact hx
  -- what is common to the three kinds
  have hapi : s'.api = s.api ∧ s'.con = setAt s.con c e' ∧ s'.arg = s.arg ∧ s'.out = s.out := by
    rcases hk with ⟨rfl, -⟩ | ⟨i, b, m, idx, nc, -, -, -, rfl⟩ | ⟨i, f, g, -, -, -, rfl⟩ <;> exact ⟨rfl, rfl, rfl, rfl⟩
  obtain ⟨e1, e2, e3, e4⟩ := hapi
  have G1 : ∀ i p b, a = .cl (.request i p b) → p = false ∧ s'.rq i = .asked ∧ s.rq i = .no ∧ ∃ m idx nc, s.api.pc i = .req m idx c nc := by
    intro i p b ha
    rcases hk with ⟨-, h1, -⟩ | ⟨j, b', m, idx, nc, rfl, h1, h2, rfl⟩ | ⟨j, f, g, rfl, -, -, rfl⟩
    · exact absurd ha (h1 i p b)
    · cases ha
      exact ⟨rfl, by simp [setAt], h2, m, idx, nc, h1⟩
    · cases ha
  have G2 : ∀ i p b, a = .cl (.go i) → (s.con c).c.pc i = .genId p b →
      b = apiFrame (clientRid ((s.con c).c.ridGen + 1)) (s.arg i).1 (s.arg i).2.1 := by
    intro i p b ha hi
    rcases hk with ⟨-, -, h1, -⟩ | ⟨j, b', m, idx, nc, rfl, -⟩ | ⟨j, f, g, rfl, -⟩
    · exact h1 i p b ha hi
    · cases ha
    · cases ha
  have G3 : ∀ i f, a = .cl (.send i f) → f.rid % 2 = 0 := by
    intro i f ha
    rcases hk with ⟨-, -, -, h1, -⟩ | ⟨j, b', m, idx, nc, rfl, -⟩ | ⟨j, f, g, rfl, -⟩
    · exact h1 i f ha
    · cases ha
    · cases ha
  have G4 : ∀ i, (s'.rq i = s.rq i ∧ s'.tries i = s.tries i) ∨
      (∃ p b, a = .cl (.request i p b) ∧ s'.rq i = .asked ∧ s'.tries i = s.tries i) ∨
      (∃ f g, a = .cl (.enq i) ∧ (s.con c).c.pc i = .enq f g ∧ f.resp = true ∧ s'.rq i = .sub (s.con c).c.frames.length ∧
        s'.tries i = (c, (s.con c).c.frames.length) :: s.tries i) := by
    intro i
    rcases hk with ⟨rfl, -⟩ | ⟨j, b', m, idx, nc, rfl, h1, h2, rfl⟩ | ⟨j, f, g, rfl, h1, h2, rfl⟩
    · exact .inl ⟨rfl, rfl⟩
    · by_cases e : i = j
      · subst e; exact .inr (.inl ⟨_, _, rfl, by simp [setAt], rfl⟩)
      · exact .inl ⟨by simp [setAt, e], rfl⟩
    · by_cases e : i = j
      · subst e; exact .inr (.inr ⟨f, g, rfl, h1, h2, by simp [setAt], by simp [setAt]⟩)
      · exact .inl ⟨by simp [setAt, e], by simp [setAt, e]⟩
  have tame : (∀ i p b, (e'.c.pc i = .check p b ∨ e'.c.pc i = .genId p b) → p = false) ∧
      (∀ i f, (e'.c.pc i).own = some f → f.resp = true ∨ f.rid % 2 = 0) ∧
      (∀ i f, (e'.c.pc i).own = some f → f.resp = true → f.bytes = apiFrame f.rid (s.arg i).1 (s.arg i).2.1) ∧
      ∀ f ∈ e'.c.frames, f.resp = true ∨ f.rid % 2 = 0 := by
    refine ⟨?_, ?_, ?_, ?_⟩
    · intro i p b hi
      rcases p2 i with hp | hp | ⟨t, g, hp⟩ | ⟨p', b', ha, hp⟩ | ⟨f, ha, hp, -⟩ | ⟨ha, ⟨p', b', ho, hp⟩ | ⟨p', b', ho, hp⟩ | ⟨f, g, ho, hp⟩⟩
      · rw [hp] at hi; exact h.tameP c i p b hi
      · simp [hp] at hi
      · simp [hp] at hi
      · simp only [hp, CPc.check.injEq, reduceCtorEq, or_false] at hi
        rw [← hi.1]; exact (G1 i p' b' ha).1
      · simp [hp] at hi
      · simp only [hp, CPc.genId.injEq, reduceCtorEq, false_or] at hi
        rw [← hi.1]; exact h.tameP c i p' b' (.inl ho)
      · simp [hp] at hi
      · simp [hp] at hi
    · intro i f hi
      rcases p2 i with hp | hp | ⟨t, g, hp⟩ | ⟨p', b', ha, hp⟩ | ⟨f', ha, hp, -⟩ | ⟨ha, ⟨p', b', ho, hp⟩ | ⟨p', b', ho, hp⟩ | ⟨f', g, ho, hp⟩⟩
      · rw [hp] at hi; exact h.tameO c i f hi
      · simp [hp, CPc.own] at hi
      · simp [hp, CPc.own] at hi
      · simp [hp, CPc.own] at hi
      · simp only [hp, CPc.own, Option.some.injEq] at hi
        subst hi; exact .inr (G3 i f' ha)
      · simp [hp, CPc.own] at hi
      · simp only [hp, CPc.own, Option.some.injEq] at hi
        subst hi
        left
        rw [h.tameP c i p' b' (.inr ho)]; rfl
      · simp only [hp, CPc.own, Option.some.injEq] at hi
        subst hi
        exact h.tameO c i f' (by rw [ho]; rfl)
    · intro i f hi hr
      rcases p2 i with hp | hp | ⟨t, g, hp⟩ | ⟨p', b', ha, hp⟩ | ⟨f', ha, hp, hf⟩ | ⟨ha, ⟨p', b', ho, hp⟩ | ⟨p', b', ho, hp⟩ | ⟨f', g, ho, hp⟩⟩
      · rw [hp] at hi; exact h.askB c i f hi hr
      · simp [hp, CPc.own] at hi
      · simp [hp, CPc.own] at hi
      · simp [hp, CPc.own] at hi
      · simp only [hp, CPc.own, Option.some.injEq] at hi
        subst hi; rw [hf] at hr; cases hr
      · simp [hp, CPc.own] at hi
      · simp only [hp, CPc.own, Option.some.injEq] at hi
        subst hi
        exact G2 i p' b' ha ho
      · simp only [hp, CPc.own, Option.some.injEq] at hi
        subst hi
        exact h.askB c i f' (by rw [ho]; rfl) hr
    · intro f hf
      rcases p1 with hp | ⟨i, f', g, -, hi, hp⟩
      · rw [hp] at hf; exact h.tameF c f hf
      · rw [hp] at hf
        rcases List.mem_append.1 hf with hf | hf
        · exact h.tameF c f hf
        · cases List.mem_singleton.1 hf
          exact h.tameO c i f (by rw [hi]; rfl)
  have hask : ∀ i, (e'.c.pc i).isRq = true → s'.rq i = .asked ∧ ∃ m idx nc, s.api.pc i = .req m idx c nc := by
    intro i hi
    have old : ((s.con c).c.pc i).isRq = true → a ≠ .cl (.enq i) → s'.rq i = .asked ∧ ∃ m idx nc, s.api.pc i = .req m idx c nc := by
      intro h1 h2
      obtain ⟨k1, k2⟩ := h.ask c i h1
      rcases G4 i with ⟨h3, -⟩ | ⟨p, b, ha, h3, -⟩ | ⟨f, g, ha, -⟩
      · rw [h3]; exact ⟨k1, k2⟩
      · exact ⟨h3, k2⟩
      · exact absurd ha h2
    rcases p2 i with hp | hp | ⟨t, g, hp⟩ | ⟨p', b', ha, hp⟩ | ⟨f', ha, hp, hf⟩ | ⟨ha, ⟨p', b', ho, hp⟩ | ⟨p', b', ho, hp⟩ | ⟨f', g, ho, hp⟩⟩
    · refine old (by rw [← hp]; exact hi) ?_
      rintro rfl
      obtain ⟨f, g, k1, k2, -⟩ := enq_pc he
      rw [k2] at hi; cases hi
    · rw [hp] at hi; cases hi
    · rw [hp] at hi; cases hi
    · obtain ⟨-, k1, -, k2⟩ := G1 i p' b' ha
      exact ⟨k1, k2⟩
    · rw [hp] at hi; simp [CPc.isRq, hf] at hi
    · exact old (by rw [ho]; rfl) (by rw [ha]; simp)
    · exact old (by rw [ho]; rfl) (by rw [ha]; simp)
    · refine old ?_ (by rw [ha]; simp)
      rw [hp] at hi; rw [ho]; exact hi
  have hrqo : ∀ c', c' ≠ c → ∀ i, ((s.con c').c.pc i).isRq = true → s'.rq i = s.rq i := by
    intro c' hc' i hi
    obtain ⟨-, m, idx, nc, k⟩ := h.ask c' i hi
    rcases G4 i with ⟨h3, -⟩ | ⟨p, b, ha, h3, -⟩ | ⟨f, g, ha, h1, h2, -⟩
    · exact h3
    · obtain ⟨-, -, -, m', idx', nc', k2⟩ := G1 i p b ha
      rw [k] at k2; cases k2; exact absurd rfl hc'
    · obtain ⟨-, m', idx', nc', k2⟩ := h.ask c i (by rw [h1]; exact h2)
      rw [k] at k2; cases k2; exact absurd rfl hc'
  -- the new request
  have hnew : ∀ i f g, a = .cl (.enq i) → (s.con c).c.pc i = .enq f g → f.resp = true →
      s.rq i = .asked ∧ (∃ m idx nc, s.api.pc i = .req m idx c nc) ∧
      Requested e' (s.con c).c.frames.length (s.arg i).1 (s.arg i).2.1 := by
    intro i f g ha hi hr
    obtain ⟨k1, k2⟩ := h.ask c i (by rw [hi]; exact hr)
    refine ⟨k1, k2, f, ?_, hr, h.askB c i f (by rw [hi]; rfl) hr⟩
    subst ha
    obtain ⟨f', g', k3, -, k4⟩ := enq_pc he
    rw [hi] at k3; cases k3
    rw [k4]; simp
  have hsub : ∀ i t, s'.rq i = .sub t → s.rq i = .sub t ∨ (t = (s.con c).c.frames.length ∧ (s.api.pc i).con = some c) := by
    intro i t hi
    rcases G4 i with ⟨h3, -⟩ | ⟨p, b, ha, h3, -⟩ | ⟨f, g, ha, h1, h2, h3, -⟩
    · rw [h3] at hi; exact .inl hi
    · rw [h3] at hi; cases hi
    · rw [h3] at hi; cases hi
      obtain ⟨-, ⟨m, idx, nc, k⟩, -⟩ := hnew i f g ha h1 h2
      exact .inr ⟨rfl, by rw [k]; rfl⟩
  have hsublt : ∀ i t c', s.rq i = .sub t → (s.api.pc i).con = some c' → t < (s.con c').c.frames.length := by
    intro i t c' h1 h2
    exact Requested.lt (h.tried i c' t (h.sub i t c' h1 h2)).2.2
  have hat : ∀ c' : Nat, setAt s.con c e' c' = if c' = c then e' else s.con c' := fun c' => rfl
  obtain ⟨t1, t2, t3, t4⟩ := tame
  refine ⟨by rw [e1]; exact h.apiR, ?_, by rw [e1, e3]; exact h.arg, ?_, ?_, ?_, ?_, ?_, ?_, ?_, ?_, ?_, ?_, by rw [e4]; exact h.nodup, ?_, ?_, ?_, ?_⟩
  · intro c'
    rw [e2, hat]
    split
    · exact eRun_snoc (h.conR c) he
    · exact h.conR c'
  · intro c' i p b
    rw [e2, hat]
    split
    · exact t1 i p b
    · exact h.tameP c' i p b
  · intro c' i f
    rw [e2, hat]
    split
    · exact t2 i f
    · exact h.tameO c' i f
  · intro c'
    rw [e2, hat]
    split
    · exact t4
    · exact h.tameF c'
  · intro c' i
    rw [e2, hat, e1]
    split
    · next e => subst e; exact hask i
    · next e =>
      intro hi
      rw [hrqo c' e i hi]
      exact h.ask c' i hi
  · intro c' i f
    rw [e2, hat, e3]
    split
    · exact t3 i f
    · exact h.askB c' i f
  · intro i hi
    rw [e1]
    rcases G4 i with ⟨h3, -⟩ | ⟨p, b, ha, h3, -⟩ | ⟨f, g, ha, h1, h2, h3, -⟩
    · rw [h3] at hi; exact h.rqAt i hi
    · obtain ⟨-, -, -, m', idx', nc', k2⟩ := G1 i p b ha
      rw [k2]; simp [APc.con]
    · obtain ⟨-, ⟨m, idx, nc, k⟩, -⟩ := hnew i f g ha h1 h2
      rw [k]; simp [APc.con]
  · intro i t c' h1 h2
    rw [e1] at h2
    rcases G4 i with ⟨h3, h4⟩ | ⟨p, b, ha, h3, -⟩ | ⟨f, g, ha, k1, k2, h3, h4⟩
    · rw [h3] at h1; rw [h4]; exact h.sub i t c' h1 h2
    · rw [h3] at h1; cases h1
    · rw [h3] at h1; cases h1
      obtain ⟨-, ⟨m, idx, nc, k⟩, -⟩ := hnew i f g ha k1 k2
      rw [k] at h2; cases h2
      rw [h4]; exact List.mem_cons_self
  · intro i m idx c' hi
    rw [e1] at hi
    obtain ⟨t, k1, k2⟩ := h.wt i m idx c' hi
    refine ⟨t, ?_, by rw [e2]; exact hrets _ _ k2⟩
    rcases G4 i with ⟨h3, -⟩ | ⟨p, b, ha, h3, -⟩ | ⟨f, g, ha, h1, h2, h3, -⟩
    · rw [h3]; exact k1
    · obtain ⟨-, -, k, -⟩ := G1 i p b ha
      rw [k] at k1; cases k1
    · obtain ⟨k, -⟩ := hnew i f g ha h1 h2
      rw [k] at k1; cases k1
  · intro i j c' t h1 h2 h3 h4
    rw [e1] at h3 h4
    have newI : ∀ i j, s'.rq i = .sub t → s'.rq j = .sub t → (s.api.pc i).con = some c' → (s.api.pc j).con = some c' →
        s.rq i ≠ .sub t → i = j := by
      intro i j h1 h2 h3 h4 hn
      rcases G4 i with ⟨k, -⟩ | ⟨p, b, ha, k, -⟩ | ⟨f, g, ha, l1, l2, k, -⟩
      · rw [k] at h1; exact absurd h1 hn
      · rw [k] at h1; cases h1
      · rcases G4 j with ⟨k', -⟩ | ⟨p', b', ha', k', -⟩ | ⟨f', g', ha', -⟩
        · rw [k] at h1; cases h1
          rw [k'] at h2
          obtain ⟨-, ⟨m, idx, nc, k3⟩, -⟩ := hnew i f g ha l1 l2
          rw [k3] at h3; cases h3
          exact absurd (hsublt j _ _ h2 h4) (Nat.lt_irrefl _)
        · rw [k'] at h2; cases h2
        · rw [ha] at ha'; cases ha'; rfl
    by_cases hi : s.rq i = .sub t
    · by_cases hj : s.rq j = .sub t
      · exact h.dist i j c' t hi hj h3 h4
      · exact (newI j i h2 h1 h4 h3 hj).symm
    · exact newI i j h1 h2 h3 h4 hi
  · intro r hr i h1
    rw [e4] at hr
    rw [e1]
    rcases hsub i _ h1 with h2 | ⟨h2, h3⟩
    · exact h.fresh r hr i h2
    · intro h4
      rw [h3] at h4; cases h4
      have := Requested.lt (h.out r hr).2.2.2.1
      omega
  · rw [e4, e1, e2]
    intro r hr
    obtain ⟨h1, h2, h3, h4, h5, h6⟩ := h.out r hr
    exact ⟨h1, h2, h3, hreq _ _ _ _ h4, hrets _ _ h5, hrevs _ _ _ h6⟩
  · intro i c' t hi
    rw [e1, e2, e3]
    have old : (c', t) ∈ s.tries i → s.api.made c' = true ∧ (∀ k, (s.arg i).2.2 = some k → s.api.home c' = k) ∧
        Requested (setAt s.con c e' c') t (s.arg i).1 (s.arg i).2.1 := by
      intro hi
      obtain ⟨k1, k2, k3⟩ := h.tried i c' t hi
      exact ⟨k1, k2, hreq _ _ _ _ k3⟩
    rcases G4 i with ⟨-, h4⟩ | ⟨p, b, ha, -, h4⟩ | ⟨f, g, ha, k1, k2, -, h4⟩
    · rw [h4] at hi; exact old hi
    · rw [h4] at hi; exact old hi
    · rw [h4] at hi
      rcases List.mem_cons.1 hi with hi | hi
      · cases hi
        obtain ⟨-, ⟨m, idx, nc, k⟩, k3⟩ := hnew i f g ha k1 k2
        have hmade : s.api.made c = true ∧ s.api.home c = idx := by
          obtain ⟨acts, h⟩ := h.apiR
          exact (AInv.reach h).t.ref i idx c (by rw [k]; rfl)
        refine ⟨hmade.1, ?_, by rw [hat, if_pos rfl]; exact k3⟩
        intro x hx
        rw [hmade.2]
        have harg := h.arg i
        rw [k] at harg
        cases m with
        | one => rw [harg.1 idx rfl] at hx; exact Option.some.inj hx
        | first => rw [harg.2.1 .first idx rfl (by decide)] at hx; cases hx
        | second => rw [harg.2.1 .second idx rfl (by decide)] at hx; cases hx
      · exact old hi
  · intro i
    rcases G4 i with ⟨-, h4⟩ | ⟨p, b, ha, -, h4⟩ | ⟨f, g, ha, k1, k2, -, h4⟩
    · rw [h4]; exact h.tnodup i
    · rw [h4]; exact h.tnodup i
    · rw [h4]
      refine List.nodup_cons.2 ⟨fun hm => ?_, h.tnodup i⟩
      exact absurd (Requested.lt (h.tried i _ _ hm).2.2) (Nat.lt_irrefl _)
  · intro i
    have hl := h.left i
    rw [e1, e3]
    rcases G4 i with ⟨h3, h4⟩ | ⟨p, b, ha, h3, h4⟩ | ⟨f, g, ha, k1, k2, h3, h4⟩
    · rw [h3, h4]; exact hl
    · obtain ⟨-, -, k, m, idx, nc, k2⟩ := G1 i p b ha
      rw [h3, h4]
      rw [k, k2] at hl
      rw [k2]; exact hl
    · obtain ⟨k, ⟨m, idx, nc, k3⟩, -⟩ := hnew i f g ha k1 k2
      rw [h3, h4, k3]
      rw [k, k3] at hl
      simp only [APc.left, List.length_cons] at hl ⊢
      omega

theorem ANInv.step {conf : CConf} {n : Nat} {ok : Nat → Bool} {s s' : ANSt} {a : ANAct} (h : ANInv conf n ok s) (hs : anStep conf s a = some s') :
    ANInv conf n ok s' := by
  have plain : ∀ (b : AAct) (a' : ASt), aStep s.api b = some a' → (∀ i k, b ≠ .call i k ∧ b ≠ .callOne i k) →
      (∀ i r, b = .res i r → (s.api.pc i).con = none) → ANInv conf n ok { s with api := a' } := by
    intro b a' hb h1 h2
    have h3 : ∀ j, s.rq j ≠ .no → a'.pc j = s.api.pc j := by
      intro j hj
      refine con_step hb (h.rqAt j hj) ?_
      rintro r rfl
      exact h.rqAt j hj (h2 j r rfl)
    refine h.api (s' := { s with api := a' }) hb rfl rfl (okArg_step h.arg h1 hb) ?_ ?_ ?_
    · intro j
      refine .inl ⟨rfl, rfl, aleft_step hb h1 (fun hj => h.rqAt j hj) ?_⟩
      rintro r rfl m idx c nc hp
      have := h2 j r rfl
      rw [hp] at this; cases this
    · intro j
      exact .inl ⟨rfl, fun hj => by rw [h3 j hj], fun hj => h3 j (by rw [hj]; simp)⟩
    · intro j m idx c hj
      rcases wait_step hb hj with hj | ⟨rfl, nc, hr⟩
      · exact h.wt j m idx c hj
      · have := h2 j true rfl
        rw [hr] at this; cases this
  -- the end of a call of Request or GetFrameWithContext
  have ends : ∀ (i : Nat) (r : Bool) (a' : ASt) (q : Rq) (m : AMode) (idx c : Nat), aStep s.api (.res i r) = some a' →
      (q = .no ∨ ∃ t, q = .sub t ∧ s.rq i = q ∧ (t, CRes.ok) ∈ (s.con c).c.rets) →
      (s.api.pc i = .wait m idx c ∧ q = .no ∨ ∃ nc, s.api.pc i = .req m idx c nc ∧ (r = true → q ≠ .no) ∧ (s.con c).c.pc i = .idle) →
      (r = true → q = .no → s.api.pc i = .wait m idx c) → (r = false → q = .no) →
      ANInv conf n ok { s with api := a', rq := setAt s.rq i q } := by
    intro i r a' q m idx c hb hq hp hr0 hr1
    have hoth : ∀ j, j ≠ i → a'.pc j = s.api.pc j := by
      intro j hj
      rcases hp with ⟨hp, -⟩ | ⟨nc, hp, -⟩
      · cases r <;> cases m <;> simp only [aStep, hp, ASt.fail, if_true, Option.some.injEq, Bool.false_eq_true, if_false] at hb <;>
          subst hb <;> simp [setAt, hj]
      · cases r <;> simp only [aStep, hp, if_true, Option.some.injEq, Bool.false_eq_true, if_false] at hb <;> subst hb <;> simp [setAt, hj]
    have hpi : (s.api.pc i = .wait m idx c ∧ a'.pc i = (if r = false ∧ m = .first then .range else .idle)) ∨
        ∃ nc, s.api.pc i = .req m idx c nc ∧ a'.pc i = if r then .wait m idx c else .cls m idx c nc := by
      rcases hp with ⟨hp, -⟩ | ⟨nc, hp, -⟩
      · refine .inl ⟨hp, ?_⟩
        cases r <;> cases m <;> simp only [aStep, hp, ASt.fail, if_true, Option.some.injEq, Bool.false_eq_true, if_false] at hb <;>
          subst hb <;> simp [setAt]
      · refine .inr ⟨nc, hp, ?_⟩
        cases r <;> simp only [aStep, hp, if_true, Option.some.injEq, Bool.false_eq_true, if_false] at hb <;> subst hb <;> simp [setAt]
    have hisRq : q = .no → ∀ c', ((s.con c').c.pc i).isRq = false := by
      intro hq0 c'
      cases e : ((s.con c').c.pc i).isRq with
      | false => rfl
      | true =>
        obtain ⟨h1, m', idx', nc', h2⟩ := h.ask c' i e
        rcases hp with ⟨hp, -⟩ | ⟨nc, hp, -, h3⟩
        · rw [hp] at h2; cases h2
        · rw [hp] at h2; cases h2
          rw [h3] at e; cases e
    refine h.api (s' := { s with api := a', rq := setAt s.rq i q }) hb rfl rfl (okArg_step h.arg (by simp) hb) ?_ ?_ ?_
    · intro j
      refine .inl ⟨rfl, rfl, ?_⟩
      by_cases e : j = i
      · subst e
        simp only [setAt, if_true]
        rcases hpi with ⟨k1, k2⟩ | ⟨nc, k1, k2⟩
        · rw [k1, k2]
          cases m <;> cases r <;> simp [APc.left, AMode.left]
        · rw [k1, k2]
          cases r <;> simp [APc.left] <;> omega
      · simp only [setAt, if_neg e, hoth j e]
        exact Nat.le_refl _
    · intro j
      by_cases e : j = i
      · subst e
        rcases hq with rfl | ⟨t, rfl, hq, -⟩
        · exact .inr ⟨by simp [setAt], hisRq rfl⟩
        · refine .inl ⟨by simp [setAt, hq], fun _ => ?_, fun h0 => by rw [hq] at h0; cases h0⟩
          rcases hpi with ⟨k1, k2⟩ | ⟨nc, k1, k2⟩
          · rcases hp with ⟨-, hp⟩ | ⟨nc, hp, -⟩
            · cases hp
            · rw [k1] at hp; cases hp
          · have : r = true := by cases r with
              | true => rfl
              | false => have := hr1 rfl; cases this
            subst this
            rw [k1, k2]; rfl
      · exact .inl ⟨by simp [setAt, e], fun _ => by rw [hoth j e], fun _ => hoth j e⟩
    · intro j m' idx' c' hj
      by_cases e : j = i
      · subst e
        rcases hpi with ⟨k1, k2⟩ | ⟨nc, k1, k2⟩
        · rw [k2] at hj; split at hj <;> cases hj
        · rw [k2] at hj
          split at hj
          · next hr =>
            cases hj
            rcases hq with hq | ⟨t, rfl, -, hq⟩
            · have := hr0 hr hq
              rw [k1] at this; cases this
            · exact ⟨t, by simp [setAt], hq⟩
          · cases hj
      · rw [hoth j e] at hj
        obtain ⟨t, k1, k2⟩ := h.wt j m' idx' c' hj
        exact ⟨t, by simp only [setAt, if_neg e]; exact k1, k2⟩
  have begins : ∀ (i idx : Nat) (b : AAct) (a' : ASt) (x : Cmd × Bytes × Option Nat) (m : AMode), aStep s.api b = some a' →
      s.api.pc i = .idle → a'.pc = setAt s.api.pc i (.load m idx) → (m = .one ∧ x.2.2 = some idx ∨ m = .first ∧ x.2.2 = none) →
      ANInv conf n ok { s with api := a', arg := setAt s.arg i x, tries := setAt s.tries i [] } := by
    intro i idx b a' x m hb hi ha' hm
    have hno : s.rq i = .no := by
      cases e : s.rq i with
      | no => rfl
      | asked => have := h.rqAt i (by rw [e]; simp); rw [hi] at this; exact absurd rfl this
      | sub t => have := h.rqAt i (by rw [e]; simp); rw [hi] at this; exact absurd rfl this
    refine h.api (s' := { s with api := a', arg := setAt s.arg i x, tries := setAt s.tries i [] }) hb rfl rfl ?_ ?_ ?_ ?_
    · intro j
      simp only [ha', setAt]
      split
      · rcases hm with ⟨rfl, e⟩ | ⟨rfl, e⟩ <;> simp [APc.okArg, APc.mi, e]
      · exact h.arg j
    · intro j
      by_cases e : j = i
      · subst e
        refine .inr ⟨hno, by simp [setAt], ?_⟩
        simp only [ha', setAt, if_true]
        rcases hm with ⟨rfl, e⟩ | ⟨rfl, e⟩ <;> simp [APc.left, AMode.left, e]
      · exact .inl ⟨by simp [setAt, e], by simp [setAt, e], by simp [ha', setAt, e]⟩
    · intro j
      by_cases e : j = i
      · subst e
        exact .inl ⟨rfl, fun h0 => absurd hno h0, fun h0 => by rw [hno] at h0; cases h0⟩
      · exact .inl ⟨rfl, fun _ => by simp [ha', setAt, e], fun _ => by simp [ha', setAt, e]⟩
    · intro j m' idx' c' hj
      simp only [ha', setAt] at hj
      split at hj
      · cases hj
      · exact h.wt j m' idx' c' hj
  cases a with
  | call i idx cmd payload =>
    obtain ⟨a', hb, rfl⟩ := Option.map_eq_some_iff.1 hs
    have hb' := hb
    simp only [aStep] at hb'
    split at hb'
    · next hi => cases hb'; exact begins i idx _ _ _ .first hb hi rfl (.inr ⟨rfl, rfl⟩)
    · cases hb'
  | callOne i idx cmd payload =>
    obtain ⟨a', hb, rfl⟩ := Option.map_eq_some_iff.1 hs
    have hb' := hb
    simp only [aStep] at hb'
    split at hb'
    · next hi => cases hb'; exact begins i idx _ _ _ .one hb hi rfl (.inl ⟨rfl, rfl⟩)
    · cases hb'
  | api a =>
    cases a with
    | call i k => cases hs
    | callOne i k => cases hs
    | close i =>
      obtain ⟨a', hb, rfl⟩ := Option.map_eq_some_iff.1 hs
      exact plain _ _ hb (by simp) (by simp)
    | go i =>
      obtain ⟨a', hb, rfl⟩ := Option.map_eq_some_iff.1 hs
      exact plain _ _ hb (by simp) (by simp)
    | pick i c =>
      obtain ⟨a', hb, rfl⟩ := Option.map_eq_some_iff.1 hs
      exact plain _ _ hb (by simp) (by simp)
    | res i ok' =>
      simp only [anStep] at hs
      split at hs
      · next hp =>
        obtain ⟨a', hb, rfl⟩ := Option.map_eq_some_iff.1 hs
        refine plain _ _ hb (by simp) ?_
        intro j r e
        cases e
        rw [hp]; rfl
      · next m idx c hp =>
        split at hs
        · cases hs
        · obtain ⟨a', hb, rfl⟩ := Option.map_eq_some_iff.1 hs
          exact ends i false a' .no m idx c hb (.inl rfl) (.inl ⟨hp, rfl⟩) (by simp) (by simp)
      · cases hs
  | con c a => exact ANInv.con h hs
  | sent i =>
    simp only [anStep] at hs
    split at hs
    · next m idx c nc t hp hq =>
      split at hs
      · next hg =>
        obtain ⟨a', hb, rfl⟩ := Option.map_eq_some_iff.1 hs
        have h0 := ends i true a' (.sub t) m idx c hb (.inr ⟨t, rfl, hq, hg.2⟩) (.inr ⟨nc, hp, by simp, hg.1⟩) (by simp) (by simp)
        have e : setAt s.rq i (.sub t) = s.rq := by
          funext j; simp only [setAt]; split
          · next e => rw [e, hq]
          · rfl
        rw [e] at h0
        exact h0
      · cases hs
    · cases hs
  | failed i =>
    simp only [anStep] at hs
    split at hs
    · next m idx c nc hp hq =>
      split at hs
      · next hg =>
        obtain ⟨a', hb, rfl⟩ := Option.map_eq_some_iff.1 hs
        exact ends i false a' .no m idx c hb (.inl rfl) (.inr ⟨nc, hp, by simp, hg⟩) (by simp) (by simp)
      · cases hs
    · next m idx c nc t hp hq =>
      split at hs
      · next hg =>
        obtain ⟨a', hb, rfl⟩ := Option.map_eq_some_iff.1 hs
        exact ends i false a' .no m idx c hb (.inl rfl) (.inr ⟨nc, hp, by simp, hg.1⟩) (by simp) (by simp)
      · cases hs
    · cases hs
  | got i f =>
    simp only [anStep] at hs
    split at hs
    · next m idx c t hp hse =>
      split at hs
      · next hg =>
        obtain ⟨a', hb, rfl⟩ := Option.map_eq_some_iff.1 hs
        have h0 := ends i true a' .no m idx c hb (.inl rfl) (.inl ⟨hp, rfl⟩) (fun _ _ => hp) (by simp)
        have ha' : a' = { s.api with log := s.api.log ++ [.result i], pc := setAt s.api.pc i .idle } := by
          simp only [aStep, hp, if_true, Option.some.injEq] at hb
          exact hb.symm
        have hcon : (s.api.pc i).con = some c := by rw [hp]; rfl
        obtain ⟨t', e1, e2⟩ := h.wt i m idx c hp
        rw [hse] at e1; cases e1
        have e3 := (h.tried i c t (h.sub i t c hse hcon)).2.2
        have hmade : s.api.made c = true ∧ s.api.home c = idx := by
          obtain ⟨acts, h⟩ := h.apiR
          exact (AInv.reach h).t.ref i idx c (by rw [hp]; rfl)
        have harg := h.arg i
        refine ⟨h0.apiR, h0.conR, h0.arg, h0.tameP, h0.tameO, h0.tameF, h0.ask, h0.askB, h0.rqAt, h0.sub, h0.wt, h0.dist, ?_, ?_, ?_,
          h0.tried, h0.tnodup, h0.left⟩
        · intro r hr j hj hjc
          rcases List.mem_append.1 hr with hr | hr
          · exact h0.fresh r hr j hj hjc
          · cases List.mem_singleton.1 hr
            simp only [setAt] at hj
            split at hj
            · cases hj
            · next e =>
              rw [ha'] at hjc
              simp only [setAt, if_neg e] at hjc
              exact e (h.dist j i c t hj hse hjc hcon)
        · refine List.pairwise_append.2 ⟨h.nodup, List.pairwise_singleton _ _, ?_⟩
          intro r hr r' hr' ec er
          cases List.mem_singleton.1 hr'
          exact h.fresh r hr i (by rw [hse, er]) (by rw [hcon, ec])
        · intro r hr
          rcases List.mem_append.1 hr with hr | hr
          · exact h0.out r hr
          · cases List.mem_singleton.1 hr
            refine ⟨by rw [ha']; exact hmade.1, by rw [ha']; exact hmade.2, ?_, e3, e2, hg⟩
            intro k hk
            rw [hp] at harg
            cases m with
            | one => rw [harg.1 idx rfl] at hk; exact Option.some.inj hk
            | first => rw [harg.2.1 .first idx rfl (by decide)] at hk; cases hk
            | second => rw [harg.2.1 .second idx rfl (by decide)] at hk; cases hk
      · cases hs
    · cases hs

theorem ANInv.reach {conf : CConf} {n : Nat} {ok : Nat → Bool} {acts : List ANAct} {s : ANSt} (h : anRun conf n ok acts = some s) : ANInv conf n ok s :=
  runActs_inv (fun _ _ _ h hs => ANInv.step h hs) (ANInv.init conf n ok) h

theorem apiFrame_layout (id : UInt64) (cmd : Cmd) (p : Bytes) : apiFrame id cmd p = layout id cmd NBFlag p := by
  have hl : 16 ≤ ({ DFW.new.fromPool with resp := some 0 } : DFW).wbuf.length := by decide
  obtain ⟨h1, h2⟩ := (DFW.startWrite_holds _ id cmd NBFlag hl).writeBytes p
  rw [DFW.startWrite_payload _ _ _ _ hl, show ({ DFW.new.fromPool with resp := some 0 } : DFW).payload = [] from rfl, List.nil_append] at h2
  obtain ⟨sub, e1, e2, -⟩ := endWrite_ok h1 none (fun _ => (none : Option Unit)) (sentAs_noCodec none _ _ (by decide))
  rw [h2] at e2
  have h : (clientRequest none (fun _ => (none : Option Unit)) DFW.new id 0 cmd NBFlag p).submitted = some sub := by
    simp only [clientRequest, writeFirstFrame]
    exact e1
  simp only [apiFrame, h]
  exact e2

/-- **C113, calls and requests.** However Call, CallOne, CallAll and Close interleave: a call that returned a frame made a request with
exactly its command and payload, without stream bits, on a connection dialled for an endpoint of the API - CallOne for the endpoint asked
for -, the write of this request returned nil and the frame is one that its response object has got; and no two calls returned the
response of the same request. -/
theorem C113_requests {conf : CConf} {n : Nat} {ok : Nat → Bool} {acts : List ANAct} {s : ANSt} (hrun : anRun conf n ok acts = some s) :
    (∀ r ∈ s.out, s.api.made r.con = true ∧ s.api.home r.con = r.idx ∧ (∀ k, r.one = some k → r.idx = k) ∧
      (∃ f, (s.con r.con).c.frames[r.req]? = some f ∧ f.bytes = layout f.rid r.cmd NBFlag r.payload ∧ (r.req, CRes.ok) ∈ (s.con r.con).c.rets) ∧
      REv.frame r.frame ∈ (s.con r.con).c.revs r.req) ∧
    s.out.Pairwise (fun r r' => r.con = r'.con → r.req ≠ r'.req) := by
  have h := ANInv.reach hrun
  refine ⟨fun r hr => ?_, h.nodup⟩
  obtain ⟨h1, h2, h3, ⟨f, h4, -, h5⟩, h6, h7⟩ := h.out r hr
  exact ⟨h1, h2, h3, ⟨f, h4, by rw [h5, apiFrame_layout], h6⟩, h7⟩

/-- On a connection of the API the id of a request is nobody else's. -/
theorem ANInv.uniq {conf : CConf} {n : Nat} {ok : Nat → Bool} {s : ANSt} (h : ANInv conf n ok s) {c : Nat} (hr : (s.con c).c.ridGen < 2 ^ 63)
    {u t : Nat} {fu ft : CFrame} (hu : (s.con c).c.frames[u]? = some fu) (ht : (s.con c).c.frames[t]? = some ft) (hf : ft.resp = true)
    (hid : fu.rid = ft.rid) : u = t := by
  obtain ⟨acts, he⟩ := h.conR c
  have hI := (EAll.reach he).i.i
  obtain ⟨hu1, hu2⟩ := List.getElem?_eq_some_iff.1 hu
  obtain ⟨ht1, ht2⟩ := List.getElem?_eq_some_iff.1 ht
  have hresp : fu.resp = true := by
    rcases h.tameF c fu (List.mem_of_getElem? hu) with h1 | h1
    · exact h1
    · obtain ⟨g, -, -, hg⟩ := hI.inFrames ft (List.mem_of_getElem? ht) hf
      rw [hid, hg, (C20_parity g 0).1] at h1
      cases h1
  have hpw := List.pairwise_iff_getElem.1 (hI.framesInj hr)
  rcases Nat.lt_trichotomy u t with hlt | rfl | hlt
  · exact absurd (by rw [hu2, ht2]; exact hid) (hpw u t hu1 ht1 hlt (by rw [hu2]; exact hresp) (by rw [ht2]; exact hf))
  · rfl
  · exact absurd (by rw [hu2, ht2]; exact hid.symm) (hpw t u ht1 hu1 hlt (by rw [ht2]; exact hf) (by rw [hu2]; exact hresp))

/-- **C113.** If moreover the connection `r.con` a call returned a frame from is wired to its server, whose handlers answer with `R e`
for the endpoint `e` it was dialled for: then the frame returned is, unchanged, one that a handler of that endpoint - for CallOne, of the
one asked for - submitted as the answer, by `R`, to the request of this call, with its command (24 bits) and its payload. -/
theorem C113 {conf : CConf} {n : Nat} {ok : Nat → Bool} {acts : List ANAct} {s : ANSt} (hrun : anRun conf n ok acts = some s)
    {r : ANRes} (hres : r ∈ s.out) (hr : (s.con r.con).c.ridGen < 2 ^ 63)
    {fr : Nat → Frame} {served : Nat → List Frame} {frs : Nat → Nat → Frame} {cnt : Nat → Nat} {ret : Nat → List Frame}
    (hw : Wired (s.con r.con) fr served frs cnt ret) {R : Nat → Frame → Frame → Prop}
    (hR : ∀ g, AnswerBy (R (s.api.home r.con)) (served g) (frs g) (cnt g)) :
    ∃ g k : Nat, k < cnt g ∧ r.frame = (frs g k).toIn ∧ fr r.req ∈ served g ∧ R r.idx (fr r.req) (frs g k) ∧
      (∀ e, r.one = some e → R e (fr r.req) (frs g k)) ∧
      (fr r.req).cmd = UInt32.ofNat (r.cmd.toNat % 2 ^ 24) ∧ (fr r.req).payload = r.payload ∧ (fr r.req).flags = NBFlag := by
  have h := ANInv.reach hrun
  obtain ⟨-, h2, h3, ⟨f, h4, h4r, h5⟩, -, h7⟩ := h.out r hres
  rw [apiFrame_layout] at h5
  obtain ⟨eacts, he⟩ := h.conR r.con
  obtain ⟨g, i, k, q1, q2, -, q4, q5, q6, -⟩ := C107 he hr hw hR h7 (by
    intro u fu ft hu ht hid
    rw [h4] at ht; cases ht
    exact .inl (h.uniq hr hu h4 h4r hid))
  obtain ⟨cfg, c1, -⟩ := hw.there
  have henc := c1 g r.req f h4
  rw [h5] at henc
  have hfr := encodes_layout_flags (by decide) henc
  rw [h2] at q6
  refine ⟨g, k, q1, q4, q5, q6, fun e he => by rw [← h3 e he]; exact q6, ?_, ?_, ?_⟩ <;> rw [hfr]

/-! An execution: two goroutines call endpoint 1 of two; the server (that of `rpc_example`) answers the second first. -/

def pnUp : Bytes := layout 3 1 8 [7] ++ layout 5 2 8 [8, 9]

def pnSrc : Src := ⟨[], [.data (pnUp.take 20), .data (pnUp.drop 20)]⟩

def pnReqs : List Frame := [⟨3, 8, 1, [7]⟩, ⟨5, 8, 2, [8, 9]⟩]

def pnStreams : List SAct :=
  [.recv ⟨3, 8, 1, [7]⟩, .rstep, .rstep, .rstep, .rstep, .rstep, .recv ⟨5, 8, 2, [8, 9]⟩, .rstep]

def pnDispatch : List RAct :=
  [.rFrame (Frame.toR ⟨3, 8, 1, [7]⟩), .rSend, .mGo, .mGo, .rGo, .rGo, .rFrame (Frame.toR ⟨5, 8, 2, [8, 9]⟩), .rSend, .mGo, .mGo]

theorem pnServes : Serves ⟨100, none⟩ pnUp pnReqs := by
  have h1 : okFrames (readN ⟨100, none⟩ 2 pnSrc).1 = some pnReqs := by decide +kernel
  have h2 : (sRun SSt.init pnStreams).map (fun t => (t.recv, returned t.log)) = some (pnReqs, pnReqs) := by decide +kernel
  have h3 : (rdRun ⟨0, 0, 0, false⟩ 0 pnDispatch).map (fun u => (u.arr.map Prod.fst, u.log.filterMap startOf)) =
      some (pnReqs.map Frame.toR, [0, 1]) := by decide +kernel
  obtain ⟨t, h5, h6⟩ := Option.map_eq_some_iff.1 h2
  obtain ⟨u, h7, h8⟩ := Option.map_eq_some_iff.1 h3
  simp only [Prod.mk.injEq] at h6 h8
  refine ⟨pnSrc, 2, _, pnStreams, t, _, 0, pnDispatch, u, ?_, okFrames_ok h1, h5, h6.1, h7, ?_, ?_⟩
  · exact (by decide +kernel : srcBytes pnSrc = pnUp) ▸ List.prefix_refl _
  · rw [h8.1, h6.2]; exact List.prefix_refl _
  · rw [h8.2, h6.2]; rfl

def pnFr : Nat → Frame
  | 0 => ⟨3, 8, 1, [7]⟩
  | _ => ⟨5, 8, 2, [8, 9]⟩

def pnActs : List ANAct :=
  [.callOne 0 1 1 [7], .api (.go 0), .call 1 1 2 [8, 9], .api (.go 1)] ++
  ([.lGo, .lGo, .lGo, .request 0 false (layout 3 1 8 [7]), .go 0, .go 0, .go 0, .enq 0,
    .request 1 false (layout 5 2 8 [8, 9]), .go 1, .go 1, .go 1, .enq 1,
    .wDeq true true, .wDeq true true, .wGo, .wGo, .wWrite 35 true].map fun a => .con 1 (.cl a)) ++
  ([.cl .rGo, .cl .rGo, .sRead 1, .sRead 1, .sSend 1 (Frame.toIn ⟨5, 0, 2, [8, 9, 8, 9]⟩), .sSend 1 (Frame.toIn ⟨3, 0, 1, [7, 7]⟩),
    .recv, .cl .rGo, .cl .rGo, .recv, .cl .rGo, .cl .rGo, .cl .wGo, .cl .wGo, .cl (.recv 0), .cl (.recv 1)].map fun a => .con 1 a) ++
  [.sent 0, .sent 1, .got 1 (Frame.toIn ⟨5, 0, 2, [8, 9, 8, 9]⟩), .got 0 (Frame.toIn ⟨3, 0, 1, [7, 7]⟩)]

/-- All hypotheses of C113 hold of it, with handlers that double the payload at endpoint 1 and answer nothing elsewhere. -/
example : ∃ s, anRun cfg2 2 (fun _ => true) pnActs = some s ∧
    s.out = [⟨1, 2, [8, 9], none, 1, 1, 1, Frame.toIn ⟨5, 0, 2, [8, 9, 8, 9]⟩⟩, ⟨0, 1, [7], some 1, 1, 1, 0, Frame.toIn ⟨3, 0, 1, [7, 7]⟩⟩] ∧
    (s.con 1).c.ridGen < 2 ^ 63 ∧
    Wired (s.con 1) pnFr (fun g => if g = 1 then pnReqs else []) rpcFrs (fun g => if g = 1 then 2 else 0)
      (fun g => if g = 1 then rpcAnswers else []) ∧
    ∀ g, AnswerBy ((fun e q a => e = 1 ∧ rpcDouble q a) (s.api.home 1)) (if g = 1 then pnReqs else []) (rpcFrs g) (if g = 1 then 2 else 0) := by
  have h1 : (anRun cfg2 2 (fun _ => true) pnActs).map (fun s => (s.out, (s.con 1).c.ridGen, s.api.home 1, (s.con 1).down,
        ((s.con 1).c.frames.map fun f => (f.rid, f.bytes)), (s.con 1).c.wires 1)) =
      some ([⟨1, 2, [8, 9], none, 1, 1, 1, Frame.toIn ⟨5, 0, 2, [8, 9, 8, 9]⟩⟩, ⟨0, 1, [7], some 1, 1, 1, 0, Frame.toIn ⟨3, 0, 1, [7, 7]⟩⟩], 2, 1,
        setAt (setAt (fun _ => []) 1 [(Frame.toIn ⟨5, 0, 2, [8, 9, 8, 9]⟩, 2)]) 1
          [(Frame.toIn ⟨5, 0, 2, [8, 9, 8, 9]⟩, 2), (Frame.toIn ⟨3, 0, 1, [7, 7]⟩, 2)],
        [(3, layout 3 1 8 [7]), (5, layout 5 2 8 [8, 9])], pnUp) := by rfl
  obtain ⟨s, h2, h3⟩ := Option.map_eq_some_iff.1 h1
  simp only [Prod.mk.injEq] at h3
  obtain ⟨e1, e2, e3, d1, d2, d3⟩ := h3
  have hfr : ∀ (t : Nat) (f : CFrame), (s.con 1).c.frames[t]? = some f →
      (t = 0 ∧ f.rid = 3 ∧ f.bytes = layout 3 1 8 [7]) ∨ (t = 1 ∧ f.rid = 5 ∧ f.bytes = layout 5 2 8 [8, 9]) := by
    intro t f ht
    have h5 : ((s.con 1).c.frames.map fun f => (f.rid, f.bytes))[t]? = some (f.rid, f.bytes) := by rw [List.getElem?_map, ht]; rfl
    rw [d2] at h5
    match t, h5 with
    | 0, h5 => simp at h5; exact .inl ⟨rfl, h5.1.symm, h5.2.symm⟩
    | 1, h5 => simp at h5; exact .inr ⟨rfl, h5.1.symm, h5.2.symm⟩
    | t + 2, h5 => simp at h5
  obtain ⟨gs, g1, g2, g3⟩ := Arrives_example
  refine ⟨s, h2, e1, by rw [e2]; decide, ⟨⟨fun _ => ⟨100, none⟩, ?_, ?_⟩, ?_, ?_, ?_⟩, ?_⟩
  · intro g t f ht
    rcases hfr t f ht with ⟨rfl, -, h⟩ | ⟨rfl, -, h⟩
    · rw [h]; show Encodes ⟨100, none⟩ _ _; exact ⟨1, [7], rfl, by decide, by decide, .inr (by decide), rfl⟩
    · rw [h]; show Encodes ⟨100, none⟩ _ _; exact ⟨2, [8, 9], rfl, by decide, by decide, .inr (by decide), rfl⟩
  · intro g
    split
    · next hg => subst hg; rw [d3]; exact pnServes
    · exact Serves_none _ _
  · intro t f ht
    rcases hfr t f ht with ⟨rfl, h, -⟩ | ⟨rfl, h, -⟩ <;> rw [h] <;> rfl
  · intro g
    by_cases hg : g = 1
    · subst hg
      have hl := congrArg List.length g2
      simp only [List.length_map, List.length_cons, List.length_nil] at hl
      refine ⟨2, rpcServer, gs, ⟨0, none⟩, rpcAnswers, g1, hl, ?_, g3⟩
      intro k f hk
      have h5 : (gs.frames.map (·.bytes))[k]? = some f.bytes := by rw [List.getElem?_map, hk]; rfl
      rw [g2] at h5
      match k, h5 with
      | 0, h5 => simp at h5; rw [← h5]; exact ⟨2, [8, 9, 8, 9], rfl, by decide, by decide, .inl (by decide), rfl⟩
      | 1, h5 => simp at h5; rw [← h5]; exact ⟨1, [7, 7], rfl, by decide, by decide, .inl (by decide), rfl⟩
      | k + 2, h5 => simp at h5
    · simp only [hg, if_false]
      exact ⟨0, [], _, ⟨0, none⟩, [], rfl, rfl, by simp [GSt.init], ⟨[], []⟩, 0, [], SSt.init, List.nil_prefix, rfl, rfl, rfl, rfl⟩
  · intro g
    rw [d1]
    by_cases hg : g = 1
    · subst hg; rfl
    · simp [setAt, hg]
  · intro g k hk _ _
    by_cases hg : g = 1
    · subst hg
      match k, hk with
      | 0, _ => exact ⟨⟨5, 8, 2, [8, 9]⟩, by simp [pnReqs], rfl, e3, rfl⟩
      | 1, _ => exact ⟨⟨3, 8, 1, [7]⟩, by simp [pnReqs], rfl, e3, rfl⟩
    · simp [hg] at hk

/-! ## How often a call goes out -/

/-- Goroutine `i` calls `Request`. -/
def Spec.asks (i : Nat) : ANAct → Bool
  | .con _ (.cl (.request j _ _)) => j == i
  | _ => false

/-- A `Request` of goroutine `i`, or something else it waits for, fails. -/
def Spec.fails (i : Nat) : ANAct → Bool
  | .failed j => j == i
  | .api (.res j false) => j == i
  | _ => false

/-- Goroutine `i` calls the API. -/
def Spec.calls (i : Nat) : ANAct → Bool
  | .call j _ _ _ => j == i
  | .callOne j _ _ _ => j == i
  | _ => false

/-- The request was made, submitted or not. -/
def Rq.made : Rq → Rq
  | .no => .no
  | _ => .sub 0

/-- Requests a call may make before something fails. -/
def APc.owes (r : Rq) : APc → Nat
  | .req _ _ _ _ => if r = .no then 1 else 0
  | .wait .. | .idle | .clLock | .clRange | .clLoop _ | .clUn | .panicked => 0
  | _ => 1

theorem owes_step {s s' : ASt} {a : AAct} (hs : aStep s a = some s') (ha : ∀ i k, a ≠ .call i k ∧ a ≠ .callOne i k) {j : Nat} {r : Rq}
    (hr : r ≠ .no → (s.pc j).con ≠ none) (hb : ∀ b, a = .res j b → ∀ m idx c nc, s.pc j ≠ .req m idx c nc) :
    (s'.pc j).owes r ≤ (s.pc j).owes r + if a = .res j false then 1 else 0 := by
  astep_cases hs a
  all_goals try first
    | exact Nat.le_add_right _ _
    | exact absurd rfl (ha _ _).1
    | exact absurd rfl (ha _ _).2
    | (simp only [setAt]; split <;> first | exact Nat.le_add_right _ _ | skip)
  all_goals
    rename_i e
    subst e
  all_goals try (exact absurd (by assumption) (hb _ rfl _ _ _ _))
  all_goals
    have hp := ‹s.pc j = _›
    rw [hp]
    rw [hp] at hr
    cases r <;> simp_all [APc.owes, APc.con]

/-- One step, for goroutine `i`. -/
theorem pot_step {conf : CConf} {n : Nat} {ok : Nat → Bool} {s s' : ANSt} {a : ANAct} (h : ANInv conf n ok s) (hs : anStep conf s a = some s')
    {i : Nat} (hc : calls i a = false) :
    (s'.api.pc i).left (s'.rq i).made + (asks i a).toNat ≤ (s.api.pc i).left (s.rq i).made ∧
    (s'.api.pc i).owes (s'.rq i).made + (asks i a).toNat ≤ (s.api.pc i).owes (s.rq i).made + (fails i a).toNat := by
  have hrm : (s.rq i).made ≠ .no → (s.api.pc i).con ≠ none := by
    intro h1
    refine h.rqAt i ?_
    intro e; rw [e] at h1; exact h1 rfl
  have plain : ∀ (b : AAct) (a' : ASt), aStep s.api b = some a' → (∀ i k, b ≠ .call i k ∧ b ≠ .callOne i k) →
      (∀ i r, b = .res i r → (s.api.pc i).con = none) →
      (a'.pc i).left (s.rq i).made ≤ (s.api.pc i).left (s.rq i).made ∧
      (a'.pc i).owes (s.rq i).made ≤ (s.api.pc i).owes (s.rq i).made + if b = .res i false then 1 else 0 := by
    intro b a' hb h1 h2
    have hq : ∀ b', b = .res i b' → ∀ m idx c nc, s.api.pc i ≠ .req m idx c nc := by
      rintro r rfl m idx c nc hp
      have := h2 i r rfl
      rw [hp] at this; cases this
    exact ⟨aleft_step hb h1 hrm hq, owes_step hb h1 hrm hq⟩
  cases a with
  | call j idx cmd payload =>
    obtain ⟨a', hb, rfl⟩ := Option.map_eq_some_iff.1 hs
    have hj : i ≠ j := by intro e; subst e; simp [calls] at hc
    simp only [aStep] at hb
    split at hb
    · cases hb; simp [setAt, hj, asks]
    · cases hb
  | callOne j idx cmd payload =>
    obtain ⟨a', hb, rfl⟩ := Option.map_eq_some_iff.1 hs
    have hj : i ≠ j := by intro e; subst e; simp [calls] at hc
    simp only [aStep] at hb
    split at hb
    · cases hb; simp [setAt, hj, asks]
    · cases hb
  | api a =>
    cases a with
    | call i k => cases hs
    | callOne i k => cases hs
    | close j =>
      obtain ⟨a', hb, rfl⟩ := Option.map_eq_some_iff.1 hs
      simpa [asks, fails] using plain _ _ hb (by simp) (by simp)
    | go j =>
      obtain ⟨a', hb, rfl⟩ := Option.map_eq_some_iff.1 hs
      simpa [asks, fails] using plain _ _ hb (by simp) (by simp)
    | pick j c =>
      obtain ⟨a', hb, rfl⟩ := Option.map_eq_some_iff.1 hs
      simpa [asks, fails] using plain _ _ hb (by simp) (by simp)
    | res j r =>
      simp only [anStep] at hs
      split at hs
      · next hp =>
        obtain ⟨a', hb, rfl⟩ := Option.map_eq_some_iff.1 hs
        obtain ⟨k1, k2⟩ := plain _ _ hb (by simp) (by intro j' r' e; cases e; rw [hp]; rfl)
        refine ⟨k1, Nat.le_trans k2 (Nat.add_le_add_left ?_ _)⟩
        cases r <;> simp [fails]
        split
        · next e => subst e; simp
        · simp
      · next m idx c hp =>
        split at hs
        · cases hs
        · next hr =>
          have hr : r = false := by simpa using hr
          subst hr
          obtain ⟨a', hb, rfl⟩ := Option.map_eq_some_iff.1 hs
          simp only [aStep, hp, Bool.false_eq_true, if_false, Option.some.injEq] at hb
          subst hb
          by_cases e : i = j
          · subst e
            cases m <;> simp [ASt.fail, setAt, hp, asks, fails, APc.left, APc.owes, AMode.left]
          · cases m <;> simp [ASt.fail, setAt, e, asks]
      · cases hs
  | con c a =>
    obtain ⟨e', he, hk⟩ := anCon_cases hs
    rcases hk with ⟨rfl, h1, -⟩ | ⟨j, b, m, idx, nc, rfl, h1, h2, rfl⟩ | ⟨j, f, g, rfl, h1, h2, rfl⟩
    · have : asks i (.con c a) = false := by
        cases ha : asks i (.con c a) with
        | false => rfl
        | true =>
          unfold asks at ha
          split at ha
          · next c' j p b e => cases e; exact absurd rfl (h1 j p b)
          · cases ha
      simp [this]
    · by_cases e : i = j
      · subst e
        simp only [setAt, if_true, h1, h2, asks, BEq.rfl, Rq.made, APc.left, APc.owes, Bool.toNat_true]
        constructor
        · omega
        · simp
      · have e' : (j == i) = false := by simp [show ¬ j = i from fun x => e x.symm]
        simp [asks, setAt, e, e']
    · by_cases e : i = j
      · subst e
        obtain ⟨k1, -⟩ := h.ask c i (by rw [h1]; exact h2)
        simp [setAt, asks, k1, Rq.made]
      · simp [asks, setAt, e]
  | sent j =>
    simp only [anStep] at hs
    split at hs
    · next m idx c nc t hp hq =>
      split at hs
      · obtain ⟨a', hb, rfl⟩ := Option.map_eq_some_iff.1 hs
        simp only [aStep, hp, if_true, Option.some.injEq] at hb
        subst hb
        by_cases e : i = j
        · subst e
          simp [setAt, asks, hp, hq, Rq.made, APc.left, APc.owes]
        · simp [setAt, e, asks]
      · cases hs
    · cases hs
  | failed j =>
    simp only [anStep] at hs
    split at hs
    · next m idx c nc hp hq =>
      split at hs
      · obtain ⟨a', hb, rfl⟩ := Option.map_eq_some_iff.1 hs
        simp only [aStep, hp, Bool.false_eq_true, if_false, Option.some.injEq] at hb
        subst hb
        by_cases e : i = j
        · subst e
          simp [setAt, asks, fails, hp, hq, Rq.made, APc.left, APc.owes]
        · simp [setAt, e, asks]
      · cases hs
    · next m idx c nc t hp hq =>
      split at hs
      · obtain ⟨a', hb, rfl⟩ := Option.map_eq_some_iff.1 hs
        simp only [aStep, hp, Bool.false_eq_true, if_false, Option.some.injEq] at hb
        subst hb
        by_cases e : i = j
        · subst e
          simp [setAt, asks, fails, hp, hq, Rq.made, APc.left, APc.owes]
        · simp [setAt, e, asks]
      · cases hs
    · cases hs
  | got j f =>
    simp only [anStep] at hs
    split at hs
    · next m idx c t hp hq =>
      split at hs
      · obtain ⟨a', hb, rfl⟩ := Option.map_eq_some_iff.1 hs
        simp only [aStep, hp, if_true, Option.some.injEq] at hb
        subst hb
        by_cases e : i = j
        · subst e
          simp [setAt, asks, hp, Rq.made, APc.left, APc.owes]
        · simp [setAt, e, asks]
      · cases hs
    · cases hs

theorem pot_run {conf : CConf} {n : Nat} {ok : Nat → Bool} {i : Nat} : ∀ {more : List ANAct} {s s' : ANSt}, ANInv conf n ok s →
    runActs (anStep conf) s more = some s' → (∀ a ∈ more, calls i a = false) →
    (s'.api.pc i).left (s'.rq i).made + more.countP (asks i) ≤ (s.api.pc i).left (s.rq i).made ∧
    (s'.api.pc i).owes (s'.rq i).made + more.countP (asks i) ≤ (s.api.pc i).owes (s.rq i).made + more.countP (fails i)
  | [], s, s', _, h, _ => by cases h; simp
  | a :: more, s, s', hi, h, hc => by
    simp only [runActs] at h
    split at h
    · cases h
    · next s1 h1 =>
      obtain ⟨k1, k2⟩ := pot_step hi h1 (i := i) (hc a List.mem_cons_self)
      obtain ⟨l1, l2⟩ := pot_run (i := i) (hi.step h1) h (fun b hb => hc b (List.mem_cons_of_mem _ hb))
      rw [List.countP_cons, List.countP_cons]
      have e1 : (if asks i a = true then 1 else 0) = (asks i a).toNat := by cases asks i a <;> rfl
      have e2 : (if fails i a = true then 1 else 0) = (fails i a).toNat := by cases fails i a <;> rfl
      rw [e1, e2]
      omega

/-- **C114, bound.** However often connections break: from the moment goroutine `i` calls CallOne to any
later moment before its next call, it calls `Request` at most twice; and at most once more than something fails for it - so once, if nothing
fails. -/
theorem C114_one {conf : CConf} {n : Nat} {ok : Nat → Bool} {acts more : List ANAct} {s : ANSt} {i idx : Nat} {cmd : Cmd} {p : Bytes}
    (hrun : anRun conf n ok (acts ++ .callOne i idx cmd p :: more) = some s) (hm : ∀ a ∈ more, calls i a = false) :
    more.countP (asks i) ≤ 2 ∧ more.countP (asks i) ≤ 1 + more.countP (fails i) := by
  unfold anRun at hrun
  rw [runActs_append] at hrun
  obtain ⟨s0, h0, h1⟩ := Option.bind_eq_some_iff.1 hrun
  simp only [runActs] at h1
  split at h1
  · cases h1
  · next s1 hs1 =>
    have i0 : ANInv conf n ok s0 := ANInv.reach h0
    have i1 := i0.step hs1
    obtain ⟨k1, k2⟩ := pot_run (i := i) i1 h1 hm
    obtain ⟨a', hb, rfl⟩ := Option.map_eq_some_iff.1 hs1
    simp only [aStep] at hb
    split at hb
    · cases hb
      simp [setAt, APc.left, APc.owes, AMode.left] at k1 k2
      omega
    · cases hb

/-- **C114, bound.** The same for Call: at most four times. -/
theorem C114_call {conf : CConf} {n : Nat} {ok : Nat → Bool} {acts more : List ANAct} {s : ANSt} {i idx : Nat} {cmd : Cmd} {p : Bytes}
    (hrun : anRun conf n ok (acts ++ .call i idx cmd p :: more) = some s) (hm : ∀ a ∈ more, calls i a = false) :
    more.countP (asks i) ≤ 4 ∧ more.countP (asks i) ≤ 1 + more.countP (fails i) := by
  unfold anRun at hrun
  rw [runActs_append] at hrun
  obtain ⟨s0, h0, h1⟩ := Option.bind_eq_some_iff.1 hrun
  simp only [runActs] at h1
  split at h1
  · cases h1
  · next s1 hs1 =>
    have i0 : ANInv conf n ok s0 := ANInv.reach h0
    have i1 := i0.step hs1
    obtain ⟨k1, k2⟩ := pot_run (i := i) i1 h1 hm
    obtain ⟨a', hb, rfl⟩ := Option.map_eq_some_iff.1 hs1
    simp only [aStep] at hb
    split at hb
    · cases hb
      simp [setAt, APc.left, APc.owes, AMode.left] at k1 k2
      omega
    · cases hb

/-- **C114, what goes out.** The requests that the current (or last) call of a goroutine submitted are different ones; each has the frame
of that call and was submitted on a connection that the API dialled, for the endpoint asked for if the call is CallOne. -/
theorem C114_frames {conf : CConf} {n : Nat} {ok : Nat → Bool} {acts : List ANAct} {s : ANSt} (hrun : anRun conf n ok acts = some s) (i : Nat) :
    (s.tries i).Nodup ∧ ((s.tries i).length ≤ if (s.arg i).2.2 = none then 4 else 2) ∧
    ∀ c t, (c, t) ∈ s.tries i → s.api.made c = true ∧ (∀ k, (s.arg i).2.2 = some k → s.api.home c = k) ∧
      ∃ f, (s.con c).c.frames[t]? = some f ∧ f.bytes = layout f.rid (s.arg i).1 NBFlag (s.arg i).2.1 := by
  have h := ANInv.reach hrun
  refine ⟨h.tnodup i, ?_, ?_⟩
  · have := h.left i
    omega
  · intro c t hc
    obtain ⟨h1, h2, f, h3, -, h4⟩ := h.tried i c t hc
    exact ⟨h1, h2, f, h3, by rw [h4, apiFrame_layout]⟩

/-- Goroutine 0 makes the request with payload `[7]`; it is written, read by the server, and then the connection breaks. -/
def pnLost (c : Nat) : List ANAct :=
  (([.lGo, .lGo, .lGo, .request 0 false (layout 3 1 8 [7]), .go 0, .go 0, .go 0, .enq 0, .wDeq true true, .wGo, .wGo, .wWrite 17 true,
    .rGo, .rGo, .rErr, .rGo, .waitDone 0] : List CAct).map fun a => .con c (.cl a)) ++ [.con c (.sRead 1), .failed 0]

/-- safeCloseDeleteConn; callWithoutConn dials. -/
def pnAgain : List ANAct :=
  (List.replicate 8 (AAct.go 0) ++ ([.res 0 true, .go 0, .go 0, .go 0] : List AAct)).map ANAct.api

/-- **C114 is false** if it is to say that a call is carried out at most once: one CallOne, whose request is read by the server of its
endpoint on two connections, in full. -/
theorem C114_refuted_once : (anRun cfg2 1 (fun _ => true)
      ([.callOne 0 0 1 [7], .api (.go 0)] ++ pnLost 0 ++ pnAgain ++ pnLost 1)).map
        (fun s => ((List.range 2).map fun c => ((s.con c).c.wires 1, (s.con c).srv 1, s.api.home c), s.tries 0)) =
    some ([(layout 3 1 NBFlag [7], 1, 0), (layout 3 1 NBFlag [7], 1, 0)], [(1, 0), (0, 0)]) := by decide +kernel

/-- And a Call whose request is read four times, twice by the servers of either endpoint. -/
theorem C114_refuted_four : (anRun cfg2 2 (fun _ => true)
      ([.call 0 0 1 [7], .api (.go 0)] ++ pnLost 0 ++ pnAgain ++ pnLost 2 ++ (List.replicate 5 (.api (.go 0))) ++ [.api (.pick 0 (some 1))] ++
        pnLost 1 ++ pnAgain ++ pnLost 3)).map
        (fun s => ((List.range 4).map fun c => ((s.con c).c.wires 1, (s.con c).srv 1, s.api.home c), s.tries 0)) =
    some ([(layout 3 1 NBFlag [7], 1, 0), (layout 3 1 NBFlag [7], 1, 1), (layout 3 1 NBFlag [7], 1, 0), (layout 3 1 NBFlag [7], 1, 1)],
      [(3, 0), (1, 0), (2, 0), (0, 0)]) := by decide +kernel

/-- These runs meet the hypotheses of `C114_one` and `C114_call`, and reach the bounds: two requests after one failure or more, four. -/
example : (anRun cfg2 1 (fun _ => true) ([] ++ .callOne 0 0 1 [7] :: ([.api (.go 0)] ++ pnLost 0 ++ pnAgain ++ pnLost 1))).isSome = true ∧
    (∀ a ∈ ([.api (.go 0)] ++ pnLost 0 ++ pnAgain ++ pnLost 1 : List ANAct), calls 0 a = false) ∧
    ([.api (.go 0)] ++ pnLost 0 ++ pnAgain ++ pnLost 1 : List ANAct).countP (asks 0) = 2 := by decide +kernel
example : (anRun cfg2 2 (fun _ => true) ([] ++ .call 0 0 1 [7] :: ([.api (.go 0)] ++ pnLost 0 ++ pnAgain ++ pnLost 2 ++
      (List.replicate 5 (.api (.go 0))) ++ [.api (.pick 0 (some 1))] ++ pnLost 1 ++ pnAgain ++ pnLost 3))).isSome = true ∧
    ([.api (.go 0)] ++ pnLost 0 ++ pnAgain ++ pnLost 2 ++
      (List.replicate 5 (.api (.go 0))) ++ [.api (.pick 0 (some 1))] ++ pnLost 1 ++ pnAgain ++ pnLost 3 : List ANAct).countP (asks 0) = 4 := by
  decide +kernel

end Qrpc
