import Verif.Props.GenNet
import Verif.Props.CallLive
/-! # Property C131: calls of the API and of generated clients get their answers -/
namespace Qrpc
open Spec

/-- On a connection that is up, with its reader about to read, a call whose write returned nil either was written to the current transport
connection or something has happened to its response object. -/
theorem settled {c : CConf} {d : Bool} {acts : List EAct} {e : ESt} (hrun : eRun c d acts = some e) {t : Nat} {ft : CFrame}
    (hok : (t, CRes.ok) ∈ e.c.rets) (hf : e.c.frames[t]? = some ft) (hresp : ft.resp = true) (ht : t ∉ e.c.outs e.c.gen) :
    (e.c.revs t).length = 1 := by
  obtain ⟨cacts, hc⟩ := eRun_client hrun
  have hI := CInv.reach hc
  have hW := CInvW.reach hc
  have hA := EAll.reach hrun
  have hlen := hA.i.c.len t
  have hreg := hI.d.rets t hok (by simp [cframeOf, List.getD, hf, hresp])
  cases hrev : e.c.revs t with
  | nil =>
    exfalso
    rcases hA.g.cur t hreg hrev with h | ⟨-, h⟩
    · exact ht h
    · obtain ⟨g, h1⟩ := (took_iff hI.a hW t).2 (hW.okRets t hok)
      obtain ⟨pre, post, h1, -⟩ := h1
      exact Nat.lt_irrefl _ (hW.above g t (by rw [h1]; simp) t h)
  | cons x l =>
    rw [hrev] at hlen
    cases l with
    | nil => rfl
    | cons y l => simp at hlen

/-- The stream of a request that is its only frame. -/
theorem only_frame {fr : Nat → Frame} {N t : Nat} {K : SKey} (ho : ∀ u, u < N → (fr u).key = K → u = t) (hr : FrameFlag.isRst (fr t).flags = false) :
    WellFormed (((List.range N).map fr).filter fun f => decide (f.key = K)) := by
  have h1 : ((List.range N).map fr).filter (fun f => decide (f.key = K)) =
      ((List.range N).filter fun u => decide ((fr u).key = K)).map fr := by rw [List.filter_map]; rfl
  have h2 : ∀ u ∈ (List.range N).filter (fun u => decide ((fr u).key = K)), u = t := by
    intro u hu
    obtain ⟨h3, h4⟩ := List.mem_filter.1 hu
    exact ho u (List.mem_range.1 h3) (by simpa using h4)
  have h3 : ((List.range N).filter fun u => decide ((fr u).key = K)).Nodup := List.nodup_range.filter _
  rw [h1]
  generalize (List.range N).filter (fun u => decide ((fr u).key = K)) = l at h2 h3
  match l, h2, h3 with
  | [], _, _ => exact ⟨by simp, by simp⟩
  | [u], h2, _ =>
    rw [h2 u (by simp)]
    exact ⟨by simp [hr], by simp⟩
  | u :: v :: l, h2, h3 =>
    have := List.nodup_cons.1 h3
    rw [h2 u (by simp), h2 v (by simp)] at this
    exact absurd List.mem_cons_self this.1

/-- The answers of the server: for each id of the client's a stream without resets, with nothing after its end. -/
def Spec.PlainAnswers (frs : Nat → Frame) (N : Nat) : Prop :=
  ∀ rid : UInt64, rid % 2 = 1 → WellFormed (((List.range N).map frs).filter fun f => decide (f.key = (rid, false)))

theorem request_odd {c : CConf} {d : Bool} {acts : List EAct} {e : ESt} (hrun : eRun c d acts = some e) {t : Nat} {ft : CFrame}
    (hf : e.c.frames[t]? = some ft) (hresp : ft.resp = true) : ft.rid % 2 = 1 := by
  obtain ⟨m, -, -, hm⟩ := (EAll.reach hrun).i.i.inFrames ft (List.mem_of_getElem? hf) hresp
  rw [hm]; exact (C20_parity m 0).1

theorem nb_plain : FrameFlag.isPush NBFlag = false ∧ FrameFlag.isRst NBFlag = false := by decide

/-! ## The API -/

/-- **C131, the API.** A goroutine waits for the answer to its call (the write of which returned nil), on a connection that is up and at
rest with its server, whose handlers answered. Then it does not wait in vain: exactly one thing has happened to the response object it waits for.
If the transport connection the request was written to is still the current one, this is a frame of the server with the id of the request, and the
call returns it: it can return no other frame. -/
theorem C131_api {conf : CConf} {n : Nat} {ok : Nat → Bool} {acts : List ANAct} {s : ANSt} (hrun : anRun conf n ok acts = some s)
    {i idx c : Nat} {m : AMode} (hp : s.api.pc i = .wait m idx c) (hr : (s.con c).c.ridGen < 2 ^ 63)
    {fr frs : Nat → Frame} {ts tc : SSt} {rc : RConf} {u : RSt} {gs : GSt} (hq : RpcRest (s.con c) fr frs ts tc rc u gs)
    (hans : Answered u gs frs) (hpl : PlainAnswers frs gs.frames.length) :
    ∃ t id, s.rq i = .sub t ∧ fr t = ⟨id, NBFlag, UInt32.ofNat ((s.arg i).1.toNat % 2 ^ 24), (s.arg i).2.1⟩ ∧
      ((s.con c).c.revs t).length = 1 ∧
      (t ∈ (s.con c).c.outs (s.con c).c.gen →
        ∃ j, j < gs.frames.length ∧ (frs j).key = (id, false) ∧ (s.con c).c.revs t = [REv.frame (frs j).toIn] ∧
          ∀ f, (anStep conf s (.got i f)).isSome ↔ f = (frs j).toIn) := by
  have h := ANInv.reach hrun
  obtain ⟨t, h1, hok⟩ := h.wt i m idx c hp
  obtain ⟨-, -, ft, h2, h3, h4⟩ := h.tried i c t (h.sub i t c h1 (by rw [hp]; rfl))
  obtain ⟨eacts, he⟩ := h.conR c
  obtain ⟨cfg, c1, -⟩ := hq.there
  have henc := c1 t ft h2
  rw [h4, apiFrame_layout] at henc
  have hfr := encodes_layout_flags (by decide) henc
  have live : t ∈ (s.con c).c.outs (s.con c).c.gen →
      ∃ j, j < gs.frames.length ∧ (frs j).key = (ft.rid, false) ∧ (s.con c).c.revs t = [REv.frame (frs j).toIn] := by
    intro ht
    obtain ⟨k, v, j, -, -, -, -, -, q1, q2, q3⟩ := C127 he hr hq hans ht hok h2 h3 (by rw [hfr]; exact nb_plain.1) (by
      refine only_frame (t := t) (fun u hu hk => ?_) (by rw [hfr]; exact nb_plain.2)
      refine h.uniq hr (List.getElem?_eq_getElem hu) h2 h3 ?_
      rw [hq.ids u _ (List.getElem?_eq_getElem hu)]
      exact congrArg Prod.fst hk) (hpl _ (request_odd he h2 h3))
    exact ⟨j, q1, q2, q3⟩
  refine ⟨t, ft.rid, h1, hfr, ?_, fun ht => ?_⟩
  · by_cases ht : t ∈ (s.con c).c.outs (s.con c).c.gen
    · obtain ⟨j, -, -, q3⟩ := live ht
      rw [q3]; rfl
    · exact settled he hok h2 h3 ht
  · obtain ⟨j, q1, q2, q3⟩ := live ht
    refine ⟨j, q1, q2, q3, fun f => ?_⟩
    simp only [anStep, hp, h1, q3, List.mem_singleton, REv.frame.injEq]
    split
    · next e => simp [e, aStep, hp]
    · next e => simp [e]

/-- **C131, the API, with the right result.** If moreover the handlers at each endpoint answer by a relation (as in C107), what the call returns
answers its request by that of the endpoint it called - for `CallOne` the one it was told. -/
theorem C131_api_result {conf : CConf} {n : Nat} {ok : Nat → Bool} {acts : List ANAct} {s : ANSt} (hrun : anRun conf n ok acts = some s)
    {i idx c : Nat} {m : AMode} (hp : s.api.pc i = .wait m idx c) (hr : (s.con c).c.ridGen < 2 ^ 63)
    {fr frs : Nat → Frame} {ts tc : SSt} {rc : RConf} {u : RSt} {gs : GSt} (hq : RpcRest (s.con c) fr frs ts tc rc u gs)
    (hans : Answered u gs frs) (hpl : PlainAnswers frs gs.frames.length)
    {served : Nat → List Frame} {frs' : Nat → Nat → Frame} {cnt : Nat → Nat} {ret : Nat → List Frame}
    (hw : Wired (s.con c) fr served frs' cnt ret) {R : Nat → Frame → Frame → Prop}
    (hR : ∀ g, AnswerBy (R (s.api.home c)) (served g) (frs' g) (cnt g))
    (hcur : ∀ t, s.rq i = .sub t → t ∈ (s.con c).c.outs (s.con c).c.gen) :
    ∃ id G, (anStep conf s (.got i (Frame.toIn G))).isSome ∧ s.api.home c = idx ∧ (∀ k, (s.arg i).2.2 = some k → idx = k) ∧
      R idx ⟨id, NBFlag, UInt32.ofNat ((s.arg i).1.toNat % 2 ^ 24), (s.arg i).2.1⟩ G := by
  have h := ANInv.reach hrun
  obtain ⟨t, id, h1, h2, -, h3⟩ := C131_api hrun hp hr hq hans hpl
  obtain ⟨j, -, -, h4, h5⟩ := h3 (hcur t h1)
  obtain ⟨-, hone, ft, h6, h7, h8⟩ := h.tried i c t (h.sub i t c h1 (by rw [hp]; rfl))
  obtain ⟨eacts, he⟩ := h.conR c
  obtain ⟨g, _, k, -, -, -, q4, -, q6, -⟩ := C107 he hr hw hR (t := t) (f := (frs j).toIn) (by rw [h4]; simp) (by
    intro u fu ft' hu ht hid
    rw [h6] at ht; cases ht
    exact .inl (h.uniq hr hu h6 h7 hid))
  have hhome : s.api.home c = idx := by
    obtain ⟨acts, h⟩ := h.apiR
    exact ((AInv.reach h).t.ref i idx c (by rw [hp]; rfl)).2
  rw [h2, hhome] at q6
  exact ⟨id, _, (h5 _).2 q4.symm, hhome, fun k hk => hhome.symm.trans (hone k hk), q6⟩

/-! ## Generated clients -/

/-- Call `q` gave up waiting for request `t`. -/
def GaveUp (s : GNSt) (q t : Nat) : Prop := (∃ j idx k, s.no j = q ∧ s.pc j = .rsting idx k t) ∨ (q, GNRes.failed) ∈ s.out

/-- Frame `f` on connection `c`, if it is neither a request nor of a handler, resets a request whose call gave up. -/
def RstOf (s : GNSt) (c : Nat) (f : CFrame) : Prop :=
  f.resp = false → f.rid % 2 = 1 → ∃ q t ft, (q, c, t) ∈ s.reqs ∧ (s.con c).c.frames[t]? = some ft ∧ ft.rid = f.rid ∧ GaveUp s q t

structure GNRst (s : GNSt) : Prop where
  own : ∀ c i f, ((s.con c).c.pc i).own = some f → RstOf s c f
  fr : ∀ c, ∀ f ∈ (s.con c).c.frames, RstOf s c f

theorem GNRst.other {s s' : GNSt} (h : GNRst s) (hc : s'.con = s.con) (hq : s'.reqs = s.reqs) (hg : ∀ q t, GaveUp s q t → GaveUp s' q t) : GNRst s' := by
  have h1 : ∀ c f, RstOf s c f → RstOf s' c f := by
    intro c f h0 a b
    obtain ⟨q, t, ft, k1, k2, k3, k4⟩ := h0 a b
    exact ⟨q, t, ft, by rw [hq]; exact k1, by rw [hc]; exact k2, k3, hg q t k4⟩
  exact ⟨fun c i f hf => h1 c f (h.own c i f (by rw [← hc]; exact hf)), fun c f hf => h1 c f (h.fr c f (by rw [← hc]; exact hf))⟩

theorem GNRst.con {conf : CConf} {n : Nat} {cmd : Cmd} {dialed : Nat → Bool} {s s' : GNSt} {c : Nat} {a : EAct} (hI : GNInv conf n cmd dialed s)
    (h : GNRst s) (hs : gnCon conf n cmd s c a = some s') : GNRst s' := by
  obtain ⟨e', he, hk⟩ := gnCon_cases hs
  obtain ⟨p1, p2⟩ := eStep_pc he
  obtain ⟨⟨x, hx⟩, -, -⟩ := eStep_keeps he
  have hcon : s'.con = setAt s.con c e' ∧ s'.no = s.no ∧ s'.out = s.out ∧ (∀ y ∈ s.reqs, y ∈ s'.reqs) ∧
      ∀ j idx k t, s.pc j = .rsting idx k t → s'.pc j = .rsting idx k t := by
    rcases hk with ⟨rfl, -⟩ | ⟨i, _, _, _, -, hp, -, rfl⟩ | ⟨i, _, _, _, _, -, -, -, hp, rfl⟩ | ⟨i, _, _, _, -, hp, -, rfl⟩
    · exact ⟨rfl, rfl, rfl, fun _ hy => hy, fun _ _ _ _ hj => hj⟩
    all_goals
      refine ⟨rfl, rfl, rfl, fun y hy => by simp [hy], fun j idx k t hj => ?_⟩
      have : j ≠ i := by rintro rfl; rw [hp] at hj; cases hj
      simp [setAt, this, hj]
  obtain ⟨e1, e2, e3, e4, e5⟩ := hcon
  have hat : ∀ c' : Nat, s'.con c' = if c' = c then e' else s.con c' := fun c' => by rw [e1]; rfl
  have hfr : ∀ (c' t : Nat) (ft : CFrame), (s.con c').c.frames[t]? = some ft → (s'.con c').c.frames[t]? = some ft := by
    intro c' t ft ht
    rw [hat]
    split
    · next e =>
      subst e
      rw [← hx, List.getElem?_append_left (List.getElem?_eq_some_iff.1 ht).1]
      exact ht
    · exact ht
  have keep : ∀ c' f, RstOf s c' f → RstOf s' c' f := by
    intro c' f h0 ha hb
    obtain ⟨q, t, ft, k1, k2, k3, k4⟩ := h0 ha hb
    refine ⟨q, t, ft, e4 _ k1, hfr _ _ _ k2, k3, ?_⟩
    rcases k4 with ⟨j, idx, k, k5, k6⟩ | k4
    · exact .inl ⟨j, idx, k, by rw [e2]; exact k5, e5 j idx k t k6⟩
    · exact .inr (by rw [e3]; exact k4)
  constructor
  · intro c' i f hf
    rw [hat] at hf
    split at hf
    · next e =>
      subst e
      rcases p2 i with hp | hp | ⟨t, g, hp⟩ | ⟨p', b', ha, hp⟩ | ⟨f', ha, hp, -⟩ | ⟨ha, ⟨p', b', ho, hp⟩ | ⟨p', b', ho, hp⟩ | ⟨f', g, ho, hp⟩⟩
      · rw [hp] at hf; exact keep _ _ (h.own c' i f hf)
      · simp [hp, CPc.own] at hf
      · simp [hp, CPc.own] at hf
      · simp [hp, CPc.own] at hf
      · simp only [hp, CPc.own, Option.some.injEq] at hf
        subst hf
        rcases hk with ⟨-, -, -, h3, -⟩ | ⟨_, _, _, _, rfl, -⟩ | ⟨_, _, _, _, _, rfl, -⟩ | ⟨j, idx, k, t, rfl, h1, h2, rfl⟩
        · intro _ hb
          rw [(h3 i f' ha).1] at hb; cases hb
        · cases ha
        · cases ha
        · cases ha
          intro _ _
          have hl := hI.last i idx k t (by rw [h1]; rfl) (by rw [h1]; rfl)
          rw [h2] at hl
          obtain ⟨-, ft, k1, -⟩ := hI.req _ _ _ hl
          refine ⟨s.no i, t, ft, hl, hfr _ _ _ k1, ?_, .inl ⟨i, idx, k, rfl, by simp [setAt]⟩⟩
          simp [rstFrame, cframeOf, List.getD, k1]
      · simp [hp, CPc.own] at hf
      · simp only [hp, CPc.own, Option.some.injEq] at hf
        subst hf
        intro ha
        rw [hI.tameP c' i p' b' (.inr ho)] at ha
        cases ha
      · simp only [hp, CPc.own, Option.some.injEq] at hf
        subst hf
        exact keep _ _ (h.own c' i f' (by rw [ho]; rfl))
    · exact keep _ _ (h.own c' i f hf)
  · intro c' f hf
    rw [hat] at hf
    split at hf
    · next e =>
      subst e
      rcases p1 with hp | ⟨i, f', g, -, hi, hp⟩
      · rw [hp] at hf; exact keep _ _ (h.fr c' f hf)
      · rw [hp] at hf
        rcases List.mem_append.1 hf with hf | hf
        · exact keep _ _ (h.fr c' f hf)
        · cases List.mem_singleton.1 hf
          exact keep _ _ (h.own c' i f (by rw [hi]; rfl))
    · exact keep _ _ (h.fr c' f hf)

theorem GNRst.step {conf : CConf} {n : Nat} {cmd : Cmd} {dialed : Nat → Bool} {s s' : GNSt} {a : GNAct} (hI : GNInv conf n cmd dialed s)
    (h : GNRst s) (hs : gnStep conf n cmd s a = some s') : GNRst s' := by
  cases a with
  | con c a => exact GNRst.con hI h hs
  | reset i =>
    simp only [gnStep] at hs
    repeat' (split at hs)
    all_goals cases hs
    refine h.other rfl rfl fun q t hg => ?_
    rcases hg with ⟨j, idx, k, h1, h2⟩ | hg
    · by_cases e : j = i
      · subst e; exact .inr (by simp [← h1])
      · exact .inl ⟨j, idx, k, h1, by simp [setAt, e, h2]⟩
    · exact .inr (by simp [hg])
  | _ =>
    simp only [gnStep] at hs
    repeat' (split at hs)
    all_goals first
      | (cases hs; done)
      | (cases hs
         refine h.other rfl rfl fun q t hg => ?_
         rcases hg with ⟨j, idx, k, h1, h2⟩ | hg
         · exact .inl ⟨j, idx, k, by grind [setAt], by grind [setAt]⟩
         · exact .inr (by grind))

theorem GNRst.reach {conf : CConf} {n : Nat} {cmd : Cmd} {dialed : Nat → Bool} {acts : List GNAct} {s : GNSt}
    (h : gnRun conf n cmd dialed acts = some s) : GNRst s :=
  (runActs_inv (P := fun s => GNInv conf n cmd dialed s ∧ GNRst s) (fun _ _ _ h hs => ⟨h.1.step hs, h.2.step h.1 hs⟩)
    ⟨GNInv.init conf n cmd dialed, by constructor <;> simp [GNSt.init, ESt.init, CSt.init, CPc.own]⟩ h).2

/-- Nobody else has used the id of a request whose call still waits. -/
theorem waiting_alone {conf : CConf} {n : Nat} {cmd : Cmd} {dialed : Nat → Bool} {acts : List GNAct} {s : GNSt}
    (hrun : gnRun conf n cmd dialed acts = some s) {i k t : Nat} {idx : UInt32} (hp : s.pc i = .wait idx k t)
    (hr : (s.con (genPos n idx k)).c.ridGen < 2 ^ 63) {u : Nat} {fu ft : CFrame} (hu : (s.con (genPos n idx k)).c.frames[u]? = some fu)
    (ht : (s.con (genPos n idx k)).c.frames[t]? = some ft) (hf : ft.resp = true) (hid : fu.rid = ft.rid) : u = t := by
  have h := GNInv.reach hrun
  rcases h.uniq hr hu ht hf hid with h1 | h1
  · exact h1
  · exfalso
    obtain ⟨eacts, he⟩ := h.conR (genPos n idx k)
    obtain ⟨q, t', ft', k1, k2, k3, k4⟩ := (GNRst.reach hrun).fr _ fu (List.mem_of_getElem? hu) (by rw [h1]; rfl) (by
      rw [hid]; exact request_odd he ht hf)
    obtain ⟨-, f'', k5, k6, -⟩ := h.req _ _ _ k1
    rw [k2] at k5; cases k5
    have e : t' = t := by
      rcases h.uniq hr k2 ht hf (k3.trans hid) with e | e
      · exact e
      · rw [e] at k6; cases k6
    subst e
    have hl := h.last i idx k t' (by rw [hp]; rfl) (by rw [hp]; rfl)
    have hq := (C115_requests hrun).2.1 _ _ _ _ k1 hl
    subst hq
    rcases k4 with ⟨j, idx', k', k7, k8⟩ | k4
    · have := h.noInj j i (by rw [k8]; simp) (by rw [hp]; simp) k7
      subst this
      rw [hp] at k8; cases k8
    · exact (h.outQ _ _ k4).2 i (by rw [hp]; simp) rfl

/-- **C131, generated clients.** The same for a call of a generated client, whatever calls that gave up did before. -/
theorem C131 {conf : CConf} {n : Nat} {cmd : Cmd} {dialed : Nat → Bool} {acts : List GNAct} {s : GNSt}
    (hrun : gnRun conf n cmd dialed acts = some s) {i k t : Nat} {idx : UInt32} (hp : s.pc i = .wait idx k t)
    (hr : (s.con (genPos n idx k)).c.ridGen < 2 ^ 63)
    {fr frs : Nat → Frame} {ts tc : SSt} {rc : RConf} {u : RSt} {gs : GSt} (hq : RpcRest (s.con (genPos n idx k)) fr frs ts tc rc u gs)
    (hans : Answered u gs frs) (hpl : PlainAnswers frs gs.frames.length) :
    ∃ id m b, s.calls[s.no i]? = some m ∧ m.marshal = some b ∧ fr t = ⟨id, NBFlag, UInt32.ofNat (cmd.toNat % 2 ^ 24), b⟩ ∧
      ((s.con (genPos n idx k)).c.revs t).length = 1 ∧
      (t ∈ (s.con (genPos n idx k)).c.outs (s.con (genPos n idx k)).c.gen →
        ∃ j, j < gs.frames.length ∧ (frs j).key = (id, false) ∧ (s.con (genPos n idx k)).c.revs t = [REv.frame (frs j).toIn] ∧
          ∀ f, (gnStep conf n cmd s (.got i f)).isSome ↔ f = (frs j).toIn) := by
  have h := GNInv.reach hrun
  have hok := h.wt i idx k t hp
  have hl := h.last i idx k t (by rw [hp]; rfl) (by rw [hp]; rfl)
  obtain ⟨hlt, ft, h2, h3, h4⟩ := h.req _ _ _ hl
  have hm : s.calls[s.no i]? = some s.calls[s.no i] := List.getElem?_eq_getElem hlt
  obtain ⟨eacts, he⟩ := h.conR (genPos n idx k)
  obtain ⟨cfg, c1, -⟩ := hq.there
  have henc := c1 t ft h2
  rw [h4, apiFrame_layout] at henc
  have hfr := encodes_layout_flags (by decide) henc
  have live : t ∈ (s.con (genPos n idx k)).c.outs (s.con (genPos n idx k)).c.gen →
      ∃ j, j < gs.frames.length ∧ (frs j).key = (ft.rid, false) ∧ (s.con (genPos n idx k)).c.revs t = [REv.frame (frs j).toIn] := by
    intro ht
    obtain ⟨k, v, j, -, -, -, -, -, q1, q2, q3⟩ := C127 he hr hq hans ht hok h2 h3 (by rw [hfr]; exact nb_plain.1) (by
      refine only_frame (t := t) (fun u hu hk => ?_) (by rw [hfr]; exact nb_plain.2)
      refine waiting_alone hrun hp hr (List.getElem?_eq_getElem hu) h2 h3 ?_
      rw [hq.ids u _ (List.getElem?_eq_getElem hu)]
      exact congrArg Prod.fst hk) (hpl _ (request_odd he h2 h3))
    exact ⟨j, q1, q2, q3⟩
  refine ⟨ft.rid, _, _, hm, h.load _ _ hm, hfr, ?_, fun ht => ?_⟩
  · by_cases ht : t ∈ (s.con (genPos n idx k)).c.outs (s.con (genPos n idx k)).c.gen
    · obtain ⟨j, -, -, q3⟩ := live ht
      rw [q3]; rfl
    · exact settled he hok h2 h3 ht
  · obtain ⟨j, q1, q2, q3⟩ := live ht
    refine ⟨j, q1, q2, q3, fun f => ?_⟩
    simp only [gnStep, hp, q3, List.mem_singleton, REv.frame.injEq]
    split
    · next e => simp [e]
    · next e => simp [e]

/-- **C131, generated clients, with the right result.** If moreover the server serves the command with the generated service `S`, the call returns
what `S` gives for its request. -/
theorem C131_result {conf : CConf} {n : Nat} {cmd : Cmd} {dialed : Nat → Bool} {acts : List GNAct} {s : GNSt}
    (hrun : gnRun conf n cmd dialed acts = some s) {i k t : Nat} {idx : UInt32} (hp : s.pc i = .wait idx k t)
    (hr : (s.con (genPos n idx k)).c.ridGen < 2 ^ 63)
    {fr frs : Nat → Frame} {ts tc : SSt} {rc : RConf} {u : RSt} {gs : GSt} (hq : RpcRest (s.con (genPos n idx k)) fr frs ts tc rc u gs)
    (hans : Answered u gs frs) (hpl : PlainAnswers frs gs.frames.length)
    {served : Nat → List Frame} {frs' : Nat → Nat → Frame} {cnt : Nat → Nat} {ret : Nat → List Frame}
    (hw : Wired (s.con (genPos n idx k)) fr served frs' cnt ret) {S : Service} {stack : Nat} {etext : PbErr → Bytes} {errCmd : Cmd}
    (hS : ∀ n ∈ S.names, (0x3a : UInt8) ∉ n.1 ∧ (0x3a : UInt8) ∉ n.2) (hcmd : cmd.toNat < 2 ^ 24) (herr : errCmd.toNat < 2 ^ 24)
    (hne : cmd ≠ errCmd) (hR : ∀ g, AnswerBy (ServiceAnswers S stack etext errCmd cmd) (served g) (frs' g) (cnt g))
    (hcur : t ∈ (s.con (genPos n idx k)).c.outs (s.con (genPos n idx k)).c.gen)
    {m : RpcReq} (hm : s.calls[s.no i]? = some m) (hu : m.unrec = []) (hlen : (Spec.encode m).length < 2 ^ 63) :
    ∃ (G : Frame) (s' : GNSt), gnStep conf n cmd s (.got i G.toIn) = some s' ∧ s'.pc i = .idle ∧
      s'.out = s.out ++ [(s.no i, .frame (genPos n idx k) t G.toIn)] ∧ S.Gives m (clientSees errCmd G) := by
  obtain ⟨id, -, -, -, -, -, -, h3⟩ := C131 hrun hp hr hq hans hpl
  obtain ⟨j, -, -, -, h5⟩ := h3 hcur
  have h6 := (h5 _).2 rfl
  obtain ⟨s', h7⟩ := Option.isSome_iff_exists.1 h6
  have h8 : s'.pc i = .idle ∧ s'.con = s.con ∧ s'.calls = s.calls ∧ s'.out = s.out ++ [(s.no i, .frame (genPos n idx k) t (frs j).toIn)] := by
    simp only [gnStep, hp] at h7
    split at h7
    · cases h7
      exact ⟨by simp [setAt], rfl, rfl, rfl⟩
    · cases h7
  have hrun' : gnRun conf n cmd dialed (acts ++ [.got i (frs j).toIn]) = some s' := by
    unfold gnRun at hrun ⊢
    rw [runActs_append, hrun]
    simp [runActs, h7]
  obtain ⟨g, k', -, q2, -, q4⟩ := C115_result hrun' (q := s.no i) (c := genPos n idx k) (t := t) (f := (frs j).toIn) (by rw [h8.2.2.2]; simp)
    (by rw [h8.2.1]; exact hr) (by rw [h8.2.1]; exact hw) hS hcmd herr hne hR (by rw [h8.2.2.1]; exact hm) hu hlen
  exact ⟨_, s', by rw [← q2]; exact h7, h8.1, by rw [← q2]; exact h8.2.2.2, q4⟩

/-! ## Executions at rest

Those of ApiNet and GenNet, before the calls return and once the handlers have finished. -/

def crDispatch : List RAct :=
  pnDispatch ++ [.hFinal 0, .hEnd 0, .hDec 0, .hTest 0, .hFinal 1, .hEnd 1, .hDec 1, .hTest 1, .rGo, .rGo]

def crGenDispatch : List RAct := gnDispatch ++ [.hFinal 0, .hEnd 0, .hDec 0, .hTest 0, .rGo, .rGo]

def crGenServer : List GAct := gnServer ++ [.go 0, .go 0, .go 0, .go 0, .go 0]

theorem cr_served : ∀ d ∈ [crDispatch, crGenDispatch], ∀ u, rdRun ⟨0, 0, 0, false⟩ 0 d = some u → u.Served ⟨0, 0, 0, false⟩ := by
  intro d hd s hs
  have h1 : s = (rdRun ⟨0, 0, 0, false⟩ 0 d).getD (RSt.init 0) := by rw [hs]; rfl
  have h2 : s.rd = .read ∧ s.main = .select ∧ s.ch = [] ∧ s.ctx = false ∧ s.running = [] ∧ s.ending = [] ∧ s.cleaning = [] ∧ s.resetting = [] := by
    rw [h1]
    simp only [List.mem_cons, List.not_mem_nil, or_false] at hd
    rcases hd with rfl | rfl <;> exact ⟨rfl, rfl, rfl, rfl, rfl, rfl, rfl, rfl⟩
  clear hs h1 hd
  intro a ha
  cases a <;> simp_all [RAct.serving, rdStep]

theorem frameAt_eq (u : RSt) (k : Nat) : frameAt u.arr k = ((u.arr.map Prod.fst)[k]?).getD ⟨0, false, false⟩ := by
  rw [List.getElem?_map]
  simp only [frameAt, List.getD]
  cases u.arr[k]? <;> rfl

theorem err_of_none {r : Except FrameErr (List Frame)} (h : okFrames r = none) : ∃ err, r = .error err := by
  cases r with
  | ok fs => simp [okFrames] at h
  | error e => exact ⟨e, rfl⟩

theorem plain_single {frs : Nat → Frame} {N : Nat} (hn : ∀ j, j < N → FrameFlag.isRst (frs j).flags = false)
    (hd : ∀ j, j < N → ∀ j', j' < N → (frs j).key = (frs j').key → j = j') : PlainAnswers frs N := by
  intro rid _
  by_cases h : ∃ t, t < N ∧ (frs t).key = (rid, false)
  · obtain ⟨t, h1, h2⟩ := h
    exact only_frame (fun u hu hk => hd u hu t h1 (hk.trans h2.symm)) (hn t h1)
  · have : ((List.range N).map frs).filter (fun f => decide (f.key = (rid, false))) = [] := by
      refine List.filter_eq_nil_iff.2 fun f hf => ?_
      obtain ⟨t, h1, rfl⟩ := List.mem_map.1 hf
      simp only [decide_eq_true_eq]
      exact fun hk => h ⟨t, List.mem_range.1 h1, hk⟩
    rw [this]
    exact ⟨by simp, by simp⟩

/-- All hypotheses of C131_api, for two calls. -/
example : ∃ s ts tc u gs, anRun cfg2 2 (fun _ => true) (pnActs.take (pnActs.length - 2)) = some s ∧ (s.con 1).c.ridGen < 2 ^ 63 ∧
    s.api.pc 0 = .wait .one 1 1 ∧ s.api.pc 1 = .wait .first 1 1 ∧ s.rq 0 = .sub 0 ∧ s.rq 1 = .sub 1 ∧ (s.con 1).c.outs (s.con 1).c.gen = [0, 1] ∧
    RpcRest (s.con 1) pnFr (rpcFrs 1) ts tc ⟨0, 0, 0, false⟩ u gs ∧ Answered u gs (rpcFrs 1) ∧ PlainAnswers (rpcFrs 1) gs.frames.length := by
  have h1 : (anRun cfg2 2 (fun _ => true) (pnActs.take (pnActs.length - 2))).map (fun s => ((s.con 1).down 1,
        ((s.con 1).c.frames.map fun f => (f.rid, f.bytes)), (s.con 1).c.wires 1, (s.con 1).c.ridGen)) =
      some ([(Frame.toIn ⟨5, 0, 2, [8, 9, 8, 9]⟩, 2), (Frame.toIn ⟨3, 0, 1, [7, 7]⟩, 2)],
        [(3, layout 3 1 8 [7]), (5, layout 5 2 8 [8, 9])], pnUp, 2) := by rfl
  have h2 : (anRun cfg2 2 (fun _ => true) (pnActs.take (pnActs.length - 2))).map (fun s => ((s.con 1).c.rwc, decide ((s.con 1).c.rd = .read),
        (s.con 1).c.gen, (s.con 1).read 1, (s.con 1).c.outs 1, s.api.pc 0, s.api.pc 1, s.rq 0, s.rq 1)) =
      some (true, true, 1, 2, [0, 1], .wait .one 1 1, .wait .first 1 1, .sub 0, .sub 1) := by rfl
  obtain ⟨s, h3, h4⟩ := Option.map_eq_some_iff.1 h1
  rw [h3] at h2
  simp only [Prod.mk.injEq, Option.map_some, Option.some.injEq, decide_eq_true_eq] at h2 h4
  obtain ⟨d1, d2, d3, d4⟩ := h4
  obtain ⟨r1, r2, r3, r4, r5, r6, r7, r8, r9⟩ := h2
  have s1 : (sRun SSt.init pnStreams).map (fun t => (t.recv, returned t.log, held t, t.connCancelled)) =
      some (pnReqs, pnReqs, [], false) := by decide +kernel
  obtain ⟨ts, s2, s3⟩ := Option.map_eq_some_iff.1 s1
  have c1 : (sRun SSt.init rpcStreams).map (fun t => (t.recv, returned t.log, held t, t.connCancelled)) =
      some (rpcAnswers, rpcAnswers, [], false) := by decide +kernel
  obtain ⟨tc, c2, c3⟩ := Option.map_eq_some_iff.1 c1
  have u1 : (rdRun ⟨0, 0, 0, false⟩ 0 crDispatch).map (fun u => (u.arr.map Prod.fst, u.finished, u.throttled, u.ctx)) =
      some (pnReqs.map Frame.toR, [0, 1], false, false) := by decide +kernel
  obtain ⟨u, u2, u3⟩ := Option.map_eq_some_iff.1 u1
  have g1 : (gRun 2 rpcServer).map (fun s => (s.wire, s.frames.map (·.bytes), s.rets)) =
      some (rpcWire, [layout 5 2 0 [8, 9, 8, 9], layout 3 1 0 [7, 7]], [(0, .ok), (1, .ok)]) := by decide +kernel
  obtain ⟨gs, g2, g3⟩ := Option.map_eq_some_iff.1 g1
  simp only [Prod.mk.injEq] at s3 c3 u3 g3
  have n1 : okFrames (readN ⟨100, none⟩ 2 pnSrc).1 = some pnReqs := by decide +kernel
  have n2 : okFrames (readN ⟨0, none⟩ 2 rpcSrc).1 = some rpcAnswers := by decide +kernel
  have hfr : ∀ (t : Nat) (f : CFrame), (s.con 1).c.frames[t]? = some f →
      (t = 0 ∧ f.rid = 3 ∧ f.bytes = layout 3 1 8 [7]) ∨ (t = 1 ∧ f.rid = 5 ∧ f.bytes = layout 5 2 8 [8, 9]) := by
    intro t f ht
    have h5 : ((s.con 1).c.frames.map fun f => (f.rid, f.bytes))[t]? = some (f.rid, f.bytes) := by rw [List.getElem?_map, ht]; rfl
    rw [d2] at h5
    match t, h5 with
    | 0, h5 => simp at h5; exact .inl ⟨rfl, h5.1.symm, h5.2.symm⟩
    | 1, h5 => simp at h5; exact .inr ⟨rfl, h5.1.symm, h5.2.symm⟩
    | t + 2, h5 => simp at h5
  have hgl : gs.frames.length = 2 := by have := congrArg List.length g3.2.1; simpa using this
  refine ⟨s, ts, tc, u, gs, h3, by rw [d4]; decide, r6, r7, r8, r9, by rw [r3]; exact r5,
    ⟨⟨⟨100, none⟩, ?_, ?_⟩, ?_, s3.2.2.1, ⟨0, crDispatch, u2, cr_served _ (by simp) u u2, u3.2.2.1, u3.2.2.2⟩, ?_,
    ⟨2, rpcServer, ⟨0, none⟩, g2, ?_, ?_⟩, c3.2.2.1, ?_, r1, r2, ?_⟩, ?_, ?_⟩
  · intro t f ht
    rcases hfr t f ht with ⟨rfl, -, h⟩ | ⟨rfl, -, h⟩
    · rw [h]; exact ⟨1, [7], rfl, by decide, by decide, .inr (by decide), rfl⟩
    · rw [h]; exact ⟨2, [8, 9], rfl, by decide, by decide, .inr (by decide), rfl⟩
  · rw [r3, d3]
    refine ⟨⟨pnSrc, 2, pnStreams, (by decide +kernel : srcBytes pnSrc = pnUp) ▸ List.prefix_refl _, ?_, s2, fun _ =>
      ⟨by decide +kernel, err_of_none (by decide +kernel)⟩⟩, s3.2.2.2⟩
    rw [okFrames_ok n1, s3.1]
  · intro t f ht
    rcases hfr t f ht with ⟨rfl, h, -⟩ | ⟨rfl, h, -⟩ <;> rw [h] <;> rfl
  · rw [u3.1, s3.2.1]
  · intro k f hk
    have h5 : (gs.frames.map (·.bytes))[k]? = some f.bytes := by rw [List.getElem?_map, hk]; rfl
    rw [g3.2.1] at h5
    match k, h5 with
    | 0, h5 => simp at h5; rw [← h5]; exact ⟨2, [8, 9, 8, 9], rfl, by decide, by decide, .inl (by decide), rfl⟩
    | 1, h5 => simp at h5; rw [← h5]; exact ⟨1, [7, 7], rfl, by decide, by decide, .inl (by decide), rfl⟩
    | k + 2, h5 => simp at h5
  · rw [g3.1]
    refine ⟨⟨rpcSrc, 2, rpcStreams, (by decide +kernel : srcBytes rpcSrc = rpcWire) ▸ List.prefix_refl _, ?_, c2, fun _ =>
      ⟨by decide +kernel, err_of_none (by decide +kernel)⟩⟩, c3.2.2.2⟩
    rw [okFrames_ok n2, c3.1]
  · rw [r3, d1, c3.2.1]; rfl
  · rw [r3, r4, d1]; rfl
  · intro k hk
    rw [u3.2.1] at hk
    rw [frameAt_eq, u3.1, g3.2.2]
    simp only [List.mem_cons, List.not_mem_nil, or_false] at hk
    rcases hk with rfl | rfl
    · exact ⟨1, by simp, by decide⟩
    · exact ⟨0, by simp, by decide⟩
  · rw [hgl]
    exact plain_single (by decide +kernel) (by decide +kernel)

/-- All hypotheses of C131 and C131_result, for a call whose first attempt, on the other connection, failed. -/
example : ∃ s ts tc u gs, gnRun cfgR 2 1 (fun _ => true) (gnOne.take (gnOne.length - 1)) = some s ∧ (s.con 0).c.ridGen < 2 ^ 63 ∧
    s.pc 0 = .wait 1 1 0 ∧ genPos 2 1 1 = 0 ∧ s.reqs = [(0, 1, 0), (0, 0, 0)] ∧ 0 ∈ (s.con 0).c.outs (s.con 0).c.gen ∧ s.calls[s.no 0]? = some gnA ∧
    RpcRest (s.con 0) (fun _ => ⟨3, 8, 1, grA⟩) (fun _ => ⟨3, 0, 1, [7, 7]⟩) ts tc ⟨0, 0, 0, false⟩ u gs ∧
    Answered u gs (fun _ => ⟨3, 0, 1, [7, 7]⟩) ∧ PlainAnswers (fun _ => ⟨3, 0, 1, [7, 7]⟩) gs.frames.length ∧
    Wired (s.con 0) (fun _ => ⟨3, 8, 1, grA⟩) (fun g => if g = 1 then [⟨3, 8, 1, grA⟩] else []) (fun _ _ => ⟨3, 0, 1, [7, 7]⟩)
      (fun g => if g = 1 then 1 else 0) (fun g => if g = 1 then [⟨3, 0, 1, [7, 7]⟩] else []) ∧
    (∀ g, AnswerBy (ServiceAnswers grService 5 (fun _ => []) 11 1) (if g = 1 then [⟨3, 8, 1, grA⟩] else []) (fun _ => ⟨3, 0, 1, [7, 7]⟩)
      (if g = 1 then 1 else 0)) := by
  have h1 : (gnRun cfgR 2 1 (fun _ => true) (gnOne.take (gnOne.length - 1))).map (fun s => ((s.con 0).down 1,
        ((s.con 0).c.frames.map fun f => (f.rid, f.bytes)), (s.con 0).c.wires 1, (s.con 0).c.ridGen)) =
      some ([(Frame.toIn ⟨3, 0, 1, [7, 7]⟩, 1)], [(3, layout 3 1 8 grA)], layout 3 1 8 grA, 1) := by rfl
  have h2 : (gnRun cfgR 2 1 (fun _ => true) (gnOne.take (gnOne.length - 1))).map (fun s => ((s.con 0).c.rwc, decide ((s.con 0).c.rd = .read),
        (s.con 0).c.gen, (s.con 0).read 1, (s.con 0).c.outs 1, s.pc 0, s.reqs, s.calls, s.no 0)) =
      some (true, true, 1, 1, [0], .wait 1 1 0, [(0, 1, 0), (0, 0, 0)], [gnA], 0) := by rfl
  obtain ⟨s, h3, h4⟩ := Option.map_eq_some_iff.1 h1
  rw [h3] at h2
  simp only [Prod.mk.injEq, Option.map_some, Option.some.injEq, decide_eq_true_eq] at h2 h4
  obtain ⟨d1, d2, d3, d4⟩ := h4
  obtain ⟨r1, r2, r3, r4, r5, r6, r7, r8, r9⟩ := h2
  obtain ⟨s', e1, -, -, -, -, -, -, -, e2, e3⟩ := gn_example
  have e4 : s'.con 0 = s.con 0 := by
    have hsp : gnOne = gnOne.take (gnOne.length - 1) ++ [.got 0 (Frame.toIn ⟨3, 0, 1, [7, 7]⟩)] := by rfl
    rw [hsp] at e1
    unfold gnRun at e1 h3
    rw [runActs_append, h3] at e1
    simp only [Option.bind_some, runActs] at e1
    cases hg : gnStep cfgR 2 1 s (.got 0 (Frame.toIn ⟨3, 0, 1, [7, 7]⟩)) with
    | none => rw [hg] at e1; cases e1
    | some s2 =>
      rw [hg] at e1; cases e1
      exact gnStep_other hg (by simp [GNAct.of])
  rw [e4] at e2
  have s1 : (sRun SSt.init gnStreamsUp).map (fun t => (t.recv, returned t.log, held t, t.connCancelled)) =
      some ([⟨3, 8, 1, grA⟩], [⟨3, 8, 1, grA⟩], [], false) := by decide +kernel
  obtain ⟨ts, s2, s3⟩ := Option.map_eq_some_iff.1 s1
  have c1 : (sRun SSt.init gnStreamsDown).map (fun t => (t.recv, returned t.log, held t, t.connCancelled)) =
      some ([⟨3, 0, 1, [7, 7]⟩], [⟨3, 0, 1, [7, 7]⟩], [], false) := by decide +kernel
  obtain ⟨tc, c2, c3⟩ := Option.map_eq_some_iff.1 c1
  have u1 : (rdRun ⟨0, 0, 0, false⟩ 0 crGenDispatch).map (fun u => (u.arr.map Prod.fst, u.finished, u.throttled, u.ctx)) =
      some ([Frame.toR ⟨3, 8, 1, grA⟩], [0], false, false) := by decide +kernel
  obtain ⟨u, u2, u3⟩ := Option.map_eq_some_iff.1 u1
  have g1 : (gRun 2 crGenServer).map (fun s => (s.wire, s.frames.map (·.bytes), s.rets)) =
      some (layout 3 1 0 [7, 7], [layout 3 1 0 [7, 7]], [(0, .ok)]) := by decide +kernel
  obtain ⟨gs, g2, g3⟩ := Option.map_eq_some_iff.1 g1
  simp only [Prod.mk.injEq] at s3 c3 u3 g3
  have n1 : okFrames (readN ⟨100, none⟩ 1 gnSrcUp).1 = some [⟨3, 8, 1, grA⟩] := by decide +kernel
  have n2 : okFrames (readN ⟨0, none⟩ 1 gnSrcDown).1 = some [⟨3, 0, 1, [7, 7]⟩] := by decide +kernel
  have one : ∀ (t : Nat) (f : CFrame), (s.con 0).c.frames[t]? = some f → f.rid = 3 ∧ f.bytes = layout 3 1 8 grA := by
    intro t f ht
    have : (f.rid, f.bytes) ∈ (s.con 0).c.frames.map fun f => (f.rid, f.bytes) := List.mem_map.2 ⟨f, List.mem_of_getElem? ht, rfl⟩
    rw [d2, List.mem_singleton, Prod.mk.injEq] at this
    exact this
  refine ⟨s, ts, tc, u, gs, h3, by rw [d4]; decide, r6, rfl, r7, by rw [r3, r5]; simp, by rw [r8, r9]; rfl,
    ⟨⟨⟨100, none⟩, ?_, ?_⟩, ?_, s3.2.2.1, ⟨0, crGenDispatch, u2, cr_served _ (by simp) u u2, u3.2.2.1, u3.2.2.2⟩, ?_,
    ⟨2, crGenServer, ⟨0, none⟩, g2, ?_, ?_⟩, c3.2.2.1, ?_, r1, r2, ?_⟩, ?_, ?_, e2, e3⟩
  · intro t f ht
    rw [(one t f ht).2]; exact grEncA
  · rw [r3, d3]
    refine ⟨⟨gnSrcUp, 1, gnStreamsUp, (by decide +kernel : srcBytes gnSrcUp = layout 3 1 8 grA) ▸ List.prefix_refl _, ?_, s2, fun _ =>
      ⟨by decide +kernel, err_of_none (by decide +kernel)⟩⟩, s3.2.2.2⟩
    rw [okFrames_ok n1, s3.1]
  · intro t f ht
    rw [(one t f ht).1]
  · rw [u3.1, s3.2.1]; rfl
  · intro k f hk
    have : f.bytes ∈ gs.frames.map (·.bytes) := List.mem_map.2 ⟨f, List.mem_of_getElem? hk, rfl⟩
    rw [g3.2.1, List.mem_singleton] at this
    rw [this]; exact ⟨1, [7, 7], rfl, by decide, by decide, .inl (by decide), rfl⟩
  · rw [g3.1]
    refine ⟨⟨gnSrcDown, 1, gnStreamsDown, (by decide +kernel : srcBytes gnSrcDown = layout 3 1 0 [7, 7]) ▸ List.prefix_refl _, ?_, c2, fun _ =>
      ⟨by decide +kernel, err_of_none (by decide +kernel)⟩⟩, c3.2.2.2⟩
    rw [okFrames_ok n2, c3.1]
  · rw [r3, d1, c3.2.1]; rfl
  · rw [r3, r4, d1]; rfl
  · intro k hk
    rw [u3.2.1] at hk
    rw [frameAt_eq, u3.1, g3.2.2]
    simp only [List.mem_cons, List.not_mem_nil, or_false] at hk
    subst hk
    exact ⟨0, by simp, by decide⟩
  · have hgl : gs.frames.length = 1 := by have := congrArg List.length g3.2.1; simpa using this
    rw [hgl]
    exact plain_single (by decide +kernel) (by decide +kernel)

end Qrpc
