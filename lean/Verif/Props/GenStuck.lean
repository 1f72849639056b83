import Verif.Props.GenNet
/-! # C116: a generated call and the end of its context -/
namespace Qrpc
open Spec

/-- Caller `i` waits for the result of write `t`, which is still in the queue, and the connection is not connected. -/
structure Hung (e : ESt) (i t : Nat) : Prop where
  pc : ∃ g, e.c.pc i = .wait t g
  slot : e.c.slot t = none
  wr : e.c.wr = .off
  loop : e.c.loop = .connect ∨ (∃ n, e.c.loop = .dialing n) ∨ (∃ n, e.c.loop = .dialCheck n) ∨ e.c.loop = .ended
  rwc : e.c.rwc = false

theorem cStep_hung {conf : CConf} (hc : conf.reconnect = true) {s s' : CSt} {a : CAct} (hs : cStep conf s a = some s') (ha : a ≠ .dialOk)
    {i t g : Nat} (h1 : s.pc i = .wait t g) (h2 : s.slot t = none) (h3 : s.wr = .off)
    (h4 : s.loop = .connect ∨ (∃ n, s.loop = .dialing n) ∨ (∃ n, s.loop = .dialCheck n) ∨ s.loop = .ended) (h5 : s.rwc = false) :
    s'.pc i = .wait t g ∧ s'.slot t = none ∧ s'.wr = .off ∧
    (s'.loop = .connect ∨ (∃ n, s'.loop = .dialing n) ∨ (∃ n, s'.loop = .dialCheck n) ∨ s'.loop = .ended) ∧ s'.rwc = false := by
  cstep_cases hs a
  all_goals first
    | exact ⟨h1, h2, h3, h4, h5⟩
    | grind [setAt]

theorem Hung.step {conf : CConf} (hc : conf.reconnect = true) {e e' : ESt} {a : EAct} (hs : eStep conf e a = some e') (ha : a ≠ .cl .dialOk)
    {i t : Nat} (h : Hung e i t) : Hung e' i t := by
  obtain ⟨⟨g, h1⟩, h2, h3, h4, h5⟩ := h
  have key : ∀ b c', cStep conf e.c b = some c' → b ≠ .dialOk → Hung { e' with c := c' } i t := by
    intro b c' hb hne
    obtain ⟨k1, k2, k3, k4, k5⟩ := cStep_hung hc hb hne h1 h2 h3 h4 h5
    exact ⟨⟨g, k1⟩, k2, k3, k4, k5⟩
  cases a with
  | cl a =>
    simp only [eStep] at hs
    split at hs
    · obtain ⟨c', hb, rfl⟩ := Option.map_eq_some_iff.1 hs
      exact key a c' hb (fun e => ha (by rw [e]))
    · cases hs
  | sRead g =>
    simp only [eStep] at hs
    split at hs <;> cases hs
    exact ⟨⟨_, h1⟩, h2, h3, h4, h5⟩
  | sSend g f =>
    simp only [eStep] at hs
    split at hs <;> cases hs
    exact ⟨⟨_, h1⟩, h2, h3, h4, h5⟩
  | recv =>
    simp only [eStep] at hs
    split at hs
    · obtain ⟨c', hb, rfl⟩ := Option.map_eq_some_iff.1 hs
      exact key _ c' hb (by simp)
    · cases hs

/-- The call of goroutine `i` is in `Request` or `ResetFrame`, hung on connection `c`. -/
def Spec.CallHung (n : Nat) (s : GNSt) (i c : Nat) : Prop :=
  ∃ idx k t, ((s.pc i = .sub idx k t) ∨ ∃ t', s.pc i = .rsting idx k t') ∧ genPos n idx k = c ∧ Hung (s.con c) i t

theorem CallHung.step {conf : CConf} (hc : conf.reconnect = true) {n : Nat} {cmd : Cmd} {s s' : GNSt} {a : GNAct}
    (hs : gnStep conf n cmd s a = some s') {i c : Nat} (ha : a ≠ .con c (.cl .dialOk)) (h : CallHung n s i c) :
    CallHung n s' i c ∧ s'.no i = s.no i := by
  obtain ⟨idx, k, t, h1, h2, h3⟩ := h
  obtain ⟨g, hg⟩ := h3.pc
  have other : ∀ j (p : GNPc), j ≠ i → setAt s.pc j p i = s.pc i := fun j p h => by simp [setAt, Ne.symm h]
  have nidle : ¬ (s.con (genPos n idx k)).c.pc i = .idle := by rw [h2, hg]; simp
  have keep : ∀ j (p : GNPc), j ≠ i → ∀ con' : Nat → ESt, Hung (con' c) i t → ∀ s1 : GNSt, s1.pc = setAt s.pc j p → s1.con = con' → CallHung n s1 i c := by
    intro j p hj con' hcon s1 e1 e2
    refine ⟨idx, k, t, ?_, h2, by rw [e2]; exact hcon⟩
    rw [e1, other j p hj]; exact h1
  cases a with
  | call j m =>
    simp only [gnStep] at hs
    split at hs
    · next b hp hm =>
      cases hs
      by_cases e : j = i
      · subst e; rw [hp] at h1; rcases h1 with h1 | ⟨t', h1⟩ <;> cases h1
      · exact ⟨keep j _ e s.con h3 _ rfl rfl, by simp [setAt, Ne.symm e]⟩
    · cases hs
  | go j =>
    simp only [gnStep] at hs
    split at hs
    · next hp =>
      have e : j ≠ i := by
        rintro rfl; rw [hp] at h1; rcases h1 with h1 | ⟨t', h1⟩ <;> cases h1
      split at hs <;> cases hs <;> exact ⟨keep j _ e s.con h3 _ rfl rfl, rfl⟩
    · cases hs
  | con c' b =>
    obtain ⟨e', he, hk⟩ := gnCon_cases (s := s) (s' := s') (c := c') (a := b) hs
    have hcon : Hung (setAt s.con c' e' c) i t := by
      unfold setAt
      split
      · next e => subst e; exact h3.step hc he (fun e => ha (by rw [e]))
      · exact h3
    rcases hk with ⟨rfl, -⟩ | ⟨j, _, _, _, rfl, hp, -, rfl⟩ | ⟨j, f, g', _, _, rfl, -, -, hp, rfl⟩ | ⟨j, _, _, _, rfl, hp, -, rfl⟩
    · exact ⟨⟨idx, k, t, h1, h2, hcon⟩, rfl⟩
    all_goals
      have e : j ≠ i := by
        rintro rfl; rw [hp] at h1; rcases h1 with h1 | ⟨t', h1⟩ <;> cases h1
      exact ⟨keep j _ e _ hcon _ rfl rfl, rfl⟩
  | sent j =>
    simp only [gnStep] at hs
    split at hs
    · next hp =>
      split at hs <;> cases hs
      next hq =>
        have e : j ≠ i := by
          rintro rfl; rw [hp] at h1; rcases h1 with h1 | ⟨t', h1⟩ <;> cases h1
          exact nidle hq.1
        exact ⟨keep j _ e s.con h3 _ rfl rfl, rfl⟩
    · cases hs
  | failed j =>
    simp only [gnStep] at hs
    split at hs
    · next hp =>
      have e : j ≠ i := by
        rintro rfl; rw [hp] at h1; rcases h1 with h1 | ⟨t', h1⟩ <;> cases h1
      split at hs <;> cases hs
      exact ⟨keep j _ e s.con h3 _ rfl rfl, rfl⟩
    · next hp =>
      split at hs <;> cases hs
      next hq =>
        have e : j ≠ i := by
          rintro rfl; rw [hp] at h1; rcases h1 with h1 | ⟨t', h1⟩ <;> cases h1
          exact nidle hq.1
        exact ⟨keep j _ e s.con h3 _ rfl rfl, rfl⟩
    · cases hs
  | got j f =>
    simp only [gnStep] at hs
    split at hs
    · next hp =>
      have e : j ≠ i := by
        rintro rfl; rw [hp] at h1; rcases h1 with h1 | ⟨t', h1⟩ <;> cases h1
      split at hs <;> cases hs
      exact ⟨keep j _ e s.con h3 _ rfl rfl, rfl⟩
    · cases hs
  | gaveUp j =>
    simp only [gnStep] at hs
    split at hs
    · next hp =>
      have e : j ≠ i := by
        rintro rfl; rw [hp] at h1; rcases h1 with h1 | ⟨t', h1⟩ <;> cases h1
      cases hs
      exact ⟨keep j _ e s.con h3 _ rfl rfl, rfl⟩
    · cases hs
  | reset j =>
    simp only [gnStep] at hs
    split at hs
    · next hp =>
      split at hs <;> cases hs
      next hq =>
        have e : j ≠ i := by
          rintro rfl; rw [hp] at h1; rcases h1 with h1 | ⟨t', h1⟩ <;> cases h1
          exact nidle hq
        exact ⟨keep j _ e s.con h3 _ rfl rfl, rfl⟩
    · cases hs

/-- Whatever else happens - also if the context ends -, the call does not return before its connection is dialled again. -/
theorem CallHung.run {conf : CConf} (hc : conf.reconnect = true) {n : Nat} {cmd : Cmd} {i c : Nat} : ∀ {more : List GNAct} {s s' : GNSt},
    runActs (gnStep conf n cmd) s more = some s' → (∀ a ∈ more, a ≠ .con c (.cl .dialOk)) → CallHung n s i c →
    CallHung n s' i c ∧ s'.no i = s.no i := by
  intro more
  induction more with
  | nil => intro s s' h _ hh; cases h; exact ⟨hh, rfl⟩
  | cons a more ih =>
    intro s s' h ha hh
    simp only [runActs] at h
    cases h1 : gnStep conf n cmd s a with
    | none => rw [h1] at h; cases h
    | some s1 =>
      rw [h1] at h
      obtain ⟨k1, k2⟩ := CallHung.step hc h1 (ha a (by simp)) hh
      obtain ⟨k3, k4⟩ := ih h (fun b hb => ha b (by simp [hb])) k1
      exact ⟨k3, k4.trans k2⟩

/-- The transport connection breaks, and is taken down; the next dial has not succeeded. -/
def gnDown : List GNAct := ([.cl .rGo, .cl .rGo, .cl .rErr, .cl .rGo, .cl .lGo, .cl .lGo, .cl .lGo, .cl .wDone, .cl .wGo, .cl .lGo, .cl .lGo, .cl .lGo] : List EAct).map (.con 0)

/-- A client with one connection; it breaks just before the request is put into the queue. -/
def gnHangs : List GNAct :=
  [.call 0 gnA, .go 0] ++
  ([.cl .lGo, .cl .lGo, .cl .lGo, .cl (.request 0 false (layout 3 1 8 grA)), .cl (.go 0), .cl (.go 0), .cl (.go 0)] : List EAct).map (.con 0) ++
  gnDown ++ [.con 0 (.cl (.enq 0))]

/-- And one that breaks after the request was written: the call was given up, its context having ended, and resets the request. -/
def gnHangsReset : List GNAct :=
  [.call 0 gnA, .go 0] ++ gnAsk 0 ++ ([.wWrite 22 true, .wGo, .recv 0, .wGo] : List CAct).map (fun a => .con 0 (.cl a)) ++
  [.sent 0, .gaveUp 0] ++ ([.send 0 (rstFrame 3), .go 0] : List CAct).map (fun a => .con 0 (.cl a)) ++ gnDown ++ [.con 0 (.cl (.enq 0))]

theorem gnHangs_hung : ∃ s, gnRun cfgR 1 1 (fun _ => true) gnHangs = some s ∧ CallHung 1 s 0 0 := by
  have h : (gnRun cfgR 1 1 (fun _ => true) gnHangs).map (fun s => (s.pc 0, (s.con 0).c.pc 0, (s.con 0).c.slot 0, (s.con 0).c.wr, (s.con 0).c.loop, (s.con 0).c.rwc)) =
      some (.sub 1 0 0, .wait 0 1, none, .off, .dialing 0, false) := by rfl
  obtain ⟨s, h1, h2⟩ := Option.map_eq_some_iff.1 h
  simp only [Prod.mk.injEq] at h2
  obtain ⟨e1, e2, e3, e4, e5, e6⟩ := h2
  exact ⟨s, h1, 1, 0, 0, .inl e1, rfl, ⟨1, e2⟩, e3, e4, .inr (.inl ⟨0, e5⟩), e6⟩

theorem gnHangsReset_hung : ∃ s, gnRun cfgR 1 1 (fun _ => true) gnHangsReset = some s ∧ CallHung 1 s 0 0 := by
  have h : (gnRun cfgR 1 1 (fun _ => true) gnHangsReset).map (fun s => (s.pc 0, (s.con 0).c.pc 0, (s.con 0).c.slot 1, (s.con 0).c.wr, (s.con 0).c.loop, (s.con 0).c.rwc)) =
      some (.rsting 1 0 0, .wait 1 1, none, .off, .dialing 0, false) := by rfl
  obtain ⟨s, h1, h2⟩ := Option.map_eq_some_iff.1 h
  simp only [Prod.mk.injEq] at h2
  obtain ⟨e1, e2, e3, e4, e5, e6⟩ := h2
  exact ⟨s, h1, 1, 0, 1, .inr ⟨0, e1⟩, rfl, ⟨1, e2⟩, e3, e4, .inr (.inl ⟨0, e5⟩), e6⟩

theorem CallHung.not_idle {n : Nat} {s : GNSt} {i c : Nat} (h : CallHung n s i c) : s.pc i ≠ .idle := by
  obtain ⟨idx, k, t, h1 | ⟨t', h1⟩, -⟩ := h <;> rw [h1] <;> simp

theorem hung_forever {acts : List GNAct} (h : ∃ s, gnRun cfgR 1 1 (fun _ => true) acts = some s ∧ CallHung 1 s 0 0) :
    ∃ s, gnRun cfgR 1 1 (fun _ => true) acts = some s ∧ s.pc 0 ≠ .idle ∧
      ∀ more s', runActs (gnStep cfgR 1 1) s more = some s' → (∀ a ∈ more, a ≠ .con 0 (.cl .dialOk)) →
        s'.pc 0 ≠ .idle ∧ s'.no 0 = s.no 0 ∧ ∀ r, (s.no 0, r) ∉ s'.out := by
  obtain ⟨s, h1, h2⟩ := h
  refine ⟨s, h1, CallHung.not_idle h2, fun more s' hm ha => ?_⟩
  obtain ⟨h3, h4⟩ := CallHung.run rfl hm ha h2
  refine ⟨(CallHung.not_idle h3), h4, fun r hr => ?_⟩
  have hrun : gnRun cfgR 1 1 (fun _ => true) (acts ++ more) = some s' := by
    unfold gnRun at h1 ⊢
    rw [runActs_append, h1]; exact hm
  exact ((GNInv.reach hrun).outQ _ r hr).2 0 (CallHung.not_idle h3) h4

/-- **C116 is false of the code**: a generated call does not return when its context ends. `Request` does not look at the context, and on
a reconnecting connection a write that is in the queue waits for its result: in the state reached, whatever happens next, the call
returns only after the connection was dialled again. -/
theorem C116_refuted_request : ∃ s, gnRun cfgR 1 1 (fun _ => true) gnHangs = some s ∧ s.pc 0 ≠ .idle ∧
    ∀ more s', runActs (gnStep cfgR 1 1) s more = some s' → (∀ a ∈ more, a ≠ .con 0 (.cl .dialOk)) →
      s'.pc 0 ≠ .idle ∧ s'.no 0 = s.no 0 ∧ ∀ r, (s.no 0, r) ∉ s'.out := hung_forever gnHangs_hung

/-- **C116 is false of the code** even once the call has noticed that its context ended: it then calls ResetFrame, which waits in the same
way. -/
theorem C116_refuted_reset : ∃ s, gnRun cfgR 1 1 (fun _ => true) gnHangsReset = some s ∧ s.pc 0 ≠ .idle ∧
    ∀ more s', runActs (gnStep cfgR 1 1) s more = some s' → (∀ a ∈ more, a ≠ .con 0 (.cl .dialOk)) →
      s'.pc 0 ≠ .idle ∧ s'.no 0 = s.no 0 ∧ ∀ r, (s.no 0, r) ∉ s'.out := hung_forever gnHangsReset_hung

/-- A step of goroutine `i`. -/
def Spec.ofCaller (i : Nat) : GNAct → Bool
  | .go j | .sent j | .failed j | .gaveUp j | .reset j => j == i
  | .con _ (.cl (.request j _ _)) | .con _ (.cl (.send j _)) | .con _ (.cl (.go j)) | .con _ (.cl (.enq j)) | .con _ (.cl (.enqDone j))
  | .con _ (.cl (.recv j)) => j == i
  | _ => false

theorem rstBytes_ne (id : UInt64) : rstBytes id ≠ [] := by
  rw [rstBytes_layout]
  intro h
  have := congrArg List.length h
  rw [layout_length] at this
  simp at this

/-- What goroutine `i` may be waiting for. -/
def Spec.Waits (conf : CConf) (n : Nat) (cmd : Cmd) (s : GNSt) (i : Nat) : Prop :=
  (∃ a, ofCaller i a = true ∧ (gnStep conf n cmd s a).isSome = true) ∨
  (∃ c f g, (s.con c).c.pc i = .enq f g ∧ (s.con c).c.frames.length - (s.con c).c.deq ≥ max conf.cap 1 ∧ (s.con c).c.gen ≤ g ∧
    (s.con c).c.done = false) ∨
  (∃ c t g, (s.con c).c.pc i = .wait t g ∧ (s.con c).c.slot t = none) ∨ ∃ c p b, (s.con c).c.pc i = .genId p b

theorem waits_busy {conf : CConf} {n : Nat} {cmd : Cmd} {dialed : Nat → Bool} {s : GNSt} (h : GNInv conf n cmd dialed s) {i c : Nat}
    (hb : (s.con c).c.pc i ≠ .idle) : Waits conf n cmd s i := by
  cases hp : (s.con c).c.pc i with
  | idle => exact absurd hp hb
  | check p b =>
    refine .inl ⟨.con c (.cl (.go i)), by simp [ofCaller], ?_⟩
    simp only [gnStep, gnCon, hp, eStep, CAct.proper, cStep, if_true]
    split <;> rfl
  | genId p b => exact .inr (.inr (.inr ⟨c, p, b, hp⟩))
  | load f =>
    refine .inl ⟨.con c (.cl (.go i)), by simp [ofCaller], ?_⟩
    simp only [gnStep, gnCon, hp, eStep, CAct.proper, cStep, if_true]
    split <;> rfl
  | enq f g =>
    by_cases hr : (s.con c).c.frames.length - (s.con c).c.deq < max conf.cap 1
    · refine .inl ⟨.con c (.cl (.enq i)), by simp [ofCaller], ?_⟩
      cases hf : f.resp with
      | true =>
        obtain ⟨idx, k, h1, -⟩ := h.ask c i (by rw [hp]; exact hf)
        simp [gnStep, gnCon, hp, hf, h1, eStep, CAct.proper, cStep, hr]
      | false => simp [gnStep, gnCon, hp, hf, eStep, CAct.proper, cStep, hr]
    · by_cases hd : g < (s.con c).c.gen ∨ (s.con c).c.done = true
      · refine .inl ⟨.con c (.cl (.enqDone i)), by simp [ofCaller], ?_⟩
        simp [gnStep, gnCon, eStep, CAct.proper, cStep, hp, hd]
      · simp only [not_or, Bool.not_eq_true] at hd
        exact .inr (.inl ⟨c, f, g, hp, by omega, by omega, hd.2⟩)
  | wait t g =>
    cases hsl : (s.con c).c.slot t with
    | none => exact .inr (.inr (.inl ⟨c, t, g, hp, hsl⟩))
    | some r =>
      refine .inl ⟨.con c (.cl (.recv i)), by simp [ofCaller], ?_⟩
      simp [gnStep, gnCon, eStep, CAct.proper, cStep, hp, hsl]

/-- **C116, what a call waits for.** In every execution, a generated call that has not returned and whose context has ended (so that it may
give up waiting for the response) can go on, or waits inside a write on one of its connections - for room in the queue of a connection
that is up, or for the result of its write. (Drawing an id is always possible; here it is one of the cases because the model chooses the
bytes of a frame before its id.) -/
theorem C116_partial {conf : CConf} {n : Nat} {cmd : Cmd} {dialed : Nat → Bool} {acts : List GNAct} {s : GNSt}
    (hrun : gnRun conf n cmd dialed acts = some s) {i : Nat} (hi : s.pc i ≠ .idle) :
    (∃ a, ofCaller i a = true ∧ (gnStep conf n cmd s a).isSome = true) ∨
    (∃ c f g, (s.con c).c.pc i = .enq f g ∧ (s.con c).c.frames.length - (s.con c).c.deq ≥ max conf.cap 1 ∧ (s.con c).c.gen ≤ g ∧
      (s.con c).c.done = false) ∨
    (∃ c t g, (s.con c).c.pc i = .wait t g ∧ (s.con c).c.slot t = none) ∨ ∃ c p b, (s.con c).c.pc i = .genId p b := by
  have h := GNInv.reach hrun
  have busy : ∀ c, (s.con c).c.pc i ≠ .idle → Waits conf n cmd s i := fun c => waits_busy h
  show Waits conf n cmd s i
  cases hp : s.pc i with
  | idle => exact absurd hp hi
  | top idx k =>
    refine .inl ⟨.go i, by simp [ofCaller], ?_⟩
    simp only [gnStep, hp]
    split <;> rfl
  | req idx k =>
    by_cases hb : (s.con (genPos n idx k)).c.pc i = .idle
    · refine .inl ⟨.con (genPos n idx k) (.cl (.request i false [0])), by simp [ofCaller], ?_⟩
      simp [gnStep, gnCon, hp, eStep, CAct.proper, cStep, hb]
    · exact busy _ hb
  | asked idx k =>
    by_cases hb : (s.con (genPos n idx k)).c.pc i = .idle
    · refine .inl ⟨.failed i, by simp [ofCaller], ?_⟩
      simp [gnStep, hp, hb]
    · exact busy _ hb
  | sub idx k t =>
    by_cases hb : (s.con (genPos n idx k)).c.pc i = .idle
    · by_cases ho : (t, CRes.ok) ∈ (s.con (genPos n idx k)).c.rets
      · refine .inl ⟨.sent i, by simp [ofCaller], ?_⟩
        simp [gnStep, hp, hb, ho]
      · refine .inl ⟨.failed i, by simp [ofCaller], ?_⟩
        simp [gnStep, hp, hb, ho]
    · exact busy _ hb
  | wait idx k t => exact .inl ⟨.gaveUp i, by simp [ofCaller], by simp [gnStep, hp]⟩
  | rst idx k t =>
    by_cases hb : (s.con (genPos n idx k)).c.pc i = .idle
    · refine .inl ⟨.con (genPos n idx k) (.cl (.send i (rstFrame (cframeOf (s.con (genPos n idx k)).c.frames t).rid))), by simp [ofCaller], ?_⟩
      have hl := h.last i idx k t (by rw [hp]; rfl) (by rw [hp]; rfl)
      obtain ⟨-, f, h1, h2, -⟩ := h.req _ _ _ hl
      have hc : cframeOf (s.con (genPos n idx k)).c.frames t = f := by simp [cframeOf, List.getD, h1]
      have hprop : (((s.con (genPos n idx k)).c.frames.any fun f' => f'.resp && f'.rid == f.rid)) = true :=
        List.any_eq_true.2 ⟨f, List.mem_of_getElem? h1, by simp [h2]⟩
      rw [hc]
      simp only [gnStep, gnCon, hp, hc, and_self, if_true, eStep, CAct.proper, rstFrame, hprop, Bool.or_true, cStep, hb, rstBytes_ne,
        Bool.false_eq_true, or_self, if_false]
      rfl
    · exact busy _ hb
  | rsting idx k t =>
    by_cases hb : (s.con (genPos n idx k)).c.pc i = .idle
    · refine .inl ⟨.reset i, by simp [ofCaller], ?_⟩
      simp [gnStep, hp, hb]
    · exact busy _ hb

/-- Two goroutines, the second of which waits for room in the queue, the first for its result, and a third that may go on. -/
example : (gnRun ⟨1, true, 1, false⟩ 1 1 (fun _ => true) (([.call 0 gnA, .go 0, .call 1 gnA, .go 1, .call 2 gnA] : List GNAct) ++
      ([.lGo, .lGo, .lGo, .request 0 false (layout 3 1 8 grA), .go 0, .go 0, .go 0, .request 1 false (layout 5 1 8 grA), .go 1, .go 1, .go 1,
        .enq 0] : List CAct).map fun a => .con 0 (.cl a))).map
      (fun s => ((s.pc 0, s.pc 1, s.pc 2), decide ((s.con 0).c.frames.length - (s.con 0).c.deq ≥ 1), (s.con 0).c.done, ((s.con 0).c.slot 0).isNone)) =
    some ((.sub 1 0 0, .asked 2 0, .top 3 0), true, false, true) := by decide +kernel

end Qrpc
