import Verif.Props.ClientEnd
/-! # C108: on a live client connection every call gets through -/
namespace Qrpc

/-- The connection is up, and neither the writer nor the reader has met an error. -/
structure CSt.live (s : CSt) : Prop where
  rwc : s.rwc = true
  done : s.done = false
  wr : s.wr ≠ .exit ∧ s.wr ≠ .dist true
  rd : s.rd ≠ .exit

/-- Nothing goes wrong: no read or write error, nobody closes the connection; and no new call. -/
def CAct.calm : CAct → Bool
  | .rErr | .wWrite _ false | .close | .cancel | .closeRWC | .request _ _ _ | .send _ _ => false
  | _ => true

/-- Without reconnect: the ticket of a waiting caller is not forgotten while the connection is not done; there is one transport
connection only. -/
structure OneConn (s : CSt) : Prop where
  gen : s.gen = 1
  enq : ∀ i f g, s.pc i = .enq f g → g = 1
  wait : ∀ i t g, s.pc i = .wait t g → g = 1
  kept : s.done = true ∨ ∀ i t g, s.pc i = .wait t g → s.deq ≤ t ∨ s.slot t ≠ none ∨ t ∈ s.batch ∨ t ∈ s.toSend.map Prod.fst

set_option maxHeartbeats 4000000 in
theorem OneConn.step {c : CConf} {s s' : CSt} {a : CAct} (hc : c.reconnect = false) (hA : CInvA s) (hJ : NoDial s) (h : OneConn s)
    (hs : cStep c s a = some s') : OneConn s' := by
  obtain ⟨h1, h2, h3, h4⟩ := h
  have hinj := hA.inj
  have hlt := hA.lt
  have hdq := hA.deq
  have hnb := hA.noBatch
  have hns := hA.noSend
  have nd := hJ.nd
  clear hA hJ
  unfold CSt.done at h4
  cstep_cases hs a
  all_goals constructor
  all_goals try simp only [CSt.done, map_fst_zip_client, map_fst_constC]
  all_goals try first
    | assumption
    | grind [setAt, CWr.collecting, CWr.distributing]
    | (exact .inl (by simpa [CSt.done] using ‹s.done = true›))

theorem OneConn.reach {c : CConf} (hc : c.reconnect = false) {acts : List CAct} {s : CSt} (hrun : cRun c true acts = some s) :
    OneConn s := by
  have : CInv c s ∧ NoDial s ∧ OneConn s := by
    refine runActs_inv (P := fun s => CInv c s ∧ NoDial s ∧ OneConn s)
      (fun s a s' h hs => ⟨h.1.step hs, h.2.1.step hc hs, h.2.2.step hc h.1.a h.2.1 hs⟩) ⟨CInv.init c true, ?_, ?_⟩ hrun
    · constructor <;> simp [CSt.init, CLp.count]
    · constructor <;> simp [CSt.init]
  exact this.2.2

/-- Tickets of waiting callers, in a live state of a connection with or without reconnect. -/
def CSt.kept (s : CSt) : Prop :=
  ∀ i t g, s.pc i = .wait t g → s.deq ≤ t ∨ s.slot t ≠ none ∨ t ∈ s.batch ∨ t ∈ s.toSend.map Prod.fst

theorem live_loop {c : CConf} {s : CSt} (hL : CInvL c s) (h : s.live) :
    ((s.loop = .connect ∨ s.loop = .spawn) ∧ s.rd = .off ∧ s.wr = .off) ∨
    ((s.loop = .onConnect ∨ s.loop = .waitDone) ∧ s.rd ≠ .off ∧ s.wr ≠ .off) := by
  obtain ⟨h1, h2, h3, h4⟩ := h
  have a1 := hL.noConn
  have a2 := hL.gen h1
  have a3 := hL.idle
  have a4 := hL.done
  have a5 := hL.wr
  have a6 := hL.rd
  unfold CSt.done at h2 a4
  cases hl : s.loop <;> simp [hl, h1, h2, a2, CLp.connected, CLp.running, CLp.after] at a1 a3 a4 a5 a6 ⊢ <;> grind

set_option maxHeartbeats 8000000 in
theorem cLive_step {c : CConf} {s s' : CSt} {a : CAct} (hI : CInv c s) (h : s.live) (hg : c.reconnect = false → OneConn s)
    (hs : cStep c s a = some s') (ha : a.calm = true) (hr : s'.refused = s.refused) :
    s'.live ∧ (∀ i t g, s.pc i = .wait t g → s'.pc i = .wait t g ∨ ∃ r, (t, r) ∈ s'.rets) ∧
    match a.who with
    | none => (∀ i, s'.pc i = s.pc i) ∧ s'.toEnd + (if a.inner then 1 else 0) ≤ s.toEnd + (if a.isFrame then 2 else 0)
    | some i => s.pc i ≠ .idle ∧ (∀ j, j ≠ i → s'.pc j = s.pc j) ∧ a.inner = true ∧ a.isFrame = false ∧
        (s'.pc i).toEnd + s'.toEnd < (s.pc i).toEnd + s.toEnd := by
  have hlp := live_loop hI.l h
  obtain ⟨v1, v2, v3, v4⟩ := h
  have hfl : ∀ (l : List Nat) (f : Nat → Bool), (l.filter f).length ≤ l.length := fun l f => List.length_filter_le f l
  have hz : ∀ k ok, (s.batch.zip ((batchResults ok (consume k (s.batch.map fun t => (cframeOf s.frames t).bytes))).map SRes.toC)).length ≤ s.batch.length := by
    intro k ok
    rw [List.length_zip]; omega
  have nb := hI.a.noBatch
  have ns := hI.a.noSend
  have dq := hI.a.deq
  have hgw : c.reconnect = false → s.gen = 1 ∧ ∀ i t g, s.pc i = .wait t g → g = 1 := fun hc => ⟨(hg hc).gen, (hg hc).wait⟩
  clear hI hg
  unfold CSt.done at v2
  unfold CSt.toEnd
  cstep_cases hs a
  all_goals simp only [CAct.calm, reduceCtorEq, Bool.false_eq_true] at ha
  all_goals refine ⟨⟨?_, ?_, ?_, ?_⟩, ?_, ?_⟩
  all_goals try simp only [CAct.who, CAct.inner, CAct.isFrame, Bool.false_eq_true, if_true, if_false, List.length_append, List.length_cons, List.length_nil, List.length_map, setAt, CSt.done]
  all_goals try first
    | grind [CPc.toEnd, CRd.toEnd, CWr.toEnd, CLp.toEnd, CWr.collecting, CWr.distributing, CSt.done]
    | exact absurd hr (by simp)

/-- No goroutine of the connection and no caller inside a call can take a step, unless something goes wrong. -/
def CSt.AtRestLive (c : CConf) (s : CSt) : Prop := ∀ a, a.inner = true → a.calm = true → cStep c s a = none

theorem refused_mono {c : CConf} {s s' : CSt} {a : CAct} (hs : cStep c s a = some s') : ∃ l, s'.refused = s.refused ++ l := by
  cstep_cases hs a
  all_goals first
    | exact ⟨[], (List.append_nil _).symm⟩
    | exact ⟨[_], rfl⟩

theorem refused_run {c : CConf} {s s' : CSt} {more : List CAct} (hm : runActs (cStep c) s more = some s') :
    ∃ l, s'.refused = s.refused ++ l := by
  induction more generalizing s with
  | nil => simp only [runActs, Option.some.injEq] at hm; exact ⟨[], by simp [hm]⟩
  | cons a as ih =>
    rw [runActs] at hm
    cases h1 : cStep c s a with
    | none => rw [h1] at hm; simp at hm
    | some s1 =>
      rw [h1] at hm
      obtain ⟨l1, e1⟩ := refused_mono h1
      obtain ⟨l2, e2⟩ := ih hm
      exact ⟨l1 ++ l2, by rw [e2, e1, List.append_assoc]⟩

theorem rets_run {c : CConf} {s s' : CSt} {more : List CAct} (hm : runActs (cStep c) s more = some s') {p : Nat × CRes}
    (hp : p ∈ s.rets) : p ∈ s'.rets := by
  refine runActs_inv (P := fun s => p ∈ s.rets) ?_ hp hm
  intro s a s' h hs
  cstep_cases hs a
  all_goals first
    | exact h
    | (simp only [List.mem_append]; exact .inl h)

/-- **C108.** Take any execution of a client connection, with or without reconnect, up to a state in which the connection is up and
neither reader nor writer has met an error, and all callers inside a call are among the first `N`; from there on let everybody
run, in any order and with frames arriving, but let nothing go wrong (no transport error, nobody closes it, no frame for which the
reader gives the connection up), and make no new calls. Then the callers and the goroutines take a bounded number of steps (two more for every frame
received); and when none of them can take a step any more, every caller has returned, each that was waiting for the result of its
write with one; the queue is empty, the writer waits for the next frame and the reader for the next one of the peer; and every request
that was written successfully is in the table of outstanding requests or has been answered. -/
theorem C108 {c : CConf} {d : Bool} (hd : c.reconnect = true ∨ d = true) {acts more : List CAct} {s s' : CSt} {N : Nat}
    (hrun : cRun c d acts = some s) (hx : s.live) (hN : ∀ i, N ≤ i → s.pc i = .idle)
    (hcalm : ∀ a ∈ more, a.calm = true) (hm : runActs (cStep c) s more = some s') (href : s'.refused = s.refused) :
    s'.live ∧
    more.countP CAct.inner ≤ sumTo N (fun i => (s.pc i).toEnd) + s.toEnd + 2 * more.countP CAct.isFrame ∧
    (s'.AtRestLive c → (∀ i, s'.pc i = .idle) ∧ (∀ i t g, s.pc i = .wait t g → ∃ r, (t, r) ∈ s'.rets) ∧
      s'.deq = s'.frames.length ∧ s'.wr = .first ∧ s'.rd = .read ∧ s'.loop = .waitDone ∧ s'.handlers = 0 ∧
      ∀ t, (t, CRes.ok) ∈ s'.rets → (cframeOf s'.frames t).resp = true →
        ((cframeOf s'.frames t).rid, t) ∈ s'.respes ∨ s'.revs t ≠ []) := by
  have hone : ∀ {acts s}, cRun c d acts = some s → c.reconnect = false → OneConn s := by
    intro acts s h hc
    have : d = true := by simpa [hc] using hd
    subst this
    exact OneConn.reach hc h
  have key : ∀ (more acts : List CAct) (s : CSt), cRun c d acts = some s → s.live → (∀ i, N ≤ i → s.pc i = .idle) →
      (∀ a ∈ more, a.calm = true) → runActs (cStep c) s more = some s' → s'.refused = s.refused →
      cRun c d (acts ++ more) = some s' ∧ s'.live ∧
      (∀ i t g, s.pc i = .wait t g → s'.pc i = .wait t g ∨ ∃ r, (t, r) ∈ s'.rets) ∧
      more.countP CAct.inner + (sumTo N (fun i => (s'.pc i).toEnd) + s'.toEnd) ≤
        sumTo N (fun i => (s.pc i).toEnd) + s.toEnd + 2 * more.countP CAct.isFrame := by
    intro more
    induction more with
    | nil =>
      intro acts s hrun hx _ _ h _
      simp only [runActs, Option.some.injEq] at h
      subst h
      exact ⟨by simpa using hrun, hx, fun i t g h => .inl h, by simp⟩
    | cons a as ih =>
      intro acts s hrun hx hN hcall h href
      rw [runActs] at h
      cases h1 : cStep c s a with
      | none => rw [h1] at h; simp at h
      | some s1 =>
        rw [h1] at h
        have hrun1 : cRun c d (acts ++ [a]) = some s1 := by
          unfold cRun at hrun ⊢; rw [runActs_append, hrun]; simp [runActs, h1]
        obtain ⟨l1, e1⟩ := refused_mono h1
        obtain ⟨l2, e2⟩ := refused_run h
        have e3 : l1 = [] ∧ l2 = [] := by
          rw [e2, e1, List.append_assoc] at href
          simpa using href
        obtain ⟨h2, hw, h3⟩ := cLive_step (CInv.reach hrun) hx (hone hrun) h1 (hcall a (by simp)) (by rw [e1, e3.1]; simp)
        have href1 : s'.refused = s1.refused := by rw [e2, e3.2]; simp
        rw [List.countP_cons, List.countP_cons]
        have hret : ∀ {t r}, (t, r) ∈ s1.rets → (t, r) ∈ s'.rets := fun hr => rets_run h hr
        have comb : (∀ i t g, s1.pc i = .wait t g → s'.pc i = .wait t g ∨ ∃ r, (t, r) ∈ s'.rets) →
            ∀ i t g, s.pc i = .wait t g → s'.pc i = .wait t g ∨ ∃ r, (t, r) ∈ s'.rets := by
          intro hh i t g hp
          rcases hw i t g hp with h' | ⟨r, h'⟩
          · exact hh i t g h'
          · exact .inr ⟨r, hret h'⟩
        cases hwho : a.who with
        | none =>
          rw [hwho] at h3
          simp only at h3
          obtain ⟨h4, h5⟩ := h3
          obtain ⟨g1, g2, g3, g4⟩ := ih (acts ++ [a]) s1 hrun1 h2 (fun i hi => by rw [h4]; exact hN i hi) (fun b hb => hcall b (by simp [hb])) h href1
          refine ⟨by simpa using g1, g2, comb g3, ?_⟩
          have : (fun i => (s1.pc i).toEnd) = fun i => (s.pc i).toEnd := by funext i; rw [h4]
          rw [this] at g4
          cases hi : a.inner <;> cases hf : a.isFrame <;> simp only [hi, hf, if_true, if_false, Bool.false_eq_true] at h5 ⊢ <;> omega
        | some i =>
          rw [hwho] at h3
          simp only at h3
          obtain ⟨h3, h4, hi, hf, h5⟩ := h3
          have hlt : i < N := by
            rcases Nat.lt_or_ge i N with h | h
            · exact h
            · exact absurd (hN _ h) h3
          obtain ⟨g1, g2, g3, g4⟩ := ih (acts ++ [a]) s1 hrun1 h2 (fun j hj => by rw [h4 j (by omega)]; exact hN j hj) (fun b hb => hcall b (by simp [hb])) h href1
          refine ⟨by simpa using g1, g2, comb g3, ?_⟩
          have := sumTo_change (n := N) (f := fun i => (s.pc i).toEnd) (g := fun i => (s1.pc i).toEnd) hlt (fun j hj => by rw [h4 j hj])
          simp only [hi, hf, if_true, if_false, Bool.false_eq_true]
          omega
  obtain ⟨hrun', hl', hwait, hb⟩ := key more acts s hrun hx hN hcalm hm href
  refine ⟨hl', by omega, fun hq => ?_⟩
  have hI := CInv.reach hrun'
  have hkept : s'.kept := by
    cases hc : c.reconnect with
    | true => exact hI.b hc
    | false =>
      rcases (hone hrun' hc).kept with h | h
      · rw [hl'.done] at h; cases h
      · exact h
  have hloop : s'.loop = .waitDone := by
    have hg := hq .lGo rfl rfl
    rcases live_loop hI.l hl' with ⟨h | h, -, -⟩ | ⟨h | h, -, -⟩
    · simp [cStep, h, hl'.rwc] at hg
    · simp [cStep, h] at hg
    · simp [cStep, h] at hg
    · exact h
  obtain ⟨hrdo, hwro⟩ : s'.rd ≠ .off ∧ s'.wr ≠ .off := by
    rcases live_loop hI.l hl' with ⟨h, -, -⟩ | ⟨-, h⟩
    · rw [hloop] at h; simp at h
    · exact h
  have hrd : s'.rd = .read := by
    have hg := hq .rGo rfl rfl
    cases hp : s'.rd with
    | off => exact absurd hp hrdo
    | check => simp only [cStep, hp] at hg; split at hg <;> simp at hg
    | opening => simp only [cStep, hp] at hg; split at hg <;> simp at hg
    | read => rfl
    | lookup f =>
      simp only [cStep, hp] at hg
      repeat' (split at hg)
      all_goals simp at hg
    | deliver t f => simp [cStep, hp] at hg
    | exit => simp [cStep, hp] at hg
  have hwr : s'.wr = .first ∧ s'.deq = s'.frames.length := by
    have hg := hq .wGo rfl rfl
    have hdeq := hq (.wDeq true true) rfl rfl
    cases hp : s'.wr with
    | off => exact absurd hp hwro
    | first =>
      refine ⟨rfl, ?_⟩
      simp only [cStep, hp] at hdeq
      split at hdeq
      · split at hdeq <;> simp at hdeq
      · have := hI.a.deq; omega
    | more n =>
      exfalso
      cases n with
      | zero => simp [cStep, hp] at hg
      | succ n =>
        simp only [cStep, hp] at hdeq hg
        split at hdeq
        · split at hdeq <;> simp at hdeq
        · have := hI.a.deq
          rw [if_pos ⟨by omega, hl'.done⟩] at hg
          simp at hg
    | register => exfalso; simp only [cStep, hp] at hg; split at hg <;> simp at hg
    | write =>
      have hw := hq (.wWrite (s'.batch.map fun t => (cframeOf s'.frames t).bytes).flatten.length true) rfl rfl
      simp [cStep, hp] at hw
    | dist stop =>
      exfalso
      simp only [cStep, hp] at hg
      split at hg
      · split at hg <;> simp at hg
      · next t r rest hts =>
        have hsl : s'.slot t = none := by
          cases hsl : s'.slot t with
          | none => rfl
          | some x =>
            have h1 := hI.a.slot t (by simp [hsl])
            exact absurd (by simp [hts]) (hI.a.sendsSend t h1)
        simp [hsl] at hg
    | exit => simp [cStep, hp] at hg
  have hh : s'.handlers = 0 := by
    have hg := hq .handlerDone rfl rfl
    simp only [cStep] at hg
    split at hg
    · simp at hg
    · omega
  have hcallers : ∀ i, s'.pc i = .idle := by
    intro i
    cases hp : s'.pc i with
    | idle => rfl
    | check p b => have := hq (.go i) rfl rfl; simp only [cStep, hp] at this; split at this <;> simp at this
    | genId p b => have := hq (.go i) rfl rfl; simp [cStep, hp] at this
    | load f => have := hq (.go i) rfl rfl; simp only [cStep, hp] at this; split at this <;> simp at this
    | enq f g =>
      have := hq (.enq i) rfl rfl
      simp only [cStep, hp] at this
      rw [if_pos (by rw [hwr.2]; omega)] at this
      simp at this
    | wait t g =>
      exfalso
      have hb := hI.a.noBatch (by simp [hwr.1, CWr.collecting])
      have hn := hI.a.noSend (by simp [hwr.1, CWr.distributing])
      have hlt := hI.a.lt i t g hp
      have hsl : s'.slot t ≠ none := by
        rcases hkept i t g hp with h | h | h | h
        · have := hwr.2; omega
        · exact h
        · simp [hb] at h
        · simp [hn] at h
      cases hsl' : s'.slot t with
      | none => exact hsl hsl'
      | some r => have := hq (.recv i) rfl rfl; simp [cStep, hp, hsl'] at this
  refine ⟨hcallers, fun i t g hp => ?_, hwr.2, hwr.1, hrd, hloop, hh, fun t ht hresp => ?_⟩
  · rcases hwait i t g hp with h | h
    · rw [hcallers i] at h; cases h
    · exact h
  · rcases hI.c.regd t (hI.d.rets t ht hresp) with h | h | ⟨f, h⟩
    · exact .inl h
    · exact .inr h
    · rw [hrd] at h; cases h

/-- Its hypotheses: one request is outstanding, a second one waits for its result in the writer's batch, a third is about to be submitted; ... -/
def exBusy : List CAct :=
  [.lGo, .lGo, .lGo, .rGo, .rGo, .request 0 false [1], .go 0, .go 0, .go 0, .enq 0, .wDeq true true, .wGo, .wGo, .wWrite 1 true, .wGo, .wGo, .recv 0,
   .request 1 false [2], .go 1, .go 1, .go 1, .enq 1, .wDeq true true, .request 2 false [3], .go 2, .go 2]
example : (cRun cfg2 true exBusy).map (fun s => (s.rwc, s.done, decide (s.wr = .more 1), s.rd, s.pc 1, s.respes)) =
    some (true, false, true, .read, .wait 1 1, [(3, 0)]) := by rfl
/-- ... and the state of rest: two requests answered, the third in the table. -/
example : (cRun cfg2 true (exBusy ++ [.go 2, .enq 2, .wDeq true true, .wGo, .wGo, .wWrite 2 true, .rFrame ⟨3, false, false, false⟩, .wGo, .recv 1,
    .wGo, .rGo, .rGo, .wGo, .recv 2, .rFrame ⟨5, false, false, false⟩, .rGo, .rGo])).map
      (fun s => (s.wr, s.rd, s.pc 1, s.pc 2, s.rets, s.respes)) =
    some (.first, .read, .idle, .idle, [(0, .ok), (1, .ok), (2, .ok)], [(7, 2)]) := by rfl

end Qrpc
