import Verif.Model.Callback
import Verif.Props.ServeRead
import Verif.Lemmas.ServeReadG
import Verif.Props.ServeResp
/-! # Calls made by handlers and subscribers: C125 -/
namespace Qrpc
open Spec

/-- What holds in every reachable state. -/
structure BkInv (c : RConf) (t0 : Nat) (s : BkSt) : Prop where
  r : ∃ acts, rdRun c t0 acts = some s.r
  v : ∃ acts, vRun acts = some s.v
  g : RInvG s.r
  link : s.v.rd = .read ↔ ∀ k, s.r.rd ≠ .lookup k
  ctx : s.r.ctx = s.v.closed
  act : ∀ k t, s.waits k = some t → s.active k ∧ t ∈ s.v.regd

theorem rdRun_snoc {c t0 s a s'} (h : ∃ acts, rdRun c t0 acts = some s) (hs : rdStep c s a = some s') :
    ∃ acts, rdRun c t0 acts = some s' := by
  obtain ⟨acts, h⟩ := h
  refine ⟨acts ++ [a], ?_⟩
  unfold rdRun at h ⊢
  rw [runActs_append, h]
  simp [runActs, hs]

theorem vRun_snoc {s a s'} (h : ∃ acts, vRun acts = some s) (hs : vStep s a = some s') : ∃ acts, vRun acts = some s' := by
  obtain ⟨acts, h⟩ := h
  refine ⟨acts ++ [a], ?_⟩
  unfold vRun at h ⊢
  rw [runActs_append, h]
  simp [runActs, hs]

theorem vStep_mono {s a s'} (hs : vStep s a = some s') : (s.closed = true → s'.closed = true) ∧ ∀ t ∈ s.regd, t ∈ s'.regd := by
  vstep_cases hs a <;> simp_all <;> grind

theorem rdStep_ctx_mono {c s a s'} (hs : rdStep c s a = some s') (h : s.ctx = true) : s'.ctx = true := by
  rdstep_cases hs a <;> simp_all

/-- A program goes on running unless the step is its end. -/
theorem active_step {c : RConf} {s : BkSt} {a : RAct} {r : RSt} (hs : rdStep c s.r a = some r) {k : Nat} (hk : s.active k)
    (hne : a.returns s.r ≠ some k) : (({ s with r := r } : BkSt).active k) := by
  unfold BkSt.active at hk ⊢
  rdstep_cases hs a <;> simp_all [RAct.returns] <;> grind

theorem rdStep_lookup {c s a s'} (hs : rdStep c s a = some s') (ha : a.elsewhere = false) :
    (∀ k, s'.rd ≠ .lookup k) ↔ ∀ k, s.rd ≠ .lookup k := by
  rdstep_cases hs a <;> simp_all [RAct.elsewhere]

theorem vStep_rd {s a s'} (hs : vStep s a = some s') (ha : a.reader = false) : s'.rd = s.rd := by
  vstep_cases hs a <;> simp_all [VAct.reader]

theorem BkInv.init (c : RConf) (t0 : Nat) : BkInv c t0 (BkSt.init t0) where
  r := ⟨[], rfl⟩
  v := ⟨[], rfl⟩
  g := .init t0
  link := by simp [BkSt.init, VSt.init, RSt.init]
  ctx := rfl
  act := by simp [BkSt.init]

theorem BkInv.step {c t0 s a s'} (h : BkInv c t0 s) (hs : bkStep c s a = some s') : BkInv c t0 s' := by
  obtain ⟨hr, hv, hg, hl, hx, ha⟩ := h
  cases a with
  | srv a =>
    simp only [bkStep] at hs
    split at hs
    · simp at hs
    rename_i he
    split at hs
    · simp at hs
    rename_i hw
    split at hs
    · rename_i r hr1
      split at hs
      · simp at hs
      rename_i hc
      simp only [Option.some.injEq] at hs
      subst hs
      refine ⟨rdRun_snoc hr hr1, hv, hg.step hr1, ?_, ?_, ?_⟩
      · simp only []; rw [rdStep_lookup hr1 (by simpa using he)]; exact hl
      · simp only []
        rw [← hx]
        cases h1 : s.r.ctx with
        | true => exact rdStep_ctx_mono hr1 h1
        | false => cases h2 : r.ctx with
          | false => rfl
          | true => exact absurd ⟨h2, h1⟩ hc
      · intro k t hk
        refine ⟨active_step hr1 (ha k t hk).1 ?_, (ha k t hk).2⟩
        intro hret
        have hk : s.waits k = some t := hk
        exact hw (by rw [hret]; simp [hk])
    · simp at hs
  | frame f =>
    simp only [bkStep] at hs
    split at hs
    · rename_i r hr1
      have hact : ∀ k t, s.waits k = some t → ({ s with r := r } : BkSt).active k ∧ t ∈ s.v.regd := fun k t hk =>
        ⟨active_step hr1 (ha k t hk).1 (by simp [RAct.returns]), (ha k t hk).2⟩
      have hrd : s.r.rd = .read := by
        cases h1 : s.r.rd <;> simp_all [rdStep]
      have hvr : s.v.rd = .read := hl.2 (by simp [hrd])
      have hcx : r.ctx = s.r.ctx := by
        simp only [rdStep, hrd] at hr1
        repeat' (split at hr1)
        all_goals (simp only [Option.some.injEq] at hr1; subst hr1; rfl)
      split at hs
      · rename_i k hk
        cases h1 : vStep s.v (.frame f) with
        | none => rw [h1] at hs; simp at hs
        | some v =>
          rw [h1] at hs
          simp only [Option.map_some, Option.some.injEq] at hs
          subst hs
          have hfr : f.push = false ∧ f.rid % 2 = 0 := by
            simp only [rdStep, hrd] at hr1
            repeat' (split at hr1)
            all_goals (simp only [Option.some.injEq] at hr1; subst hr1; simp_all [InFrame.toR, RFrame.fromServer])
          have hv1 : v = { s.v with rd := .lookup f } := by
            simpa [vStep, hvr, hfr, eq_comm] using h1
          refine ⟨rdRun_snoc hr hr1, vRun_snoc hv h1, hg.step hr1, ?_, ?_, ?_⟩
          · simp only [hv1, hk]; simp
          · simp only [hv1]; rw [hcx, hx]
          · simp only [hv1]; exact hact
      · rename_i hk
        simp only [Option.some.injEq] at hs
        subst hs
        refine ⟨rdRun_snoc hr hr1, hv, hg.step hr1, ?_, ?_, hact⟩
        · simp only [hvr, true_iff]
          exact fun k hk' => hk k hk'
        · simp only []; rw [hcx, hx]
    · simp at hs
  | lookup =>
    simp only [bkStep] at hs
    split at hs
    · rename_i f hf
      obtain ⟨k0, hk0⟩ : ∃ k, s.r.rd = .lookup k := by
        apply Classical.byContradiction
        intro hn
        have := hl.2 (by simpa using hn)
        simp [hf] at this
      split at hs
      · rename_i v hv1
        have hm := vStep_mono hv1
        have hcl : v.closed = s.v.closed := by
          simp only [vStep, hf] at hv1
          split at hv1 <;> (simp only [Option.some.injEq] at hv1; subst hv1; rfl)
        split at hs
        · rename_i hvr
          cases h1 : rdStep c s.r (.rLookup false) with
          | none => rw [h1] at hs; simp at hs
          | some r =>
            rw [h1] at hs
            simp only [Option.map_some, Option.some.injEq] at hs
            subst hs
            have hr1 : r = { s.r with rd := .send k0 } := by simpa [rdStep, hk0, eq_comm] using h1
            refine ⟨rdRun_snoc hr h1, vRun_snoc hv hv1, hg.step h1, ?_, ?_, ?_⟩
            · simp [hvr, hr1]
            · simp only [hr1, hcl]; exact hx
            · exact fun k t hk => ⟨active_step h1 (ha k t hk).1 (by simp [RAct.returns]), hm.2 t (ha k t hk).2⟩
        · rename_i hvr
          simp only [Option.some.injEq] at hs
          subst hs
          refine ⟨hr, vRun_snoc hv hv1, hg, ?_, ?_, fun k t hk => ⟨(ha k t hk).1, hm.2 t (ha k t hk).2⟩⟩
          · simp only [hk0]
            constructor
            · intro h; exact absurd h hvr
            · intro h; exact absurd rfl (h k0)
          · simp only [hcl]; exact hx
      · simp at hs
    · simp at hs
  | deliver =>
    simp only [bkStep] at hs
    split at hs
    · rename_i t f hf
      obtain ⟨k0, hk0⟩ : ∃ k, s.r.rd = .lookup k := by
        apply Classical.byContradiction
        intro hn
        have := hl.2 (by simpa using hn)
        simp [hf] at this
      split at hs
      · rename_i v hv1
        have hm := vStep_mono hv1
        have hcl : v.closed = s.v.closed ∧ v.rd = .read := by
          simp only [vStep, hf, Option.some.injEq] at hv1
          subst hv1; exact ⟨rfl, rfl⟩
        cases h1 : rdStep c s.r (.rLookup true) with
        | none => rw [h1] at hs; simp at hs
        | some r =>
          rw [h1] at hs
          simp only [Option.map_some, Option.some.injEq] at hs
          subst hs
          have hr1 : r = { s.r with rd := .read, log := s.r.log ++ [.resp k0] } := by simpa [rdStep, hk0, eq_comm] using h1
          refine ⟨rdRun_snoc hr h1, vRun_snoc hv hv1, hg.step h1, ?_, ?_, ?_⟩
          · simp [hcl.2, hr1]
          · simp only [hr1, hcl.1]; exact hx
          · exact fun k t hk => ⟨active_step h1 (ha k t hk).1 (by simp [RAct.returns]), hm.2 t (ha k t hk).2⟩
      · simp at hs
    · simp at hs
  | tab a =>
    simp only [bkStep] at hs
    split at hs
    · simp at hs
    rename_i he
    split at hs
    · rename_i v hv1
      simp only [Option.some.injEq] at hs
      subst hs
      have hm := vStep_mono hv1
      have hre : ∃ acts, rdRun c t0 acts = some { s.r with ctx := s.r.ctx || v.closed } := by
        cases hc : v.closed with
        | false => simpa using hr
        | true => exact rdRun_snoc (a := .extClose) hr (by simp [rdStep])
      refine ⟨hre, vRun_snoc hv hv1, ?_, ?_, ?_, ?_⟩
      · obtain ⟨g1, g2, g3, g4⟩ := hg
        refine ⟨g1, fun h => ?_, fun h => ?_, g4⟩
        · simp [g2 h]
        · simp [g3 h]
      · simp only [vStep_rd hv1 (by simpa using he)]; exact hl
      · simp only [hx]
        cases h1 : s.v.closed with
        | true => rw [hm.1 h1]; rfl
        | false => simp
      · intro k t hk
        exact ⟨(ha k t hk).1, hm.2 t (ha k t hk).2⟩
    · simp at hs
  | wait k t =>
    simp only [bkStep] at hs
    split at hs
    · rename_i hc
      simp only [Option.some.injEq] at hs
      subst hs
      refine ⟨hr, hv, hg, hl, hx, ?_⟩
      intro k' t' hk'
      simp only [setAt] at hk'
      by_cases hkk : k' = k
      · subst hkk
        simp only [if_true, Option.some.injEq] at hk'
        subst hk'
        exact ⟨hc.1, hc.2.2⟩
      · rw [if_neg hkk] at hk'
        exact ha k' t' hk'
    · simp at hs
  | got k =>
    simp only [bkStep] at hs
    split at hs
    · split at hs
      · simp at hs
      simp only [Option.some.injEq] at hs
      subst hs
      refine ⟨hr, hv, hg, hl, hx, ?_⟩
      intro k' t' hk'
      simp only [setAt] at hk'
      by_cases hkk : k' = k
      · simp [hkk] at hk'
      · rw [if_neg hkk] at hk'
        exact ha k' t' hk'
    · simp at hs

theorem BkInv.reach {c t0 acts s} (h : bkRun c t0 acts = some s) : BkInv c t0 s :=
  runActs_inv (P := BkInv c t0) (fun _ _ _ hi hs => hi.step hs) (.init c t0) h

/-! ## C125 A handler can call its peer and wait for the answer -/

theorem vStep_open {s a s'} (hA : VInv s) (hs : vStep s a = some s') (ha : a.reader = false) (hc : s'.closed = false) :
    s.closed = false ∧ s'.revs = s.revs := by
  have hi := hA.c.idle
  vstep_cases hs a <;> simp_all [VAct.reader]

/-- Only a closer closes the connection, and it stays closed. -/
theorem bk_open {c x a x'} (hs : bkStep c x a = some x') (hc : x'.v.closed = false) : x.v.closed = false := by
  have key : ∀ {a v}, vStep x.v a = some v → v.closed = false → x.v.closed = false := by
    intro a v hv hc
    cases h : x.v.closed with
    | false => rfl
    | true => rw [(vStep_mono hv).1 h] at hc; simp at hc
  cases a with
  | srv a =>
    simp only [bkStep] at hs
    repeat' (split at hs)
    all_goals simp only [Option.some.injEq, reduceCtorEq] at hs
    subst hs; exact hc
  | frame f =>
    simp only [bkStep] at hs
    split at hs
    · split at hs
      · cases h1 : vStep x.v (.frame f) with
        | none => rw [h1] at hs; simp at hs
        | some v =>
          rw [h1] at hs
          simp only [Option.map_some, Option.some.injEq] at hs
          subst hs; exact key h1 hc
      · simp only [Option.some.injEq] at hs; subst hs; exact hc
    · simp at hs
  | lookup =>
    simp only [bkStep] at hs
    split at hs
    · split at hs
      · rename_i v hv
        split at hs
        · cases h1 : rdStep c x.r (.rLookup false) with
          | none => rw [h1] at hs; simp at hs
          | some r =>
            rw [h1] at hs
            simp only [Option.map_some, Option.some.injEq] at hs
            subst hs; exact key hv hc
        · simp only [Option.some.injEq] at hs; subst hs; exact key hv hc
      · simp at hs
    · simp at hs
  | deliver =>
    simp only [bkStep] at hs
    split at hs
    · split at hs
      · rename_i v hv
        cases h1 : rdStep c x.r (.rLookup true) with
        | none => rw [h1] at hs; simp at hs
        | some r =>
          rw [h1] at hs
          simp only [Option.map_some, Option.some.injEq] at hs
          subst hs; exact key hv hc
      · simp at hs
    · simp at hs
  | tab a =>
    simp only [bkStep] at hs
    split at hs
    · simp at hs
    split at hs
    · rename_i v hv
      simp only [Option.some.injEq] at hs
      subst hs; exact key hv hc
    · simp at hs
  | wait k t =>
    simp only [bkStep] at hs
    split at hs
    · simp only [Option.some.injEq] at hs; subst hs; exact hc
    · simp at hs
  | got k =>
    simp only [bkStep] at hs
    repeat' (split at hs)
    all_goals simp only [Option.some.injEq, reduceCtorEq] at hs
    subst hs; exact hc

/-- While the reader neither reads nor looks up an answer, nothing is read and nothing is delivered; and a program that waits for an
answer that has not come does not go on. -/
theorem bk_still {c t0 x a x'} (hi : BkInv c t0 x) (hs : bkStep c x a = some x') (hc : x'.v.closed = false)
    (hrd : x.r.rd ≠ .read) (hl : ∀ k, x.r.rd ≠ .lookup k) {k t : Nat} (hw : x.waits k = some t) (hn : x.v.revs t = []) :
    x'.v.revs = x.v.revs ∧ x'.r.arr = x.r.arr ∧ x'.waits k = some t ∧
    (x.r.main = .handling k → x'.r.main = .handling k) ∧ (x.r.rd = .sub → k + 1 = x.r.arr.length → x'.r.rd = .sub) := by
  obtain ⟨va, hva⟩ := hi.v
  have hV := VInv.reach hva
  have hvr := hi.link.2 hl
  cases a with
  | srv a =>
    simp only [bkStep] at hs
    split at hs
    · simp at hs
    rename_i he
    split at hs
    · simp at hs
    rename_i hb
    split at hs
    · rename_i r hr1
      split at hs
      · simp at hs
      simp only [Option.some.injEq] at hs
      subst hs
      have hret : a.returns x.r ≠ some k := fun hret => hb (by rw [hret]; simp [hw])
      have hmain : r.arr = x.r.arr ∧ (x.r.main = .handling k → r.main = .handling k) ∧
          (x.r.rd = .sub → k + 1 = x.r.arr.length → r.rd = .sub) := by
        rdstep_cases hr1 a <;> simp_all [RAct.returns, RAct.elsewhere] <;> omega
      exact ⟨rfl, hmain.1, hw, hmain.2⟩
    · simp at hs
  | frame f =>
    simp only [bkStep] at hs
    have : rdStep c x.r (.rFrame f.toR) = none := by cases h1 : x.r.rd <;> simp_all [rdStep]
    rw [this] at hs
    simp at hs
  | lookup => simp only [bkStep, hvr, reduceCtorEq] at hs
  | deliver => simp only [bkStep, hvr, reduceCtorEq] at hs
  | tab a =>
    simp only [bkStep] at hs
    split at hs
    · simp at hs
    rename_i he
    split at hs
    · rename_i v hv1
      simp only [Option.some.injEq] at hs
      subst hs
      exact ⟨(vStep_open hV hv1 (by simpa using he) hc).2, rfl, hw, id, fun h _ => h⟩
    · simp at hs
  | wait k' t' =>
    simp only [bkStep] at hs
    split at hs
    · rename_i hcond
      simp only [Option.some.injEq] at hs
      subst hs
      refine ⟨rfl, rfl, ?_, id, fun h _ => h⟩
      have : k ≠ k' := by rintro rfl; simp [hw] at hcond
      simp [setAt, this, hw]
    · simp at hs
  | got k' =>
    simp only [bkStep] at hs
    split at hs
    · rename_i t' ht'
      split at hs
      · simp at hs
      rename_i hrv
      simp only [Option.some.injEq] at hs
      subst hs
      refine ⟨rfl, rfl, ?_, id, fun h _ => h⟩
      have : k ≠ k' := by
        rintro rfl
        rw [hw] at ht'
        simp only [Option.some.injEq] at ht'
        subst ht'
        exact hrv hn
      simp [setAt, this, hw]
    · simp at hs

/-- **C125 is false for blocking requests.** If the handler of a request without `NBFlag` waits for the answer to a request sent on
the same connection, then as long as the connection is not closed it goes on waiting, no frame is read from the connection, and no call
made on it gets an answer. -/
theorem C125_refuted {c : RConf} {t0 : Nat} {acts more : List BkAct} {s s' : BkSt} (hrun : bkRun c t0 acts = some s)
    {k t : Nat} (hm : s.r.main = .handling k) (hw : s.waits k = some t) (hn : s.v.revs t = [])
    (hmore : runActs (bkStep c) s more = some s') (hop : s'.v.closed = false) :
    s'.r.main = .handling k ∧ s'.waits k = some t ∧ s'.r.arr = s.r.arr ∧ s'.v.revs = s.v.revs := by
  have key := runActs_inv (step := bkStep c)
    (P := fun x => BkInv c t0 x ∧ (x.v.closed = false →
      x.r.main = .handling k ∧ x.waits k = some t ∧ x.r.arr = s.r.arr ∧ x.v.revs = s.v.revs))
    ?_ ⟨BkInv.reach hrun, fun _ => ⟨hm, hw, rfl, rfl⟩⟩ hmore
  · exact key.2 hop
  rintro x a x' ⟨hi, hp⟩ hs
  refine ⟨hi.step hs, fun hc => ?_⟩
  obtain ⟨p1, p2, p3, p4⟩ := hp (bk_open hs hc)
  obtain ⟨ra, hra⟩ := hi.r
  have hb := ((RInv.reach hra).b.busy (by simp [p1, MPc.busy])).1
  have h := bk_still hi hs hc (fun h => by simp [h, RRd.waits] at hb) (fun k h => by simp [h, RRd.waits] at hb) p2 (by rw [p4]; exact hn)
  exact ⟨h.2.2.2.1 p1, h.2.2.1, h.2.1.trans p3, h.1.trans p4⟩

/-- **... and for `SubFunc`**, whatever the flags: it runs in the goroutine of the reader. -/
theorem C125_refuted_sub {c : RConf} {t0 : Nat} {acts more : List BkAct} {s s' : BkSt} (hrun : bkRun c t0 acts = some s)
    {k t : Nat} (hm : s.r.rd = .sub) (hk : k + 1 = s.r.arr.length) (hw : s.waits k = some t) (hn : s.v.revs t = [])
    (hmore : runActs (bkStep c) s more = some s') (hop : s'.v.closed = false) :
    s'.r.rd = .sub ∧ s'.waits k = some t ∧ s'.r.arr = s.r.arr ∧ s'.v.revs = s.v.revs := by
  have key := runActs_inv (step := bkStep c)
    (P := fun x => BkInv c t0 x ∧ (x.v.closed = false →
      x.r.rd = .sub ∧ x.waits k = some t ∧ x.r.arr = s.r.arr ∧ x.v.revs = s.v.revs))
    ?_ ⟨BkInv.reach hrun, fun _ => ⟨hm, hw, rfl, rfl⟩⟩ hmore
  · exact key.2 hop
  rintro x a x' ⟨hi, hp⟩ hs
  refine ⟨hi.step hs, fun hc => ?_⟩
  obtain ⟨p1, p2, p3, p4⟩ := hp (bk_open hs hc)
  have h := bk_still hi hs hc (by simp [p1]) (by simp [p1]) p2 (by rw [p4]; exact hn)
  exact ⟨h.2.2.2.2 p1 (by rw [p3]; exact hk), h.2.2.1, h.2.1.trans p3, h.1.trans p4⟩

/-- A blocking request arrives; its handler sends a request, which is written, and waits for the answer. -/
def exCallback : List BkAct :=
  [.frame ⟨1, false, false, false⟩, .srv .rSend, .srv .mRecv, .tab (.request [1]), .tab (.register [0]), .wait 0 0]

theorem C125_refuted_example : (bkRun ⟨4, 0, 0, false⟩ 100 exCallback).map (fun s => (s.r.main, s.waits 0, s.v.revs 0, s.v.closed, s.r.rd)) =
    some (.handling 0, some 0, [], false, .gate) := by rfl

/-- The answer of the peer cannot be read. -/
example : bkRun ⟨4, 0, 0, false⟩ 100 (exCallback ++ [.frame ⟨2, false, false, false⟩]) = none := by rfl

/-- When the connection is closed the handler goes on. -/
example : (bkRun ⟨4, 0, 0, false⟩ 100 (exCallback ++ [.tab (.close 7), .tab (.clGo 7), .got 0, .srv .mEnd])).map (fun s => (s.r.main, s.v.revs 0)) =
    some (.cleanup 0, [.closed]) := by rfl

/-- A push arrives, and `SubFunc` does the same. -/
def exCallbackSub : List BkAct := [.frame ⟨1, true, false, false⟩, .tab (.request [1]), .tab (.register [0]), .wait 0 0]

theorem C125_refuted_sub_example : (bkRun ⟨4, 0, 0, true⟩ 100 exCallbackSub).map (fun s => (s.r.rd, s.r.arr.length, s.waits 0, s.v.revs 0, s.v.closed)) =
    some (.sub, 1, some 0, [], false) := by rfl

theorem eq_of_fst_nodup : ∀ {l : List (UInt64 × Nat)} {p q : UInt64 × Nat}, (l.map Prod.fst).Nodup → p ∈ l → q ∈ l → p.1 = q.1 → p = q
  | x :: l, p, q, hn, hp, hq, he => by
    simp only [List.map_cons, List.nodup_cons, List.mem_map, not_exists, not_and] at hn
    rcases List.mem_cons.1 hp with rfl | hp' <;> rcases List.mem_cons.1 hq with rfl | hq'
    · rfl
    · exact absurd he.symm (hn.1 q hq')
    · exact absurd he (hn.1 p hp')
    · exact eq_of_fst_nodup hn.2 hp' hq' he

/-- **C125 for nonblocking requests.** If the handler of a request with `NBFlag` waits for the answer to a request sent on the
connection, and the reader is reading when the answer arrives (and the limit on frames per second is not exceeded), then it gets it:
the handler goes on with the frame, or with an error if it is a reset. -/
theorem C125_partial {c : RConf} {t0 : Nat} {acts : List BkAct} {s : BkSt} (hrun : bkRun c t0 acts = some s)
    (hop : s.v.closed = false) (hrd : s.r.rd = .read) {k t : Nat} (hw : s.waits k = some t) (hn : s.v.revs t = []) {f : InFrame}
    (hf : f.rid = serverRid (t + 1)) (hp : f.push = false) (hrate : c.rate = 0 ∨ rateCount s.r.now s.r.last s.r.count ≤ c.rate) :
    k ∈ s.r.running ∧ ∃ s', runActs (bkStep c) s [.frame f, .lookup, .deliver, .got k] = some s' ∧ s'.waits k = none ∧ k ∈ s'.r.running ∧
      s'.r.rd = .read ∧ s'.v.revs t = [if f.rst then .closed else .frame f] := by
  have hi := BkInv.reach hrun
  obtain ⟨va, hva⟩ := hi.v
  obtain ⟨ra, hra⟩ := hi.r
  have hV := VInv.reach hva
  have hvr : s.v.rd = .read := hi.link.2 (by simp [hrd])
  obtain ⟨hact, hreg⟩ := hi.act k t hw
  have hk : k ∈ s.r.running := by
    rcases hact with h | h | h
    · have hb := ((RInv.reach hra).b.busy (by simp [h, MPc.busy])).1
      simp [hrd, RRd.waits] at hb
    · exact h
    · simp [hrd] at h
  have hlt : t < s.v.ridGen := hV.a.takenLt t (hV.a.regd t hreg)
  have hrid := hV.a.rid t hlt
  have hmem : (f.rid, t) ∈ s.v.respes := by
    rcases hV.c.regd t hreg with h | h | h | h
    · rw [hf, ← hrid]; exact h
    · exact absurd hn h
    · obtain ⟨g, hg⟩ := h; simp [hvr] at hg
    · obtain ⟨i, ts, hg, _⟩ := h; simp [hV.c.idle hop i] at hg
  have heven : f.rid % 2 = 0 := by
    rw [hf]
    unfold serverRid
    apply UInt64.toNat_inj.1
    simp [UInt64.toNat_ofNat']
  have hfind : s.v.respes.find? (fun p => p.1 == f.rid) = some (f.rid, t) := by
    cases h1 : s.v.respes.find? (fun p => p.1 == f.rid) with
    | none =>
      have := List.find?_eq_none.1 h1 _ hmem
      simp at this
    | some p =>
      have h2 := List.mem_of_find?_eq_some h1
      have h3 := List.find?_some h1
      simp only [beq_iff_eq] at h3
      rw [eq_of_fst_nodup hV.c.fstNodup h2 hmem h3]
  have hnr : ¬ (0 < c.rate ∧ c.rate < rateCount s.r.now s.r.last s.r.count) := by omega
  refine ⟨hk, ?_⟩
  simp [runActs, bkStep, rdStep, hrd, hnr, InFrame.toR, RFrame.fromServer, hp, heven, vStep, hvr, hfind, hw, hn, setAt, hk]

/-- A nonblocking request arrives; its handler sends a request, which is written, and waits; then a blocking request comes and goes. -/
def exCallbackNB : List BkAct :=
  [.frame ⟨1, false, false, true⟩, .srv .rSend, .srv .rGo, .srv .rGo, .srv .mRecv, .srv .mGo, .srv .mGo, .tab (.request [1]),
   .tab (.register [0]), .wait 0 0, .frame ⟨3, false, false, false⟩, .srv .rSend, .srv .mRecv, .srv .mFinal, .srv .mEnd, .srv .mGo,
   .srv .mGo, .srv .mGo, .srv .rGate, .srv .rGo]

/-- The hypotheses of `C125_partial`. -/
example : (bkRun ⟨4, 0, 0, false⟩ 100 exCallbackNB).map (fun s => (s.v.closed, s.r.rd, s.waits 0, s.v.revs 0)) =
    some (false, .read, some 0, []) := by rfl

example : (InFrame.mk 2 false false false).rid = serverRid (0 + 1) := by rfl

/-- What the goroutines of the library do by themselves, and the end of a handler or subscriber that is not waiting. -/
def BkAct.own : BkAct → Bool
  | .srv (.tick _) | .srv (.setThrottle _) | .srv .mFinal | .srv (.hFinal _) | .srv .rErr => false
  | .srv _ | .lookup | .deliver | .got _ => true
  | _ => false

/-- **C125, the only obstacle.** On an open connection that is not throttled and not about to be closed, the reader comes back to
reading - where `C125_partial` applies - unless the handler of a blocking request, or `SubFunc`, waits for an answer that has not come:
if no step is possible and the reader is not reading, this is the case. -/
theorem C125_only_partial {c : RConf} {t0 : Nat} {acts : List BkAct} {s : BkSt} (hrun : bkRun c t0 acts = some s)
    (hop : s.v.closed = false) (hth : s.r.throttled = false) (hrd : s.r.rd ≠ .read) (hc1 : s.r.rd ≠ .close) (hc2 : s.r.main ≠ .closing)
    (hstuck : ∀ a, a.own = true → bkStep c s a = none) :
    ∃ k t, (s.r.main = .handling k ∨ (s.r.rd = .sub ∧ k + 1 = s.r.arr.length)) ∧ s.waits k = some t ∧ s.v.revs t = [] := by
  have hi := BkInv.reach hrun
  obtain ⟨ra, hra⟩ := hi.r
  have hI := RInv.reach hra
  have hctx : s.r.ctx = false := by rw [hi.ctx]; exact hop
  -- a waiting program whose answer came would go on
  have hwait : ∀ k t, s.waits k = some t → s.v.revs t = [] := by
    intro k t hw
    have := hstuck (.got k) rfl
    simp only [bkStep, hw] at this
    split at this
    · assumption
    · simp at this
  -- a step of the read side that does not close the connection nor end a program is impossible
  have hno : ∀ a r, (BkAct.srv a).own = true → a.elsewhere = false → (a.returns s.r).bind s.waits = none → rdStep c s.r a = some r →
      r.ctx = true := by
    intro a r h1 h2 h3 h4
    have := hstuck (.srv a) h1
    simp only [bkStep, h2, h3, h4] at this
    cases hr : r.ctx with
    | true => rfl
    | false => simp [hr] at this
  have hmain : ∀ k, s.r.main = .handling k → ∃ k t, (s.r.main = .handling k ∨ (s.r.rd = .sub ∧ k + 1 = s.r.arr.length)) ∧
      s.waits k = some t ∧ s.v.revs t = [] := by
    intro k hk
    cases hw : s.waits k with
    | some t => exact ⟨k, t, .inl hk, hw, hwait k t hw⟩
    | none =>
      have := hno .mEnd _ rfl rfl (by simp [RAct.returns, hk, hw]) (by simp only [rdStep, hk]; rfl)
      simp [hctx] at this
  -- the main goroutine is selecting, or in such a handler
  have hsel : s.r.main = .select ∨ (∃ k, s.r.main = .handling k) := by
    have hdown := hi.g.down
    cases hp : s.r.main with
    | select => exact .inl rfl
    | handling k => exact .inr ⟨k, rfl⟩
    | closing => exact absurd hp hc2
    | waitWG => simp [hp, MPc.down, hctx] at hdown
    | onClose => simp [hp, MPc.down, hctx] at hdown
    | ended => simp [hp, MPc.down, hctx] at hdown
    | rst k =>
      have := hno (.mRst true) _ rfl rfl rfl (by simp only [rdStep, hp]; rfl)
      simp [hctx] at this
    | readMore =>
      have ht := (hI.b.busy (by simp [hp, MPc.busy])).2.1
      have := hno .mGo _ rfl rfl rfl (by simp only [rdStep, hp, ht]; rfl)
      simp [hctx] at this
    | cleanup k =>
      by_cases hx : 0 < c.max
      · have := hno .mGo _ rfl rfl rfl (by simp only [rdStep, hp, hx]; rfl)
        simp [hctx] at this
      · have := hno .mGo _ rfl rfl rfl (by simp only [rdStep, hp, hx]; rfl)
        simp [hctx] at this
    | test k =>
      cases hx : s.r.closedSelf k with
      | true =>
        have := hno .mGo _ rfl rfl rfl (by simp only [rdStep, hp, hx]; rfl)
        simp [hctx] at this
      | false =>
        have := hno .mGo _ rfl rfl rfl (by simp only [rdStep, hp, hx]; rfl)
        simp [hctx] at this
    | check k =>
      by_cases hx : 0 < c.max
      · by_cases hy : c.max < s.r.inflight + 1
        · have := hno .mGo _ rfl rfl rfl (by simp only [rdStep, hp, hx, hy]; rfl)
          simp [hctx] at this
        · have := hno .mGo _ rfl rfl rfl (by simp only [rdStep, hp, hx, hy]; rfl)
          simp [hctx] at this
      · have := hno .mGo _ rfl rfl rfl (by simp only [rdStep, hp, hx]; rfl)
        simp [hctx] at this
    | spawn k =>
      have := hno .mGo _ rfl rfl rfl (by simp only [rdStep, hp]; rfl)
      simp [hctx] at this
  rcases hsel.symm with ⟨k, hk⟩ | hsel
  · exact hmain k hk
  have hch : s.r.ch = [] := by
    cases hc : s.r.ch with
    | nil => rfl
    | cons k rest =>
      cases hb : (frameAt s.r.arr k).nonblock with
      | true =>
        have := hno .mRecv _ rfl rfl rfl (by simp only [rdStep, hsel, hc, hb]; rfl)
        simp [hctx] at this
      | false =>
        have := hno .mRecv _ rfl rfl rfl (by simp only [rdStep, hsel, hc, hb]; rfl)
        simp [hctx] at this
  cases hr : s.r.rd with
  | read => exact absurd hr hrd
  | close => exact absurd hr hc1
  | exit => have := hi.g.gone (.inl hr); simp [hctx] at this
  | off => have := hi.g.gone (.inr hr); simp [hctx] at this
  | sub =>
    have hlen : s.r.arr.length - 1 + 1 = s.r.arr.length := by
      have := List.length_pos_iff.2 (hi.g.sub hr); omega
    cases hw : s.waits (s.r.arr.length - 1) with
    | some t => exact ⟨_, t, .inr ⟨rfl, hlen⟩, hw, hwait _ t hw⟩
    | none =>
      have := hno .rGo _ rfl rfl (by simp [RAct.returns, hr, hw]) (by simp only [rdStep, hr]; rfl)
      simp [hctx] at this
  | lookup k =>
    cases hv : s.v.rd with
    | read => exact absurd hr (hi.link.1 hv k)
    | lookup f =>
      have := hstuck .lookup rfl
      simp only [bkStep, hv, vStep] at this
      cases hf : s.v.respes.find? (fun p => p.1 == f.rid) with
      | some p => simp [hf] at this
      | none => simp [hf, rdStep, hr] at this
    | deliver t f =>
      have := hstuck .deliver rfl
      simp [bkStep, hv, vStep, rdStep, hr] at this
  | send k =>
    exfalso
    cases hb : (frameAt s.r.arr k).nonblock with
    | true =>
      by_cases hcap : c.cap = 0
      · have := hno .rSend _ rfl rfl rfl (by simp only [rdStep, hr, hcap, hsel, hb]; rfl)
        simp [hctx] at this
      · have h1 : s.r.ch.length < c.cap := by simp [hch]; omega
        have := hno .rSend _ rfl rfl rfl (by simp only [rdStep, hr, hcap, h1, hb]; rfl)
        simp [hctx] at this
    | false =>
      by_cases hcap : c.cap = 0
      · have := hno .rSend _ rfl rfl rfl (by simp only [rdStep, hr, hcap, hsel, hb]; rfl)
        simp [hctx] at this
      · have h1 : s.r.ch.length < c.cap := by simp [hch]; omega
        have := hno .rSend _ rfl rfl rfl (by simp only [rdStep, hr, hcap, h1, hb]; rfl)
        simp [hctx] at this
  | nbCheck =>
    have := hno .rGo _ rfl rfl (by simp [RAct.returns, hr]) (by simp only [rdStep, hr, hctx]; rfl)
    simp [hctx] at this
  | gate =>
    cases ht : s.r.tok with
    | true =>
      have := hno .rGate _ rfl rfl rfl (by simp only [rdStep, hr, ht]; rfl)
      simp [hctx] at this
    | false =>
      have := hi.g.gate hr ht
      simp [hsel, MPc.busy, hch] at this
  | throttle =>
    have := hno .rGo _ rfl rfl (by simp [RAct.returns, hr]) (by simp only [rdStep, hr, hth]; rfl)
    simp [hctx] at this

/-- Its hypotheses hold in the state of `C125_refuted_example`. -/
example : ∀ s, bkRun ⟨4, 0, 0, false⟩ 100 exCallback = some s → s.r.throttled = false ∧ s.r.rd = .gate ∧
    ∀ a, a.own = true → bkStep ⟨4, 0, 0, false⟩ s a = none := by
  intro s hs
  have h1 : s = ((bkRun ⟨4, 0, 0, false⟩ 100 exCallback).getD (BkSt.init 0)) := by rw [hs]; rfl
  have hm : s.r.main = .handling 0 := by rw [h1]; rfl
  have hr : s.r.rd = .gate := by rw [h1]; rfl
  have ht : s.r.tok = false := by rw [h1]; rfl
  have hc : s.r.ctx = false := by rw [h1]; rfl
  have hl : s.r.running = [] ∧ s.r.ending = [] ∧ s.r.cleaning = [] ∧ s.r.resetting = [] := by rw [h1]; exact ⟨rfl, rfl, rfl, rfl⟩
  have hw : s.waits = setAt (fun _ => none) 0 (some 0) := by rw [h1]; rfl
  have hv : s.v.rd = .read := by rw [h1]; rfl
  have hn : s.v.revs 0 = [] := by rw [h1]; rfl
  refine ⟨by rw [h1]; rfl, hr, ?_⟩
  clear hs h1
  intro a ha
  cases a with
  | srv a => cases a <;> simp_all [BkAct.own, bkStep, rdStep, RAct.elsewhere, RAct.returns, setAt]
  | got k =>
    by_cases hk : k = 0
    · subst hk; simp [bkStep, hw, setAt, hn]
    · simp [bkStep, hw, setAt, hk]
  | lookup => simp [bkStep, hv]
  | deliver => simp [bkStep, hv]
  | frame f => simp [BkAct.own] at ha
  | tab a => simp [BkAct.own] at ha
  | wait k t => simp [BkAct.own] at ha

/-! ### The subscriber of a client connection -/

theorem sk_inSub {cf s a s'} (h : s.waits ≠ none → s.inSub = true) (hs : skStep cf s a = some s') : s'.waits ≠ none → s'.inSub = true := by
  cases a <;> simp only [skStep] at hs
  · split at hs
    · simp at hs
    rename_i a _
    cases h1 : cStep cf s.c a with
    | none => rw [h1] at hs; simp at hs
    | some c =>
      rw [h1] at hs
      simp only [Option.map_some, Option.some.injEq] at hs
      subst hs
      intro hw; simp [h hw]
  · split at hs
    · simp only [Option.some.injEq] at hs; subst hs; simp_all
    · simp at hs
  · split at hs
    · split at hs
      · simp at hs
      · simp only [Option.some.injEq] at hs; subst hs; simp
    · simp at hs
  · split at hs
    · simp only [Option.some.injEq] at hs; subst hs; simp_all
    · simp at hs

/-- A step that is not the reader's leaves the response objects alone unless the transport connection is closed; and a transport
connection that was closed does not come back. -/
theorem cStep_revs {cf s a s'} (hs : cStep cf s a = some s') (ha : a.reader = false) :
    s.gen ≤ s'.gen ∧ (s'.gen = s.gen → s'.rwc = true → s.rwc = true ∧ s'.revs = s.revs) := by
  cases a <;> simp only [cStep] at hs <;> (repeat' (split at hs)) <;>
    (try simp only [Option.some.injEq, reduceCtorEq] at hs) <;> (try contradiction) <;> (try subst hs) <;>
    simp_all [CAct.reader]

theorem cStep_reader {cf s a s'} (hs : cStep cf s a = some s') (ha : a.reader = true) : s'.gen = s.gen ∧ s'.rwc = s.rwc := by
  cases a <;> simp only [cStep] at hs <;> (repeat' (split at hs)) <;>
    (try simp only [Option.some.injEq, reduceCtorEq] at hs) <;> (try contradiction) <;> (try subst hs) <;>
    simp_all [CAct.reader]

/-- **... and for the subscriber of a client connection**: if it waits for the answer to a request on its connection, then as long
as the transport connection is not closed (and not replaced) it goes on waiting and no call gets an answer. -/
theorem C125_refuted_client {cf : CConf} {d : Bool} {acts more : List SkAct} {s s' : SkSt} (hrun : skRun cf d acts = some s)
    {t : Nat} (hw : s.waits = some t) (hn : s.c.revs t = []) (hmore : runActs (skStep cf) s more = some s')
    (hup : s'.c.rwc = true) (hgen : s'.c.gen = s.c.gen) : s'.waits = some t ∧ s'.inSub = true ∧ s'.c.revs = s.c.revs := by
  have h0 : s.inSub = true :=
    runActs_inv (P := fun s : SkSt => s.waits ≠ none → s.inSub = true) (fun _ _ _ => sk_inSub) (by simp [SkSt.init]) hrun (by simp [hw])
  have key := runActs_inv (step := skStep cf) (P := fun x => s.c.gen ≤ x.c.gen ∧ (x.c.gen = s.c.gen → x.c.rwc = true →
      x.waits = some t ∧ x.inSub = true ∧ x.c.revs = s.c.revs)) ?_ ⟨Nat.le_refl _, fun _ _ => ⟨hw, h0, rfl⟩⟩ hmore
  · exact key.2 hgen hup
  rintro x a x' ⟨hle, hp⟩ hs
  cases a with
  | cli a =>
    simp only [skStep] at hs
    split at hs
    · simp at hs
    rename_i hr
    cases h1 : cStep cf x.c a with
    | none => rw [h1] at hs; simp at hs
    | some y =>
      rw [h1] at hs
      simp only [Option.map_some, Option.some.injEq] at hs
      subst hs
      simp only []
      cases ha : a.reader with
      | true =>
        obtain ⟨h2, h3⟩ := cStep_reader h1 ha
        refine ⟨by omega, fun h4 h5 => ?_⟩
        have := (hp (by omega) (h3 ▸ h5)).2.1
        simp [ha, this] at hr
      | false =>
        obtain ⟨h2, h3⟩ := cStep_revs h1 ha
        refine ⟨by omega, fun h4 h5 => ?_⟩
        obtain ⟨h6, h7⟩ := h3 (by omega) h5
        obtain ⟨p1, p2, p3⟩ := hp (by omega) h6
        exact ⟨p1, by simp [p2], h7.trans p3⟩
  | wait t' =>
    simp only [skStep] at hs
    split at hs
    · rename_i hc
      simp only [Option.some.injEq] at hs
      subst hs
      refine ⟨hle, fun h1 h2 => ?_⟩
      have := (hp h1 h2).1
      simp [this] at hc
    · simp at hs
  | got =>
    simp only [skStep] at hs
    split at hs
    · rename_i t' ht
      split at hs
      · simp at hs
      rename_i hne
      simp only [Option.some.injEq] at hs
      subst hs
      refine ⟨hle, fun h1 h2 => ?_⟩
      obtain ⟨p1, p2, p3⟩ := hp h1 h2
      rw [p1] at ht
      simp only [Option.some.injEq] at ht
      subst ht
      exact absurd (by rw [p3]; exact hn) hne
    · simp at hs
  | ret =>
    simp only [skStep] at hs
    split at hs
    · rename_i hc
      simp only [Option.some.injEq] at hs
      subst hs
      refine ⟨hle, fun h1 h2 => ?_⟩
      have := (hp h1 h2).1
      simp [this] at hc
    · simp at hs

/-- The connection is up; the server pushes; the subscriber sends a request, which is written, and waits for the answer. -/
def exCallbackCli : List SkAct :=
  [.cli .lGo, .cli .lGo, .cli .rGo, .cli .rGo, .cli (.rFrame ⟨2, true, false, false⟩),
   .cli (.request 0 false [1]), .cli (.go 0), .cli (.go 0), .cli (.go 0), .cli (.enq 0), .cli (.wDeq true true), .cli .wGo, .cli .wGo,
   .cli (.wWrite 1 true), .cli .wGo, .cli (.recv 0), .wait 0]

theorem C125_refuted_client_example : (skRun ⟨1, true, 1, false⟩ true exCallbackCli).map (fun s => (s.waits, s.inSub, s.c.revs 0, s.c.rwc, s.c.gen)) =
    some (some 0, true, [], true, 1) := by rfl

/-- The answer of the server cannot be read. -/
example : skRun ⟨1, true, 1, false⟩ true (exCallbackCli ++ [.cli (.rFrame ⟨3, false, false, false⟩)]) = none := by rfl

/-- A subscriber that returned without waiting leaves the way free. -/
example : (skRun ⟨1, true, 1, false⟩ true (exCallbackCli.take 16 ++ [.ret, .cli (.rFrame ⟨3, false, false, false⟩), .cli .rGo, .cli .rGo])).map
    (fun s => s.c.revs 0) = some [.frame ⟨3, false, false, false⟩] := by rfl

end Qrpc
