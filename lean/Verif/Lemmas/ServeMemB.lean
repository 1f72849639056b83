import Verif.Lemmas.ServeMem
/-!
# Server connection: the steps that access nothing, and the accesses (for C118)
-/
namespace Qrpc
open Spec

/-! ## Steps that access nothing -/

def DPh.active (d : DPh) : Bool := d != .off && !d.still

structure SMQuiet (s s' : SMSt) (l : List SMEv) : Prop where
  tr : s'.tr = s.tr ++ l
  na : ∀ e ∈ l, ∀ x w p, e.op ≠ .acc x w p
  lv : ∀ g, s'.live g = true → s.live g = true ∨ (∃ e ∈ l, s.live e.g = true ∧ e.op = .go g ∧ ((∀ i, g ≠ .other i) → e.g = .serve)) ∨
    ∃ e ∈ l, e.g = g ∧ e.op = .acq .map ∧ ∃ i, g = .other i
  lm : ∀ g, s.live g = true → s'.live g = true
  mu : (s'.mu = s.mu ∧ s'.rl = s.rl) ∨
    (∃ g, s.mu = none ∧ s.rl = [] ∧ s'.mu = some g ∧ s'.rl = [] ∧ (∃ e ∈ l, e.g = g ∧ e.op = .acq .muW) ∧ ∃ e ∈ l, e.g = g ∧ e.op = .acq .muR) ∨
    (∃ g, s.mu = some g ∧ s.rl = [] ∧ s'.mu = none ∧ s'.rl = [] ∧ ∃ e ∈ l, e.g = g ∧ e.op = .rel .muW) ∨
    (∃ g, s.mu = none ∧ s'.mu = none ∧ s'.rl = g :: s.rl ∧ ∃ e ∈ l, e.g = g ∧ e.op = .acq .muW) ∨
    (∃ g, s'.mu = s.mu ∧ s'.rl = s.rl.erase g ∧ ∃ e ∈ l, e.g = g ∧ e.op = .rel .muR)
  tk : s'.tok = s.tok ∨ (∃ g, s.tok = .free ∧ s'.tok = .held g ∧ ∃ e ∈ l, e.g = g ∧ e.op = .acq .tok) ∨
    (∃ g, s.tok = .held g ∧ s'.tok = .free ∧ ∃ e ∈ l, e.g = g ∧ e.op = .rel .tok) ∨ s'.tok = .lost
  rdo : s'.rd = .off → s.rd = .off
  rds : s'.rd ≠ .off → s.rd ≠ .off ∨ ∃ e ∈ l, e.g = .serve ∧ e.op = .go .reader
  act : s'.rd.active = true → s.rd.active = true ∨ (∃ e ∈ l, e.g = .serve ∧ e.op = .go .reader) ∨
    (s.gate = true ∧ ∃ e ∈ l, e.g = .reader ∧ e.op = .acq .gate)
  gt : s'.gate = true → s.gate = true ∨ ∃ e ∈ l, e.g = .serve ∧ e.op = .rel .gate
  bl : s'.sv = .blk → s.sv = .blk ∨ ∃ n, (n, true) ∈ s.q ∧ ∃ e ∈ l, e.g = .serve ∧ e.op = .acq (.rfc n)
  qn : ∀ n, (n, true) ∈ s'.q → (n, true) ∈ s.q ∨ ∃ e ∈ l, e.g = .reader ∧ e.op = .rel (.rfc n)
  ev : ∀ e ∈ l, s'.live e.g = true
  sv : s'.sv = .setup → s.sv = .setup
  us : s'.sv = .setup → ∀ i, s'.live (.other i) = true → s.live (.other i) = true ∨ (∃ e ∈ l, e.op = .acq .map) ∨ ∃ j, s.live (.other j) = true
  wl : s'.wild = false → s.wild = false

theorem setup_only {s : SMSt} (c : SMCtl s) (h : s.sv = .setup) : ∀ g, s.live g = true → g = .serve ∨ ∃ i, g = .other i := by
  intro g hg
  cases g with
  | serve => exact .inl rfl
  | reader => simp [SMSt.live, c.off.2 h] at hg
  | handler k => simp [SMSt.live, (c.early h).2] at hg
  | other i => exact .inr ⟨i, rfl⟩

/-- A step that leaves `rd`, `q`, `gate`, `sv` and the goroutines alone. -/
theorem SMQuiet.still {s s' : SMSt} {l : List SMEv} (h1 : s'.tr = s.tr ++ l) (h2 : ∀ e ∈ l, ∀ x w p, e.op ≠ .acc x w p)
    (hrd : s'.rd = s.rd) (hq : s'.q = s.q) (hgt : s'.gate = s.gate) (hsv : s'.sv = s.sv) (hhn : s'.hn = s.hn) (hus : s'.us = s.us)
    (hw : s'.wild = false → s.wild = false) (hev : ∀ e ∈ l, s.live e.g = true)
    (hmu : (s'.mu = s.mu ∧ s'.rl = s.rl) ∨
    (∃ g, s.mu = none ∧ s.rl = [] ∧ s'.mu = some g ∧ s'.rl = [] ∧ (∃ e ∈ l, e.g = g ∧ e.op = .acq .muW) ∧ ∃ e ∈ l, e.g = g ∧ e.op = .acq .muR) ∨
    (∃ g, s.mu = some g ∧ s.rl = [] ∧ s'.mu = none ∧ s'.rl = [] ∧ ∃ e ∈ l, e.g = g ∧ e.op = .rel .muW) ∨
    (∃ g, s.mu = none ∧ s'.mu = none ∧ s'.rl = g :: s.rl ∧ ∃ e ∈ l, e.g = g ∧ e.op = .acq .muW) ∨
    (∃ g, s'.mu = s.mu ∧ s'.rl = s.rl.erase g ∧ ∃ e ∈ l, e.g = g ∧ e.op = .rel .muR))
    (htk : s'.tok = s.tok ∨ (∃ g, s.tok = .free ∧ s'.tok = .held g ∧ ∃ e ∈ l, e.g = g ∧ e.op = .acq .tok) ∨
    (∃ g, s.tok = .held g ∧ s'.tok = .free ∧ ∃ e ∈ l, e.g = g ∧ e.op = .rel .tok) ∨ s'.tok = .lost) : SMQuiet s s' l := by
  have hl : ∀ g, s'.live g = s.live g := by intro g; cases g <;> simp [SMSt.live, hrd, hhn, hus]
  exact ⟨h1, h2, fun g hg => .inl (hl g ▸ hg), fun g hg => (hl g).trans hg, hmu, htk, fun h => hrd ▸ h, fun h => .inl (hrd ▸ h), fun h => .inl (hrd ▸ h), fun h => .inl (hgt ▸ h),
    fun h => .inl (hsv ▸ h), fun n h => .inl (hq ▸ h), fun e he => (hl _).trans (hev e he), fun h => hsv ▸ h, fun _ i hi => .inl (hl _ ▸ hi), hw⟩

theorem mv_quiet {s s1 : SMSt} {g : SG} {y : KSync} {p p' : KPh} {fs : List SFr} (c : SMCtl s) (hg : s.stk g = ⟨p, []⟩ :: fs)
    (he : (y, p') ∈ p.next) (hs : s.sync g y = some s1) : ∃ l, SMQuiet s (s1.put g (⟨p', p'.block⟩ :: fs)) l := by
  have hok := next_ok p _ he
  have hm := c.muT g _ _ hg
  have ht := c.tokF g ⟨p, []⟩ (by rw [hg]; simp)
  have hl : s.live g = true := c.live g (by rw [hg]; simp)
  have hr := c.rlMu
  simp only at hm ht
  cases y <;> simp only [SMSt.sync, SMSt.emit] at hs
  all_goals (try split at hs) <;> try cases hs
  all_goals simp only [edgeOK, Bool.and_eq_true, beq_iff_eq, Bool.not_eq_true'] at hok
  all_goals first
    | exact ⟨[], .still (List.append_nil _).symm (by simp) rfl rfl rfl rfl rfl rfl id (by simp) (.inl ⟨rfl, rfl⟩) (.inl rfl)⟩
    | exact ⟨[], .still (List.append_nil _).symm (by simp) rfl rfl rfl rfl rfl rfl id (by simp) (.inl ⟨rfl, rfl⟩) (.inr (.inr (.inr rfl)))⟩
    | skip
  · rename_i hc
    refine ⟨[_, _], .still (List.append_assoc _ _ _) (by simp) rfl rfl rfl rfl rfl rfl id (by simp [hl])
      (.inr (.inl ⟨g, hc.1, hc.2, rfl, hc.2, ⟨_, .head _, rfl, rfl⟩, ⟨_, .tail _ (.head _), rfl, rfl⟩⟩)) (.inl rfl)⟩
  · exact ⟨[_], .still rfl (by simp) rfl rfl rfl rfl rfl rfl id (by simp [hl])
      (.inr (.inr (.inl ⟨g, hm hok.1.1.1.1, hr (by rw [hm hok.1.1.1.1]; simp), rfl, hr (by rw [hm hok.1.1.1.1]; simp), ⟨_, .head _, rfl, rfl⟩⟩))) (.inl rfl)⟩
  · rename_i hc
    exact ⟨[_], .still rfl (by simp) rfl rfl rfl rfl rfl rfl id (by simp [hl]) (.inr (.inr (.inr (.inl ⟨g, hc, hc, rfl, ⟨_, .head _, rfl, rfl⟩⟩)))) (.inl rfl)⟩
  · exact ⟨[_], .still rfl (by simp) rfl rfl rfl rfl rfl rfl id (by simp [hl]) (.inr (.inr (.inr (.inr ⟨g, rfl, rfl, ⟨_, .head _, rfl, rfl⟩⟩)))) (.inl rfl)⟩
  · rename_i hc
    exact ⟨[_], .still rfl (by simp) rfl rfl rfl rfl rfl rfl id (by simp [hl]) (.inl ⟨rfl, rfl⟩) (.inr (.inl ⟨g, hc, rfl, ⟨_, .head _, rfl, rfl⟩⟩))⟩
  · exact ⟨[_], .still rfl (by simp) rfl rfl rfl rfl rfl rfl id (by simp [hl]) (.inl ⟨rfl, rfl⟩)
      (.inr (.inr (.inl ⟨g, ht hok.1.1.1, rfl, ⟨_, .head _, rfl, rfl⟩⟩)))⟩

theorem mayCall_live {s : SMSt} (c : SMCtl s) {g : SG} (hc : s.mayCall g = true) : s.live g = true := by
  unfold SMSt.mayCall at hc
  split at hc
  · rename_i f fs he; exact c.live g (by rw [he]; simp)
  · split at hc
    · rfl
    · simp only [Bool.or_eq_true, beq_iff_eq] at hc
      simp only [SMSt.live, bne_iff_ne]
      intro he; rw [he] at hc; rcases hc with hc | hc <;> cases hc
    · exact hc

theorem mayCall_setup {s : SMSt} (c : SMCtl s) (h : s.sv = .setup) : s.mayCall .serve = false := by
  have : s.stk .serve = [] := by
    cases hs : s.stk .serve with
    | nil => rfl
    | cons f fs => have := c.sst (by rw [hs]; simp); rw [h] at this; simp at this
  simp [SMSt.mayCall, this, h]

/-- The access `a` by goroutine `g` is one the program makes now. -/
inductive SMakes (s : SMSt) : SG → SAcc → Prop
  | serve {a : SAcc} : a ∈ s.sv.block → SMakes s .serve a
  | reader {a : SAcc} : a ∈ s.rd.block → SMakes s .reader a
  | call {g : SG} {f : SFr} {fs : List SFr} {a : SAcc} : s.stk g = f :: fs → a ∈ f.ph.block → SMakes s g a

theorem smStep_cases {s s' : SMSt} {a : SMAct} (c : SMCtl s) (hs : smStep s a = some s') :
    (∃ l, SMQuiet s s' l) ∨ ∃ g b, SMakes s g b ∧ s'.tr = s.tr ++ [⟨g, .acc b.x b.w b.a, b.line⟩] ∧ s'.mu = s.mu ∧ s'.rl = s.rl ∧ s'.tok = s.tok ∧
      s'.sv = s.sv ∧ s'.rd = s.rd ∧ s'.q = s.q ∧ s'.gate = s.gate ∧ s'.hn = s.hn ∧ s'.us = s.us ∧ s'.wild = s.wild := by
  cases a with
  | sAcc =>
    simp only [smStep] at hs
    split at hs <;> cases hs
    rename_i b r hr
    exact .inr ⟨.serve, b, .serve (c.svt b (by rw [hr]; simp)), rfl, rfl, rfl, rfl, rfl, rfl, rfl, rfl, rfl, rfl, rfl⟩
  | rAcc =>
    simp only [smStep] at hs
    split at hs <;> cases hs
    rename_i b r hr
    exact .inr ⟨.reader, b, .reader (c.rdt b (by rw [hr]; simp)), rfl, rfl, rfl, rfl, rfl, rfl, rfl, rfl, rfl, rfl, rfl⟩
  | sMv p =>
    refine .inl ?_
    simp only [smStep] at hs
    split at hs <;> try cases hs
    unfold svMove at hs
    split at hs <;> cases hs
    all_goals first | refine ⟨[], ⟨(List.append_nil _).symm, ?_, ?_, ?_, .inl ⟨rfl, rfl⟩, .inl rfl, ?_, ?_, ?_, ?_, ?_, ?_, ?_, ?_, ?_, ?_⟩⟩ | refine ⟨[_], ⟨rfl, ?_, ?_, ?_, .inl ⟨rfl, rfl⟩, .inl rfl, ?_, ?_, ?_, ?_, ?_, ?_, ?_, ?_, ?_, ?_⟩⟩
    all_goals try (intro g; cases g)
    all_goals simp_all [SMSt.live, SMSt.emit]
  | rMv p =>
    refine .inl ?_
    simp only [smStep] at hs
    split at hs <;> try cases hs
    unfold rdMove at hs
    split at hs
    all_goals (try split at hs) <;> cases hs
    all_goals first | refine ⟨[], ⟨(List.append_nil _).symm, ?_, ?_, ?_, .inl ⟨rfl, rfl⟩, .inl rfl, ?_, ?_, ?_, ?_, ?_, ?_, ?_, ?_, ?_, ?_⟩⟩ | refine ⟨[_], ⟨rfl, ?_, ?_, ?_, .inl ⟨rfl, rfl⟩, .inl rfl, ?_, ?_, ?_, ?_, ?_, ?_, ?_, ?_, ?_, ?_⟩⟩
    all_goals try (intro g; cases g)
    all_goals simp_all [SMSt.live, SMSt.emit, SMSt.rTo, DPh.active, stills]
    all_goals exact fun h => of_decide_eq_true h
  | send b =>
    refine .inl ?_
    simp only [smStep] at hs
    split at hs <;> cases hs
    cases b
    all_goals refine ⟨[_], ⟨rfl, ?_, ?_, ?_, .inl ⟨rfl, rfl⟩, .inl rfl, ?_, ?_, ?_, ?_, ?_, ?_, ?_, ?_, ?_, ?_⟩⟩
    all_goals try (intro g; cases g)
    all_goals simp_all [SMSt.live, SMSt.emit, SMSt.rTo, DPh.active, stills]
    all_goals grind
  | recv =>
    refine .inl ?_
    simp only [smStep] at hs
    split at hs <;> try cases hs
    split at hs <;> cases hs
    · refine ⟨[_], ⟨rfl, ?_, ?_, ?_, .inl ⟨rfl, rfl⟩, .inl rfl, ?_, ?_, ?_, ?_, ?_, ?_, ?_, ?_, ?_, ?_⟩⟩
      all_goals try (intro g; cases g)
      all_goals simp_all [SMSt.live, SMSt.emit]
    · refine ⟨[_, _], ⟨List.append_assoc _ _ _, ?_, ?_, ?_, .inl ⟨rfl, rfl⟩, .inl rfl, ?_, ?_, ?_, ?_, ?_, ?_, ?_, ?_, ?_, ?_⟩⟩
      all_goals try (intro g; cases g)
      all_goals simp_all [SMSt.live, SMSt.emit]
      all_goals first | omega | (rintro (h | h) <;> simp_all)
  | acc g =>
    simp only [smStep] at hs
    split at hs <;> cases hs
    rename_i p b r fs hg
    exact .inr ⟨g, b, .call hg (c.todo g _ (by rw [hg]; simp) b (by simp)), rfl, rfl, rfl, rfl, rfl, rfl, rfl, rfl, rfl, rfl, rfl⟩
  | skip g =>
    simp only [smStep] at hs
    split at hs <;> cases hs
    exact .inl ⟨[], .still (List.append_nil _).symm (by simp) rfl rfl rfl rfl rfl rfl id (by simp) (.inl ⟨rfl, rfl⟩) (.inl rfl)⟩
  | mv g k =>
    simp only [smStep] at hs
    split at hs <;> try cases hs
    rename_i p fs hg
    split at hs <;> try cases hs
    rename_i y p' he
    cases hy : s.sync g y with
    | none => rw [hy] at hs; cases hs
    | some s1 => rw [hy] at hs; cases hs; exact .inl (mv_quiet c hg (List.mem_of_getElem? he) hy)
  | call g p =>
    simp only [smStep] at hs
    split at hs <;> cases hs
    exact .inl ⟨[], .still (List.append_nil _).symm (by simp) rfl rfl rfl rfl rfl rfl (fun h => (Bool.or_eq_false_iff.1 h).1) (by simp) (.inl ⟨rfl, rfl⟩) (.inl rfl)⟩
  | ret g =>
    simp only [smStep] at hs
    split at hs <;> cases hs
    exact .inl ⟨[], .still (List.append_nil _).symm (by simp) rfl rfl rfl rfl rfl rfl id (by simp) (.inl ⟨rfl, rfl⟩) (.inl rfl)⟩
  | find i =>
    refine .inl ?_
    simp only [smStep] at hs
    split at hs <;> cases hs
    refine ⟨[_], ⟨rfl, ?_, ?_, ?_, .inl ⟨rfl, rfl⟩, .inl rfl, ?_, ?_, ?_, ?_, ?_, ?_, ?_, ?_, ?_, ?_⟩⟩
    all_goals try (intro g; cases g)
    all_goals simp_all [SMSt.live, SMSt.emit]
    all_goals grind
  | share g j =>
    refine .inl ?_
    simp only [smStep] at hs
    split at hs <;> cases hs
    rename_i hc
    have hl := mayCall_live c hc.1
    have hsu := mayCall_setup c
    have hso := fun h => setup_only c h g hl
    have hlm : ∀ g', s.live g' = true → SMSt.live { s.emit g (.go (.other j)) 0 with us := j :: s.us } g' = true := by
      intro g' h; cases g' <;> simp_all [SMSt.live, SMSt.emit]
    refine ⟨[_], ⟨rfl, ?_, ?_, ?_, .inl ⟨rfl, rfl⟩, .inl rfl, fun h => h, fun h => .inl h, fun h => .inl h, fun h => .inl h, fun h => .inl h, fun n h => .inl h, ?_, fun h => h, ?_, fun h => h⟩⟩
    · simp
    · intro g' hg'
      cases g' with
      | other i =>
        rcases List.mem_cons.1 (by simpa [SMSt.live, SMSt.emit] using hg') with rfl | h
        · exact .inr (.inl ⟨_, .head _, hl, rfl, fun h => absurd rfl (h _)⟩)
        · exact .inl (by simpa [SMSt.live] using h)
      | serve => exact .inl hg'
      | reader => exact .inl hg'
      | handler k => exact .inl hg'
    · exact hlm
    · intro e he
      rw [List.mem_singleton.1 he]; exact hlm _ hl
    · intro h i hi
      rcases hso h with rfl | ⟨k, rfl⟩
      · rw [hsu h] at hc; cases hc.1
      · exact .inr (.inr ⟨k, hl⟩)

end Qrpc
