import Verif.Model.ClientMem
import Verif.Lemmas.Mem
/-!
# C117 A client connection's fields are used without data races
-/
namespace Qrpc
open Spec

/-! ## Control -/

/-- Phases of the loop in which no reader and no writer is running. -/
def LPh.solo : LPh → Bool
  | .connect | .dial | .store | .mk | .endc | .ended => true
  | _ => false

/-- Phases in which the writer may have been started. -/
def LPh.both : LPh → Bool
  | .await | .lock2 | .close | .join => true
  | _ => false

def LPh.locked : LPh → Bool
  | .store | .close => true
  | _ => false

def RPh.locked : RPh → Bool
  | .table | .del | .nf => true
  | _ => false

def WPh.holds : WPh → Bool
  | .locked | .reg => true
  | _ => false

structure CMCtl (s : CMSt) : Prop where
  muL : s.mu = some .loop ↔ s.lph.locked = true
  muR : s.mu = some (.reader s.n) ↔ s.rph.locked = true
  muW : s.mu = some (.writer s.n) ↔ s.wph.holds = true
  muO : ∀ g, s.mu = some g → g = .loop ∨ g = .reader s.n ∨ g = .writer s.n
  lt : ∀ a ∈ s.ltodo, a ∈ s.lph.block
  rt : ∀ a ∈ s.rtodo, a ∈ s.rph.block
  wt : ∀ a ∈ s.wtodo, a ∈ s.wph.block
  solo : s.lph.solo = true → s.rph = .dead ∧ s.hs = []
  both : s.lph.both = false → s.wph = .dead

theorem CMCtl.init (d : Bool) : CMCtl (CMSt.init d) := by
  constructor <;> simp [CMSt.init, LPh.locked, RPh.locked, WPh.holds, LPh.solo]

theorem cancel_ctl (s : CMSt) (g : CG) : (s.cancel g).mu = s.mu ∧ (s.cancel g).n = s.n ∧ (s.cancel g).lph = s.lph ∧ (s.cancel g).rph = s.rph ∧
    (s.cancel g).wph = s.wph ∧ (s.cancel g).ltodo = s.ltodo ∧ (s.cancel g).rtodo = s.rtodo ∧ (s.cancel g).wtodo = s.wtodo ∧
    (s.cancel g).hs = s.hs ∧ (s.cancel g).us = s.us := by
  unfold CMSt.cancel CMSt.loopCancel CMSt.emit
  split
  · simp
  · split <;> simp

theorem loopCancel_ctl (s : CMSt) (g : CG) (l : Nat) : (s.loopCancel g l).mu = s.mu ∧ (s.loopCancel g l).n = s.n ∧ (s.loopCancel g l).lph = s.lph ∧
    (s.loopCancel g l).rph = s.rph ∧ (s.loopCancel g l).wph = s.wph ∧ (s.loopCancel g l).ltodo = s.ltodo ∧ (s.loopCancel g l).rtodo = s.rtodo ∧
    (s.loopCancel g l).wtodo = s.wtodo ∧ (s.loopCancel g l).hs = s.hs ∧ (s.loopCancel g l).us = s.us := by
  unfold CMSt.loopCancel CMSt.emit
  split <;> simp

theorem CMCtl.lMove {r : Bool} {s s' : CMSt} {p : LPh} (h : CMCtl s) (hs : lMove r s p = some s') : CMCtl s' := by
  obtain ⟨m1, m2, m3, m4, t1, t2, t3, so, bo⟩ := h
  have hc := cancel_ctl s .loop
  unfold Qrpc.lMove at hs
  split at hs
  all_goals (try split at hs) <;> try cases hs
  all_goals
    simp only [*, LPh.locked, LPh.solo, LPh.both, forall_const, Bool.false_eq_true, iff_false, false_implies] at m1 so bo
  all_goals constructor
  all_goals simp_all [CMSt.lTo, CMSt.rTo, CMSt.wTo, CMSt.emit, LPh.locked, RPh.locked, WPh.holds, LPh.solo, LPh.both, RPh.block, WPh.block]

theorem CMCtl.rMove {s s' : CMSt} {p : RPh} (h : CMCtl s) (hs : rMove s p = some s') : CMCtl s' := by
  obtain ⟨m1, m2, m3, m4, t1, t2, t3, so, bo⟩ := h
  have hc := loopCancel_ctl s (.reader s.n) 479
  unfold Qrpc.rMove at hs
  have hso : s.rph ≠ .dead → s.lph.solo = false := by
    intro h; cases hl : s.lph.solo with
    | false => rfl
    | true => exact absurd (so hl).1 h
  split at hs
  all_goals (try split at hs) <;> try cases hs
  all_goals simp only [*, RPh.locked, Bool.false_eq_true, iff_false, iff_true] at m2
  all_goals constructor
  all_goals simp_all [CMSt.rTo, CMSt.emit, RPh.locked]
  all_goals grind

theorem CMCtl.wMove {s s' : CMSt} {p : WPh} (h : CMCtl s) (hs : wMove s p = some s') : CMCtl s' := by
  obtain ⟨m1, m2, m3, m4, t1, t2, t3, so, bo⟩ := h
  have hc := loopCancel_ctl s (.writer s.n) 576
  unfold Qrpc.wMove at hs
  have hbo : s.wph ≠ .dead → s.lph.both = true := by
    intro h; cases hl : s.lph.both with
    | true => rfl
    | false => exact absurd (bo hl) h
  split at hs
  all_goals (try split at hs) <;> try cases hs
  all_goals simp only [*, WPh.holds, Bool.false_eq_true, iff_false, iff_true] at m3
  all_goals constructor
  all_goals simp_all [CMSt.wTo, CMSt.emit, WPh.holds]
  all_goals grind

theorem CMCtl.same {s s' : CMSt} (h : CMCtl s) (h1 : s'.mu = s.mu) (h2 : s'.n = s.n) (h3 : s'.lph = s.lph) (h4 : s'.rph = s.rph)
    (h5 : s'.wph = s.wph) (h6 : ∀ a ∈ s'.ltodo, a ∈ s.ltodo) (h7 : ∀ a ∈ s'.rtodo, a ∈ s.rtodo) (h8 : ∀ a ∈ s'.wtodo, a ∈ s.wtodo)
    (h9 : ∀ a ∈ s'.hs, a ∈ s.hs) : CMCtl s' := by
  obtain ⟨m1, m2, m3, m4, t1, t2, t3, so, bo⟩ := h
  refine ⟨?_, ?_, ?_, ?_, ?_, ?_, ?_, ?_, ?_⟩
  · rw [h1, h3]; exact m1
  · rw [h1, h2, h4]; exact m2
  · rw [h1, h2, h5]; exact m3
  · rw [h1, h2]; exact m4
  · rw [h3]; exact fun a ha => t1 a (h6 a ha)
  · rw [h4]; exact fun a ha => t2 a (h7 a ha)
  · rw [h5]; exact fun a ha => t3 a (h8 a ha)
  · rw [h3, h4]
    intro hl
    refine ⟨(so hl).1, ?_⟩
    cases he : s'.hs with
    | nil => rfl
    | cons k r => have := h9 k (by rw [he]; simp); rw [(so hl).2] at this; cases this
  · rw [h3, h5]; exact bo

theorem CMCtl.step {r : Bool} {s s' : CMSt} {a : CMAct} (h : CMCtl s) (hs : cmStep r s a = some s') : CMCtl s' := by
  unfold cmStep at hs
  split at hs
  case h_5 => split at hs; exact h.lMove hs; cases hs
  case h_6 => split at hs; exact h.rMove hs; cases hs
  case h_7 => split at hs; exact h.wMove hs; cases hs
  all_goals (try split at hs) <;> try cases hs
  all_goals try (refine h.same rfl rfl rfl rfl rfl ?_ ?_ ?_ ?_ <;> simp_all [CMSt.access, CMSt.emit] <;> done)
  have hc := cancel_ctl s ‹CG›
  exact h.same hc.1 hc.2.1 hc.2.2.1 hc.2.2.2.1 hc.2.2.2.2.1 (by simp [hc]) (by simp [hc]) (by simp [hc]) (by simp [hc])

/-! ## Steps that access nothing -/

structure CMQuiet (s s' : CMSt) (l : List CEv) : Prop where
  tr : s'.tr = s.tr ++ l
  na : ∀ e ∈ l, ∀ x w p, e.op ≠ .acc x w p
  run : s.lph.solo = false →
    (s'.lph.solo = false ∧ s'.n = s.n ∧ (s'.rph = .dead → s.rph = .dead ∨ ∃ k, l = [⟨.reader s.n, .rel (.wg s.n), k⟩])) ∨
    (s.rph = .dead ∧ ∃ k, l = [⟨.loop, .acq (.wg s.n), k⟩])
  runW : s.lph.both = true →
    (s'.lph.both = true ∧ s'.n = s.n ∧ (s'.wph = .dead → s.wph = .dead ∨ ∃ k, l = [⟨.writer s.n, .rel (.wg s.n), k⟩])) ∨
    (s.wph = .dead ∧ ∃ k, l = [⟨.loop, .acq (.wg s.n), k⟩])
  rr : s'.rph ≠ .dead → (s.rph ≠ .dead ∧ s'.n = s.n) ∨ (s.lph.solo = true ∧ ∃ k, l = [⟨.loop, .go (.reader s'.n), k⟩])
  ww : s'.wph ≠ .dead → (s.wph ≠ .dead ∧ s'.n = s.n) ∨ (s.lph.both = false ∧ ∃ k, l = [⟨.loop, .go (.writer s'.n), k⟩])
  mu : s'.mu = s.mu ∨ (∃ g k, s.mu = none ∧ s'.mu = some g ∧ l = [⟨g, .acq .mu, k⟩]) ∨
    (∃ g k, s.mu = some g ∧ s'.mu = none ∧ l = [⟨g, .rel .mu, k⟩])
  lv : ∀ g, s'.live g = true → s.live g = true ∨ ∃ g0 k, s.live g0 = true ∧ l = [⟨g0, .go g, k⟩]

theorem cancel_tr (s : CMSt) (g : CG) : ∃ l, (s.cancel g).tr = s.tr ++ l ∧ ∀ e ∈ l, ∀ x w p, e.op ≠ .acc x w p := by
  unfold CMSt.cancel CMSt.loopCancel CMSt.emit
  split
  · exact ⟨[], by simp, by simp⟩
  · split
    · exact ⟨[⟨g, .rel .ctx, 462⟩], by simp, by simp⟩
    · exact ⟨[⟨g, .rel .ctx, 462⟩, ⟨g, .rel (.loopCtx s.n), 462⟩], by simp, by simp⟩

theorem loopCancel_tr (s : CMSt) (g : CG) (k : Nat) : ∃ l, (s.loopCancel g k).tr = s.tr ++ l ∧ ∀ e ∈ l, ∀ x w p, e.op ≠ .acc x w p := by
  unfold CMSt.loopCancel CMSt.emit
  split
  · exact ⟨[], by simp, by simp⟩
  · exact ⟨[⟨g, .rel (.loopCtx s.n), k⟩], by simp, by simp⟩

theorem lMove_quiet {r : Bool} {s s' : CMSt} {p : LPh} (h : CMCtl s) (hs : lMove r s p = some s') : ∃ l, CMQuiet s s' l := by
  obtain ⟨m1, m2, m3, m4, t1, t2, t3, so, bo⟩ := h
  have hc := cancel_ctl s .loop
  obtain ⟨lc, hlc⟩ := cancel_tr s .loop
  unfold Qrpc.lMove at hs
  split at hs
  all_goals (try split at hs) <;> try cases hs
  all_goals
    simp only [*, LPh.locked, LPh.solo, LPh.both, forall_const, Bool.false_eq_true, iff_false, false_implies] at m1 so bo
  all_goals first | refine ⟨[], ⟨(List.append_nil _).symm, ?_, ?_, ?_, ?_, ?_, ?_, ?_⟩⟩ | refine ⟨[_], ⟨rfl, ?_, ?_, ?_, ?_, ?_, ?_, ?_⟩⟩ | refine ⟨lc, ⟨hlc.1, hlc.2, ?_, ?_, ?_, ?_, ?_, ?_⟩⟩
  all_goals try intro g
  all_goals try cases g
  all_goals simp_all [CMSt.lTo, CMSt.rTo, CMSt.wTo, CMSt.emit, LPh.solo, LPh.both, CMSt.live]

theorem rMove_quiet {s s' : CMSt} {p : RPh} (h : CMCtl s) (hs : rMove s p = some s') : ∃ l, CMQuiet s s' l := by
  obtain ⟨m1, m2, m3, m4, t1, t2, t3, so, bo⟩ := h
  have hc := loopCancel_ctl s (.reader s.n) 479
  obtain ⟨lc, hlc⟩ := loopCancel_tr s (.reader s.n) 479
  have hso : s.rph ≠ .dead → s.lph.solo = false := by
    intro h; cases hl : s.lph.solo with
    | false => rfl
    | true => exact absurd (so hl).1 h
  unfold Qrpc.rMove at hs
  split at hs
  all_goals (try split at hs) <;> try cases hs
  all_goals simp only [*, RPh.locked, Bool.false_eq_true, iff_false, iff_true] at m2
  all_goals first | refine ⟨[], ⟨(List.append_nil _).symm, ?_, ?_, ?_, ?_, ?_, ?_, ?_⟩⟩ | refine ⟨[_], ⟨rfl, ?_, ?_, ?_, ?_, ?_, ?_, ?_⟩⟩ | refine ⟨lc, ⟨hlc.1, hlc.2, ?_, ?_, ?_, ?_, ?_, ?_⟩⟩
  all_goals try intro g
  all_goals try cases g
  all_goals simp_all [CMSt.rTo, CMSt.emit, CMSt.live]
  rintro (h | h)
  · exact .inr ⟨.reader s.n, by simp, rfl, h.symm⟩
  · exact .inl h

theorem wMove_quiet {s s' : CMSt} {p : WPh} (h : CMCtl s) (hs : wMove s p = some s') : ∃ l, CMQuiet s s' l := by
  obtain ⟨m1, m2, m3, m4, t1, t2, t3, so, bo⟩ := h
  have hc := loopCancel_ctl s (.writer s.n) 576
  obtain ⟨lc, hlc⟩ := loopCancel_tr s (.writer s.n) 576
  unfold Qrpc.wMove at hs
  split at hs
  all_goals (try split at hs) <;> try cases hs
  all_goals simp only [*, WPh.holds, Bool.false_eq_true, iff_false, iff_true] at m3
  all_goals first | refine ⟨[], ⟨(List.append_nil _).symm, ?_, ?_, ?_, ?_, ?_, ?_, ?_⟩⟩ | refine ⟨[_], ⟨rfl, ?_, ?_, ?_, ?_, ?_, ?_, ?_⟩⟩ | refine ⟨lc, ⟨hlc.1, hlc.2, ?_, ?_, ?_, ?_, ?_, ?_⟩⟩
  all_goals try intro g
  all_goals try cases g
  all_goals simp_all [CMSt.wTo, CMSt.emit, CMSt.live]

/-! ## Who knows what -/

/-- Lines at which `rwc` is used with `mu` held. -/
def rwcLocked : List Nat := [286, 433, 437, 507, 723]

def MuK (s : CMSt) (i : Nat) : Prop := (s.mu = none → KnowsO s.tr .mu i) ∧ ∀ g, s.mu = some g → Knows s.tr g i

structure CMKn (s : CMSt) : Prop where
  ini : ∀ i, i < cmInit.length → ∀ g, s.live g = true → Knows s.tr g i
  kl : ∀ (i : Nat) (a : CEv) (x : CX) (w p : Bool), s.tr[i]? = some a → a.op = .acc x w p → x ≠ .respes →
    (x = .rwc → a.line ∈ [261, 482, 485] ∨ w = true) →
    (x = .loopCtx ∧ w = false ∧ p = true) ∨ Knows s.tr .loop i ∨
    (s.lph.solo = false ∧ a.g = .reader s.n ∧ (s.rph = .dead → KnowsO s.tr (.wg s.n) i)) ∨
    (s.lph.both = true ∧ a.g = .writer s.n ∧ (s.wph = .dead → KnowsO s.tr (.wg s.n) i))
  kr : ∀ (i : Nat) (a : CEv) (x : CX) (p : Bool), s.tr[i]? = some a → a.op = .acc x true p → s.rph ≠ .dead → x ≠ .respes → x ≠ .cached →
    a.line ≠ 437 → Knows s.tr (.reader s.n) i
  kw : ∀ (i : Nat) (a : CEv) (x : CX) (w p : Bool), s.tr[i]? = some a → a.op = .acc x w p → s.wph ≠ .dead → x ≠ .respes →
    (w = true ∨ x = .cached) → a.line ≠ 437 → Knows s.tr (.writer s.n) i
  km : ∀ (i : Nat) (a : CEv) (x : CX) (w p : Bool), s.tr[i]? = some a → a.op = .acc x w p →
    (x = .respes ∨ (x = .rwc ∧ a.line ∈ rwcLocked)) → i < cmInit.length ∨ MuK s i
  pw : ∀ (i : Nat) (a : CEv), s.tr[i]? = some a → a.op = .acc .loopCtx true false → i < cmInit.length
  att : ∀ (i : Nat) (a : CEv) (x : CX) (w : Bool), s.tr[i]? = some a → a.op = .acc x w true → x = .loopCtx
  rx : ∀ (i : Nat) (a : CEv) (x : CX) (w p : Bool) (m : Nat), s.tr[i]? = some a → a.op = .acc x w p → a.g = .reader m →
    x ≠ .cached ∧ (w = true → x = .respes)
  wx : ∀ (i : Nat) (a : CEv) (x : CX) (p : Bool) (m : Nat), s.tr[i]? = some a → a.op = .acc x true p → a.g = .writer m →
    x = .respes ∨ x = .cached
  lw : ∀ (i : Nat) (a : CEv) (p : Bool), s.tr[i]? = some a → a.op = .acc .rwc true p → i < cmInit.length ∨ (a.g = .loop ∧ a.line ∈ [286, 437])
  lr : ∀ (i : Nat) (a : CEv) (p : Bool), s.tr[i]? = some a → a.op = .acc .rwc false p → a.line ∈ 25 :: 261 :: 482 :: 485 :: rwcLocked
  le : cmInit.length ≤ s.tr.length
  rl : ∀ (i : Nat) (a : CEv) (w p : Bool) (m : Nat), s.tr[i]? = some a → a.op = .acc .rwc w p → a.g = .reader m → a.line ∈ [482, 485, 507]
  wl : ∀ (i : Nat) (a : CEv) (w p : Bool) (m : Nat), s.tr[i]? = some a → a.op = .acc .rwc w p → a.g = .writer m → a.line = 723
  l4 : ∀ (i : Nat) (a : CEv) (x : CX) (w p : Bool), s.tr[i]? = some a → a.op = .acc x w p → a.line = 437 → x = .rwc

theorem CMKn.quiet {s s' : CMSt} {l : List CEv} (h : CMKn s) (q : CMQuiet s s' l) : CMKn s' := by
  obtain ⟨htr, hna, hrun, hrunW, hrr, hww, hmu, hlv⟩ := q
  have old : ∀ {i : Nat} {a : CEv} {x : CX} {w p : Bool}, s'.tr[i]? = some a → a.op = .acc x w p → s.tr[i]? = some a := by
    intro i a x w p h1 h2
    rw [htr] at h1
    rcases snocs h1 with h1 | h1
    · exact h1
    · exact absurd h2 (hna a h1 x w p)
  have hk : ∀ {g : CG} {i : Nat}, Knows s.tr g i → Knows s'.tr g i := fun h => htr ▸ h.mono l
  have hko : ∀ {o : CO} {i : Nat}, KnowsO s.tr o i → KnowsO s'.tr o i := fun h => htr ▸ h.mono l
  refine ⟨?_, ?_, ?_, ?_, ?_, ?_, ?_, ?_, ?_, ?_, ?_, ?_, ?_, ?_, ?_⟩
  · intro i hi g hg
    rcases hlv g hg with h1 | ⟨g0, k, h1, h2⟩
    · exact hk (h.ini i hi g h1)
    · rw [htr, h2]; exact (h.ini i hi g0 h1).go (e := (⟨g0, .go g, k⟩ : CEv)) rfl
  · intro i a x w p h1 h2 h3 h4
    have h1' := old h1 h2
    rcases h.kl i a x w p h1' h2 h3 h4 with h5 | h5 | ⟨h5, h6, h7⟩ | ⟨h5, h6, h7⟩
    · exact .inl h5
    · exact .inr (.inl (hk h5))
    · rcases hrun h5 with ⟨h8, h9, h10⟩ | ⟨h8, k, h9⟩
      · refine .inr (.inr (.inl ⟨h8, by rw [h6, h9], fun hd => ?_⟩))
        rw [h9]
        rcases h10 hd with h11 | ⟨k, h11⟩
        · exact hko (h7 h11)
        · rw [htr, h11]
          exact Knows.rel (e := (⟨.reader s.n, .rel (.wg s.n), k⟩ : CEv)) (Knows.own' h1' h6) rfl
      · refine .inr (.inl ?_)
        rw [htr, h9]
        exact (h7 h8).acq (e := (⟨.loop, .acq (.wg s.n), k⟩ : CEv)) rfl
    · rcases hrunW h5 with ⟨h8, h9, h10⟩ | ⟨h8, k, h9⟩
      · refine .inr (.inr (.inr ⟨h8, by rw [h6, h9], fun hd => ?_⟩))
        rw [h9]
        rcases h10 hd with h11 | ⟨k, h11⟩
        · exact hko (h7 h11)
        · rw [htr, h11]
          exact Knows.rel (e := (⟨.writer s.n, .rel (.wg s.n), k⟩ : CEv)) (Knows.own' h1' h6) rfl
      · refine .inr (.inl ?_)
        rw [htr, h9]
        exact (h7 h8).acq (e := (⟨.loop, .acq (.wg s.n), k⟩ : CEv)) rfl
  · intro i a x p h1 h2 h3 h4 h5 h6
    have h1' := old h1 h2
    rcases hrr h3 with ⟨h7, h8⟩ | ⟨h7, k, h8⟩
    · rw [h8]; exact hk (h.kr i a x p h1' h2 h7 h4 h5 h6)
    · rw [htr, h8]
      refine Knows.go (e := (⟨.loop, .go (.reader s'.n), k⟩ : CEv)) ?_ rfl
      rcases h.kl i a x true p h1' h2 h4 (fun _ => .inr rfl) with h9 | h9 | h9 | h9
      · exact absurd h9.2.1 (by decide)
      · exact h9
      · rw [h7] at h9; exact absurd h9.1 (by decide)
      · have := h9.1
        cases hl : s.lph <;> rw [hl] at this h7 <;> simp [LPh.solo, LPh.both] at this h7
  · intro i a x w p h1 h2 h3 h4 h5 h6
    have h1' := old h1 h2
    rcases hww h3 with ⟨h7, h8⟩ | ⟨h7, k, h8⟩
    · rw [h8]; exact hk (h.kw i a x w p h1' h2 h7 h4 h5 h6)
    · rw [htr, h8]
      refine Knows.go (e := (⟨.loop, .go (.writer s'.n), k⟩ : CEv)) ?_ rfl
      rcases h.kl i a x w p h1' h2 h4 (by rintro rfl; rcases h5 with h5 | h5; exact .inr h5; cases h5) with h9 | h9 | h9 | h9
      · obtain ⟨rfl, rfl, rfl⟩ := h9
        rcases h5 with h5 | h5 <;> cases h5
      · exact h9
      · have := h.rx i a x w p s.n h1' h2 h9.2.1
        rcases h5 with h5 | h5
        · exact absurd (this.2 h5) h4
        · exact absurd h5 this.1
      · rw [h7] at h9; exact absurd h9.1 (by decide)
  · intro i a x w p h1 h2 h3
    have h1' := old h1 h2
    rcases h.km i a x w p h1' h2 h3 with h4 | ⟨h4, h5⟩
    · exact .inl h4
    · refine .inr ?_
      rcases hmu with h6 | ⟨g, k, h6, h7, h8⟩ | ⟨g, k, h6, h7, h8⟩
      · exact ⟨fun h => hko (h4 (h6 ▸ h)), fun g hg => hk (h5 g (h6 ▸ hg))⟩
      · refine ⟨fun h => (by rw [h7] at h; cases h), fun g' hg => ?_⟩
        rw [h7] at hg; cases hg
        rw [htr, h8]
        exact (h4 h6).acq (e := (⟨g, .acq .mu, k⟩ : CEv)) rfl
      · refine ⟨fun _ => ?_, fun g' hg => (by rw [h7] at hg; cases hg)⟩
        rw [htr, h8]
        exact Knows.rel (e := (⟨g, .rel .mu, k⟩ : CEv)) (h5 g h6) rfl
  · exact fun i a h1 h2 => h.pw i a (old h1 h2) h2
  · exact fun i a x w h1 h2 => h.att i a x w (old h1 h2) h2
  · exact fun i a x w p m h1 h2 => h.rx i a x w p m (old h1 h2) h2
  · exact fun i a x p m h1 h2 => h.wx i a x p m (old h1 h2) h2
  · exact fun i a p h1 h2 => h.lw i a p (old h1 h2) h2
  · exact fun i a p h1 h2 => h.lr i a p (old h1 h2) h2
  · rw [htr, List.length_append]; exact Nat.le_trans h.le (Nat.le_add_right _ _)
  · exact fun i a w p m h1 h2 => h.rl i a w p m (old h1 h2) h2
  · exact fun i a w p m h1 h2 => h.wl i a w p m (old h1 h2) h2
  · exact fun i a x w p h1 h2 => h.l4 i a x w p (old h1 h2) h2

/-! ## Accesses -/

/-- The access `a` by goroutine `g` is one the program makes now. -/
inductive Makes (s : CMSt) : CG → CAcc → Prop
  | loop {a : CAcc} : a ∈ s.lph.block → Makes s .loop a
  | reader {a : CAcc} : a ∈ s.rph.block → Makes s (.reader s.n) a
  | writer {a : CAcc} : a ∈ s.wph.block → Makes s (.writer s.n) a
  | load {g : CG} : s.live g = true → Makes s g ⟨.loopCtx, false, true, 252⟩
  | reused {i : Nat} : s.live (.user i) = true → Makes s (.user i) ⟨.rwc, false, false, 25⟩

theorem makes_lock {s : CMSt} (c : CMCtl s) {g : CG} {a : CAcc} (m : Makes s g a)
    (h : a.x = .respes ∨ (a.x = .rwc ∧ a.line ∈ rwcLocked)) : s.mu = some g := by
  cases m with
  | loop m =>
    refine c.muL.2 ?_
    cases hl : s.lph <;> rw [hl] at m <;> simp [LPh.block] at m <;> rcases m with rfl | rfl | rfl | rfl | m <;> simp_all [rwcLocked, LPh.locked]
  | reader m =>
    refine c.muR.2 ?_
    cases hl : s.rph <;> rw [hl] at m <;> simp [RPh.block] at m <;> rcases m with rfl | rfl | m <;> simp_all [rwcLocked, RPh.locked]
  | writer m =>
    refine c.muW.2 ?_
    cases hl : s.wph <;> rw [hl] at m <;> simp [WPh.block] at m <;> rcases m with rfl | rfl | rfl | rfl | m <;> simp_all [rwcLocked, WPh.holds]
  | load _ => simp at h
  | reused _ => simp [rwcLocked] at h

theorem lblock (p : LPh) : ∀ a ∈ p.block, a.x ≠ .cached ∧ (a.a = true → a.x = .loopCtx) ∧ (a.x = .loopCtx → a.w = true → a.a = true) ∧
    (a.x = .rwc → a.w = true → a.line ∈ [286, 437]) ∧ (a.x = .rwc → a.line ∈ 25 :: 261 :: 482 :: 485 :: rwcLocked) ∧
    (p.solo = false → a.w = true → a.x = .respes ∨ a.line = 437) ∧ (a.line = 437 → a.x = .rwc) := by
  cases p <;> decide

theorem rblock (p : RPh) : ∀ a ∈ p.block, a.x ≠ .cached ∧ a.a = false ∧ (a.w = true → a.x = .respes) ∧
    (a.x = .rwc → a.line ∈ [482, 485, 507]) ∧ (a.x = .rwc → a.line ∈ 25 :: 261 :: 482 :: 485 :: rwcLocked) ∧ a.line ≠ 437 := by
  cases p <;> decide

theorem wblock (p : WPh) : ∀ a ∈ p.block, a.a = false ∧ (a.w = true → a.x = .respes ∨ a.x = .cached) ∧
    (a.x = .rwc → a.line = 723) ∧ (a.x = .rwc → a.line ∈ 25 :: 261 :: 482 :: 485 :: rwcLocked) ∧ a.line ≠ 437 := by
  cases p <;> decide

theorem both_solo {p : LPh} (h : p.both = true) : p.solo = false := by
  cases p <;> simp_all [LPh.both, LPh.solo]

theorem CMKn.access {s s' : CMSt} {g : CG} {a : CAcc} (c : CMCtl s) (h : CMKn s) (m : Makes s g a)
    (htr : s'.tr = s.tr ++ [⟨g, .acc a.x a.w a.a, a.line⟩]) (h1 : s'.mu = s.mu) (h2 : s'.n = s.n) (h3 : s'.lph = s.lph) (h4 : s'.rph = s.rph)
    (h5 : s'.wph = s.wph) (h6 : ∀ g, s'.live g = true → s.live g = true) : CMKn s' := by
  have hk : ∀ {g : CG} {i : Nat}, Knows s.tr g i → Knows s'.tr g i := fun h => htr ▸ h.mono _
  have hko : ∀ {o : CO} {i : Nat}, KnowsO s.tr o i → KnowsO s'.tr o i := fun h => htr ▸ h.mono _
  have hnew : Knows s'.tr g s.tr.length := by
    rw [htr]; exact Knows.own' (a := ⟨g, .acc a.x a.w a.a, a.line⟩) (by simp) rfl
  have split : ∀ {i : Nat} {b : CEv}, s'.tr[i]? = some b → s.tr[i]? = some b ∨ (i = s.tr.length ∧ b = ⟨g, .acc a.x a.w a.a, a.line⟩) := by
    intro i b hb; rw [htr] at hb; exact getElem?_snoc hb
  have hso : s.rph ≠ .dead → s.lph.solo = false := by
    intro h; cases hl : s.lph.solo with
    | false => rfl
    | true => exact absurd (c.solo hl).1 h
  have hbo : s.wph ≠ .dead → s.lph.both = true := by
    intro h; cases hl : s.lph.both with
    | true => rfl
    | false => exact absurd (c.both hl) h
  have rdead : ∀ b ∈ s.rph.block, s.rph ≠ .dead := by intro b hb hd; rw [hd] at hb; cases hb
  have wdead : ∀ b ∈ s.wph.block, s.wph ≠ .dead := by intro b hb hd; rw [hd] at hb; cases hb
  refine ⟨?_, ?_, ?_, ?_, ?_, ?_, ?_, ?_, ?_, ?_, ?_, ?_, ?_, ?_, ?_⟩
  · exact fun i hi g hg => hk (h.ini i hi g (h6 g hg))
  · intro i b x w p hb hop hx hr
    rw [h3, h4, h5, h2]
    rcases split hb with hb | ⟨rfl, rfl⟩
    · rcases h.kl i b x w p hb hop hx hr with h7 | h7 | ⟨h7, h8, h9⟩ | ⟨h7, h8, h9⟩
      · exact .inl h7
      · exact .inr (.inl (hk h7))
      · exact .inr (.inr (.inl ⟨h7, h8, fun h => hko (h9 h)⟩))
      · exact .inr (.inr (.inr ⟨h7, h8, fun h => hko (h9 h)⟩))
    · cases hop
      cases m with
      | loop m => exact .inr (.inl hnew)
      | reader m => exact .inr (.inr (.inl ⟨hso (rdead _ m), rfl, fun h => absurd h (rdead _ m)⟩))
      | writer m => exact .inr (.inr (.inr ⟨hbo (wdead _ m), rfl, fun h => absurd h (wdead _ m)⟩))
      | load _ => exact .inl ⟨rfl, rfl, rfl⟩
      | reused _ => rcases hr rfl with hr | hr <;> simp at hr
  · intro i b x p hb hop hd hx hc hl
    rw [h4] at hd; rw [h2]
    rcases split hb with hb | ⟨rfl, rfl⟩
    · exact hk (h.kr i b x p hb hop hd hx hc hl)
    · exfalso
      obtain ⟨ax, aw, aa, al⟩ := a
      cases hop
      have hs := hso hd
      cases m with
      | loop m => have := lblock _ _ m; first | (have := hs; simp_all; done) | (have := both_solo hs; simp_all; done) | (simp_all; done)
      | reader m => have := rblock _ _ m; simp_all
      | writer m => have := wblock _ _ m; simp_all
  · intro i b x w p hb hop hd hx hc hl
    rw [h5] at hd; rw [h2]
    rcases split hb with hb | ⟨rfl, rfl⟩
    · exact hk (h.kw i b x w p hb hop hd hx hc hl)
    · obtain ⟨ax, aw, aa, al⟩ := a
      cases hop
      have hs := hbo hd
      cases m with
      | loop m => exfalso; have := lblock _ _ m; first | (have := hs; simp_all; done) | (have := both_solo hs; simp_all; done) | (simp_all; done)
      | reader m => exfalso; have := rblock _ _ m; simp_all
      | writer m => exact hnew
      | load _ => simp at hc
      | reused _ => simp at hc
  · intro i b x w p hb hop hx
    rcases split hb with hb | ⟨rfl, rfl⟩
    · refine (h.km i b x w p hb hop hx).imp id fun h7 => ?_
      exact ⟨fun h => hko (h7.1 (h1 ▸ h)), fun g hg => hk (h7.2 g (h1 ▸ hg))⟩
    · cases hop
      have hm := makes_lock c m hx
      refine .inr ⟨fun h => ?_, fun g' hg => ?_⟩
      · rw [h1, hm] at h; cases h
      · rw [h1, hm] at hg; cases hg; exact hnew
  · intro i b hb hop
    rcases split hb with hb | ⟨rfl, rfl⟩
    · exact h.pw i b hb hop
    · exfalso
      obtain ⟨ax, aw, aa, al⟩ := a
      cases hop
      cases m with
      | loop m => have := lblock _ _ m; first | (have := hs; simp_all; done) | (have := both_solo hs; simp_all; done) | (simp_all; done)
      | reader m => have := rblock _ _ m; simp_all
      | writer m => have := wblock _ _ m; simp_all
  · intro i b x w hb hop
    rcases split hb with hb | ⟨rfl, rfl⟩
    · exact h.att i b x w hb hop
    · obtain ⟨ax, aw, aa, al⟩ := a
      cases hop
      cases m with
      | loop m => have := lblock _ _ m; first | (have := hs; simp_all; done) | (have := both_solo hs; simp_all; done) | (simp_all; done)
      | reader m => have := rblock _ _ m; simp_all
      | writer m => have := wblock _ _ m; simp_all
      | load _ => rfl
  · intro i b x w p k hb hop hg
    rcases split hb with hb | ⟨rfl, rfl⟩
    · exact h.rx i b x w p k hb hop hg
    · obtain ⟨ax, aw, aa, al⟩ := a
      cases hop
      cases m with
      | loop m => cases hg
      | reader m => have := rblock _ _ m; simp_all
      | writer m => cases hg
      | load _ => exact ⟨by decide, by decide⟩
      | reused _ => cases hg
  · intro i b x p k hb hop hg
    rcases split hb with hb | ⟨rfl, rfl⟩
    · exact h.wx i b x p k hb hop hg
    · obtain ⟨ax, aw, aa, al⟩ := a
      cases hop
      cases m with
      | loop m => cases hg
      | reader m => cases hg
      | writer m => have := wblock _ _ m; simp_all
  · intro i b p hb hop
    rcases split hb with hb | ⟨rfl, rfl⟩
    · exact h.lw i b p hb hop
    · refine .inr ?_
      obtain ⟨ax, aw, aa, al⟩ := a
      cases hop
      cases m with
      | loop m => have := lblock _ _ m; first | (have := hs; simp_all; done) | (have := both_solo hs; simp_all; done) | (simp_all; done)
      | reader m => have := rblock _ _ m; simp_all
      | writer m => have := wblock _ _ m; simp_all
  · intro i b p hb hop
    rcases split hb with hb | ⟨rfl, rfl⟩
    · exact h.lr i b p hb hop
    · obtain ⟨ax, aw, aa, al⟩ := a
      cases hop
      cases m with
      | loop m => exact (lblock _ _ m).2.2.2.2.1 rfl
      | reader m => exact (rblock _ _ m).2.2.2.2.1 rfl
      | writer m => exact (wblock _ _ m).2.2.2.1 rfl
      | reused _ => simp
  · rw [htr, List.length_append]; exact Nat.le_trans h.le (Nat.le_add_right _ _)
  · intro i b w p k hb hop hg
    rcases split hb with hb | ⟨rfl, rfl⟩
    · exact h.rl i b w p k hb hop hg
    · obtain ⟨ax, aw, aa, al⟩ := a
      cases hop
      cases m with
      | loop m => cases hg
      | reader m => have := rblock _ _ m; simp_all
      | writer m => cases hg
      | reused _ => cases hg
  · intro i b w p k hb hop hg
    rcases split hb with hb | ⟨rfl, rfl⟩
    · exact h.wl i b w p k hb hop hg
    · obtain ⟨ax, aw, aa, al⟩ := a
      cases hop
      cases m with
      | loop m => cases hg
      | reader m => cases hg
      | writer m => have := wblock _ _ m; simp_all
      | reused _ => cases hg
  · intro i b x w p hb hop hg
    rcases split hb with hb | ⟨rfl, rfl⟩
    · exact h.l4 i b x w p hb hop hg
    · obtain ⟨ax, aw, aa, al⟩ := a
      cases hop
      cases m with
      | loop m => have := lblock _ _ m; simp_all
      | reader m => have := rblock _ _ m; simp_all
      | writer m => have := wblock _ _ m; simp_all
      | load _ => cases hg
      | reused _ => cases hg

/-- Every step accesses nothing, or makes one access that the program makes now. -/
theorem cmStep_cases {r : Bool} {s s' : CMSt} {a : CMAct} (c : CMCtl s) (hs : cmStep r s a = some s') :
    (∃ l, CMQuiet s s' l) ∨ ∃ g b, Makes s g b ∧ s'.tr = s.tr ++ [⟨g, .acc b.x b.w b.a, b.line⟩] ∧ s'.mu = s.mu ∧ s'.n = s.n ∧ s'.lph = s.lph ∧
      s'.rph = s.rph ∧ s'.wph = s.wph ∧ ∀ g, s'.live g = true → s.live g = true := by
  have hdead : s.rph ≠ .dead → s.lph.solo = false := by
    intro h; cases hl : s.lph.solo with
    | false => rfl
    | true => exact absurd (c.solo hl).1 h
  unfold cmStep at hs
  split at hs
  · split at hs
    · rename_i b t ht
      cases hs
      refine .inr ⟨.loop, b, .loop (c.lt b (by rw [ht]; simp)), rfl, rfl, rfl, rfl, rfl, rfl, fun g hg => ?_⟩
      cases g <;> exact hg
    · cases hs
  · split at hs
    · rename_i b t ht
      cases hs
      refine .inr ⟨.reader s.n, b, .reader (c.rt b (by rw [ht]; simp)), rfl, rfl, rfl, rfl, rfl, rfl, fun g hg => ?_⟩
      cases g <;> exact hg
    · cases hs
  · split at hs
    · rename_i b t ht
      cases hs
      refine .inr ⟨.writer s.n, b, .writer (c.wt b (by rw [ht]; simp)), rfl, rfl, rfl, rfl, rfl, rfl, fun g hg => ?_⟩
      cases g <;> exact hg
    · cases hs
  · split at hs <;> cases hs
    all_goals
      refine .inl ⟨[], ⟨(List.append_nil _).symm, ?_, ?_, ?_, ?_, ?_, ?_, ?_⟩⟩
      all_goals try intro g
      all_goals try cases g
      all_goals simp_all [CMSt.live]
  · split at hs
    · exact .inl (lMove_quiet c hs)
    · cases hs
  · split at hs
    · exact .inl (rMove_quiet c hs)
    · cases hs
  · split at hs
    · exact .inl (wMove_quiet c hs)
    · cases hs
  · split at hs <;> cases hs
    refine .inl ⟨[_], ⟨rfl, ?_, ?_, ?_, ?_, ?_, ?_, ?_⟩⟩
    all_goals try intro g
    all_goals try cases g
    all_goals simp_all [CMSt.live, CMSt.emit]
  · split at hs <;> cases hs
    rename_i i j hi
    refine .inl ⟨[_], ⟨rfl, ?_, ?_, ?_, ?_, ?_, ?_, ?_⟩⟩
    all_goals try intro g
    all_goals try cases g
    all_goals simp_all [CMSt.live, CMSt.emit]
    rintro (h | h)
    · exact .inr ⟨.user i, by simpa using hi, rfl, h.symm⟩
    · exact .inl h
  · split at hs <;> cases hs
    rename_i g hg
    refine .inr ⟨g, _, .load hg, rfl, rfl, rfl, rfl, rfl, rfl, fun g hg => ?_⟩
    cases g <;> exact hg
  · split at hs <;> cases hs
    rename_i g hg
    obtain ⟨l, hl, hn⟩ := cancel_tr s g
    obtain ⟨c1, c2, c3, c4, c5, c6, c7, c8, c9, c10⟩ := cancel_ctl s g
    refine .inl ⟨l, ⟨hl, hn, ?_, ?_, ?_, ?_, ?_, ?_⟩⟩
    all_goals try intro g
    all_goals try cases g
    all_goals simp_all [CMSt.live]
  · split at hs <;> cases hs
    rename_i i hi
    refine .inr ⟨.user i, _, .reused hi, rfl, rfl, rfl, rfl, rfl, rfl, fun g hg => ?_⟩
    cases g <;> exact hg

theorem cmInit_all : ∀ a ∈ cmInit, a.g = .user 0 := by decide

theorem CMKn.init (d : Bool) : CMKn (CMSt.init d) := by
  have hg : ∀ (i : Nat) (a : CEv), cmInit[i]? = some a → a.g = .user 0 := fun i a h => cmInit_all a (List.mem_of_getElem? h)
  have lt : ∀ (i : Nat) (a : CEv), cmInit[i]? = some a → i < cmInit.length := fun i a h => (List.getElem?_eq_some_iff.1 h).1
  have hu : ∀ i, i < cmInit.length → Knows cmInit (.user 0) i := by
    intro i hi
    have h1 : cmInit[i]? = some cmInit[i] := List.getElem?_eq_getElem hi
    exact Knows.own' h1 (hg i _ h1)
  have hl : ∀ i, i < cmInit.length → Knows cmInit .loop i := by
    intro i hi
    have h1 : cmInit[i]? = some cmInit[i] := List.getElem?_eq_getElem hi
    have h2 : cmInit[10]? = some ⟨.user 0, .go .loop, 209⟩ := by decide
    refine ⟨10, _, ?_, h2, .inr rfl⟩
    have : cmInit.length = 11 := by decide
    rcases Nat.lt_or_ge i 10 with h | h
    · exact .inr (.program h h1 h2 (hg i _ h1))
    · exact .inl (by omega)
  have nw : ∀ (P : CEv → Bool), (cmInit.all P = true) → ∀ (i : Nat) (a : CEv), cmInit[i]? = some a → P a = true :=
    fun P h i a ha => List.all_eq_true.1 h a (List.mem_of_getElem? ha)
  refine ⟨?_, ?_, ?_, ?_, ?_, ?_, ?_, ?_, ?_, ?_, ?_, Nat.le_refl _, ?_, ?_, ?_⟩
  · intro i hi g h
    cases g with
    | user j =>
      have : j = 0 := by simpa [CMSt.live, CMSt.init] using h
      subst this; exact hu i hi
    | loop => exact hl i hi
    | reader n => simp [CMSt.live, CMSt.init] at h
    | writer n => simp [CMSt.live, CMSt.init] at h
    | handler k => simp [CMSt.live, CMSt.init] at h
  · exact fun i a x w p h _ _ _ => .inr (.inl (hl i (lt i a h)))
  · exact fun i a x p _ _ h => absurd rfl h
  · exact fun i a x w p _ _ h => absurd rfl h
  · exact fun i a x w p h _ _ => .inl (lt i a h)
  · exact fun i a h _ => lt i a h
  · intro i a x w h hop
    have := nw (fun a => match a.op with | .acc x _ true => x == .loopCtx | _ => true) (by decide) i a h
    simpa [hop] using this
  · intro i a x w p m h _ h2
    rw [hg i a h] at h2; cases h2
  · intro i a x p m h _ h2
    rw [hg i a h] at h2; cases h2
  · exact fun i a p h _ => .inl (lt i a h)
  · intro i a p h hop
    have := nw (fun a => match a.op with | .acc .rwc false _ => false | _ => true) (by decide) i a h
    simp [hop] at this
  · intro i a w p m h _ h2
    rw [hg i a h] at h2; cases h2
  · intro i a w p m h _ h2
    rw [hg i a h] at h2; cases h2
  · intro i a x w p h _ h2
    have := nw (fun a => a.line != 437) (by decide) i a h
    simp [h2] at this

def CMInv (s : CMSt) : Prop := CMCtl s ∧ CMKn s

theorem CMInv.step {r : Bool} {s s' : CMSt} {a : CMAct} (h : CMInv s) (hs : cmStep r s a = some s') : CMInv s' := by
  refine ⟨h.1.step hs, ?_⟩
  rcases cmStep_cases h.1 hs with ⟨l, q⟩ | ⟨g, b, m, h1, h2, h3, h4, h5, h6, h7⟩
  · exact h.2.quiet q
  · exact h.2.access h.1 m h1 h2 h3 h4 h5 h6 h7

theorem CMInv.reach {r d : Bool} {acts : List CMAct} {s : CMSt} (h : cmRun r d acts = some s) : CMInv s :=
  runActs_inv (P := CMInv) (fun _ _ _ h1 h2 => CMInv.step h1 h2) ⟨CMCtl.init d, CMKn.init d⟩ h

/-! ## C117 -/

/-- The two accesses to `rwc` that race: the reader's at its start (482, 485) with closeRWC's (437), and GetReusedCon's
(clientconn_reuse.go:25) with any. -/
def Spec.RwcRace (k l : Nat) : Prop := (k = 437 ∧ (l = 482 ∨ l = 485)) ∨ (l = 437 ∧ (k = 482 ∨ k = 485)) ∨ k = 25 ∨ l = 25

theorem makes_race {s : CMSt} {g : CG} {b : CAcc} (h : CMInv s) (m : Makes s g b) {x : CX} {i : Nat} {a : CEv} (ha : s.tr[i]? = some a)
    (hc : Conflict x a ⟨g, .acc b.x b.w b.a, b.line⟩) (hk : ¬ Knows s.tr g i) : x = .rwc ∧ Spec.RwcRace a.line b.line := by
  obtain ⟨c, k⟩ := h
  obtain ⟨w, v, p, q, h1, h2, h3, h4⟩ := hc
  obtain ⟨bx, bw, ba, bl⟩ := b
  cases h2
  -- known through the mutex, or from before the connection was shared
  have viaMu : (bx = .respes ∨ (bx = .rwc ∧ bl ∈ rwcLocked)) → (bx = .respes ∨ (bx = .rwc ∧ a.line ∈ rwcLocked)) → s.live g = true → False := by
    intro e1 e2 hl
    have hm := makes_lock c m e1
    rcases k.km i a bx w p ha h1 e2 with h5 | h5
    · exact hk (k.ini i h5 g hl)
    · exact hk (h5.2 g hm)
  have own : a.g ≠ g := fun e => hk (Knows.own' ha e)
  cases m with
  | loop m =>
    have hb := lblock _ _ m
    have hl : s.live .loop = true := by
      cases hp : s.lph <;> rw [hp] at m <;> simp_all [CMSt.live, LPh.block]
    by_cases hx : bx = .respes
    · exact (viaMu (.inl hx) (.inl hx) hl).elim
    · by_cases hr : bx = .rwc
      · subst hr
        refine ⟨rfl, ?_⟩
        cases w with
        | true =>
          rcases k.lw i a p ha h1 with h5 | h5
          · exact absurd (k.ini i h5 _ hl) hk
          · exact absurd h5.1 own
        | false =>
          have hv : bw = true := by rcases h3 with h3 | h3; cases h3; exact h3
          have hbl : bl ∈ [286, 437] := hb.2.2.2.1 rfl hv
          have hbl' : bl ∈ rwcLocked := by
            rcases List.mem_cons.1 hbl with h | h
            · rw [h]; decide
            · rw [List.mem_singleton.1 h]; decide
          have hal := k.lr i a p ha h1
          rcases List.mem_cons.1 hal with h5 | h5
          · exact .inr (.inr (.inl h5))
          · by_cases h6 : a.line ∈ rwcLocked
            · exact (viaMu (.inr ⟨rfl, hbl'⟩) (.inr ⟨rfl, h6⟩) hl).elim
            · have h7 : a.line ∈ [261, 482, 485] := by simp_all
              rcases k.kl i a _ _ _ ha h1 hx (fun _ => .inl h7) with h8 | h8 | h8 | h8
              · cases h8.1
              · exact absurd h8 hk
              · have h9 := k.rl i a _ _ _ ha h1 h8.2.1
                have h10 := hb.2.2.2.2.2.1 h8.1 hv
                rcases h10 with h10 | h10
                · cases h10
                · refine .inr (.inl ⟨h10, ?_⟩)
                  simp [rwcLocked] at h9 h6
                  rcases h9 with h9 | h9 | h9
                  · exact .inl h9
                  · exact .inr h9
                  · exact absurd h9 h6.2.2.2.1
              · have h9 := k.wl i a _ _ _ ha h1 h8.2.1
                rw [h9] at h7; exact absurd h7 (by decide)
      · exfalso
        have kl := k.kl i a _ _ _ ha h1 hx (fun e => absurd e hr)
        rcases kl with ⟨rfl, rfl, rfl⟩ | h8 | h8 | h8
        · have hv : bw = true := by rcases h3 with h3 | h3; cases h3; exact h3
          exact h4 ⟨rfl, hb.2.2.1 rfl hv⟩
        · exact hk h8
        · cases bw with
          | true =>
            rcases hb.2.2.2.2.2.1 h8.1 rfl with h9 | h9
            · exact hx h9
            · exact hr (hb.2.2.2.2.2.2 h9)
          | false =>
            have hw : w = true := by rcases h3 with h3 | h3; exact h3; cases h3
            exact hx ((k.rx i a _ _ _ _ ha h1 h8.2.1).2 hw)
        · cases bw with
          | true =>
            rcases hb.2.2.2.2.2.1 (both_solo h8.1) rfl with h9 | h9
            · exact hx h9
            · exact hr (hb.2.2.2.2.2.2 h9)
          | false =>
            have hw : w = true := by rcases h3 with h3 | h3; exact h3; cases h3
            subst hw
            rcases k.wx i a _ _ _ ha h1 h8.2.1 with h9 | h9
            · exact hx h9
            · exact hb.1 h9
  | reader m =>
    have hb := rblock _ _ m
    have hd : s.rph ≠ .dead := by intro hd; rw [hd] at m; cases m
    have hl : s.live (.reader s.n) = true := by simp [CMSt.live, hd]
    by_cases hx : bx = .respes
    · exact (viaMu (.inl hx) (.inl hx) hl).elim
    · have hw : w = true := by
        rcases h3 with h3 | h3
        · exact h3
        · exact absurd (hb.2.2.1 h3) hx
      subst hw
      by_cases h437 : a.line = 437
      · have hr := k.l4 i a _ _ _ ha h1 h437
        subst hr
        refine ⟨rfl, ?_⟩
        have h9 := hb.2.2.2.1 rfl
        simp at h9
        rcases h9 with h9 | h9 | h9
        · exact .inl ⟨h437, .inl h9⟩
        · exact .inl ⟨h437, .inr h9⟩
        · exact (viaMu (.inr ⟨rfl, by show bl ∈ rwcLocked; rw [h9]; decide⟩) (.inr ⟨rfl, by rw [h437]; decide⟩) hl).elim
      · exact absurd (k.kr i a _ _ ha h1 hd hx hb.1 h437) hk
  | writer m =>
    have hb := wblock _ _ m
    have hd : s.wph ≠ .dead := by intro hd; rw [hd] at m; cases m
    have hl : s.live (.writer s.n) = true := by simp [CMSt.live, hd]
    exfalso
    by_cases hx : bx = .respes
    · exact viaMu (.inl hx) (.inl hx) hl
    · by_cases hr : bx = .rwc
      · subst hr
        have hw : w = true := by
          rcases h3 with h3 | h3
          · exact h3
          · rcases hb.2.1 h3 with h | h <;> cases h
        subst hw
        rcases k.lw i a _ ha h1 with h5 | h5
        · exact hk (k.ini i h5 _ hl)
        · refine viaMu (.inr ⟨rfl, by have := hb.2.2.1 rfl; simp only at this; rw [this]; decide⟩) (.inr ⟨rfl, ?_⟩) hl
          rcases List.mem_cons.1 h5.2 with h | h
          · rw [h]; decide
          · rw [List.mem_singleton.1 h]; decide
      · refine hk (k.kw i a _ _ _ ha h1 hd hx ?_ (fun e => hr (k.l4 i a _ _ _ ha h1 e)))
        rcases h3 with h3 | h3
        · exact .inl h3
        · rcases hb.2.1 h3 with h | h
          · exact absurd h hx
          · exact .inr h
  | load hl =>
    exfalso
    have hw : w = true := by rcases h3 with h3 | h3; exact h3; cases h3
    have hp : p = false := by cases p with
      | false => rfl
      | true => exact absurd ⟨rfl, rfl⟩ h4
    subst hw hp
    exact hk (k.ini i (k.pw i a ha h1) _ hl)
  | reused hl => exact ⟨rfl, .inr (.inr (.inr rfl))⟩

theorem cm_races {r d : Bool} {acts : List CMAct} {s : CMSt} (h : cmRun r d acts = some s) {x : CX} {i j : Nat} (hr : Race s.tr x i j) :
    x = .rwc ∧ ∃ a b, s.tr[i]? = some a ∧ s.tr[j]? = some b ∧ Spec.RwcRace a.line b.line := by
  have key : CMInv s ∧ ∀ x i j, Race s.tr x i j →
      x = .rwc ∧ ∃ a b, s.tr[i]? = some a ∧ s.tr[j]? = some b ∧ Spec.RwcRace a.line b.line := by
    refine runActs_inv (P := fun s => CMInv s ∧ ∀ x i j, Race s.tr x i j →
      x = .rwc ∧ ∃ a b, s.tr[i]? = some a ∧ s.tr[j]? = some b ∧ Spec.RwcRace a.line b.line) ?_ ?_ h
    · rintro s act s' ⟨hi, hs⟩ hst
      refine ⟨CMInv.step hi hst, ?_⟩
      rcases cmStep_cases hi.1 hst with ⟨l, q⟩ | ⟨g, b, m, h1, _⟩
      · intro x i j ⟨hij, ⟨a, b, ha, hb, hc⟩, hn⟩
        obtain ⟨w, v, p, q', e1, e2, _⟩ := id hc
        rw [q.tr] at ha hb hn
        have ha' := (snocs ha).resolve_right fun h => q.na a h _ _ _ e1
        have hb' := (snocs hb).resolve_right fun h => q.na b h _ _ _ e2
        obtain ⟨hx, a', b', h3, h4, h5⟩ := hs x i j ⟨hij, ⟨a, b, ha', hb', hc⟩, fun h => hn (HB.mono h l)⟩
        rw [q.tr]
        exact ⟨hx, a', b', getElem?_append_of_some h3 l, getElem?_append_of_some h4 l, h5⟩
      · intro x i j hr
        rw [h1] at hr ⊢
        rcases new_race hr with hr | ⟨rfl, a, ha, hc, hk⟩
        · obtain ⟨hx, a', b', h3, h4, h5⟩ := hs x i j hr
          exact ⟨hx, a', b', getElem?_append_of_some h3 _, getElem?_append_of_some h4 _, h5⟩
        · obtain ⟨hx, h2⟩ := makes_race hi m ha hc hk
          exact ⟨hx, a, ⟨g, .acc b.x b.w b.a, b.line⟩, getElem?_append_of_some ha _, by simp, h2⟩
    · refine ⟨⟨CMCtl.init d, CMKn.init d⟩, ?_⟩
      rintro x i j ⟨hij, ⟨a, b, ha, hb, hc⟩, hn⟩
      exact absurd (.program hij ha hb
        ((cmInit_all a (List.mem_of_getElem? ha)).trans (cmInit_all b (List.mem_of_getElem? hb)).symm)) hn
  exact key.2 x i j hr

/-- **C117 (partial)**. However a client connection is used, and however its goroutines are interleaved: the accesses to its fields other
than `rwc` - the table of responses, the contexts and the writer of the current transport connection, its wait group, the stream table, the
batch under construction, the position in the address list - are free of data races; on `rwc` the only races are of the reader's first
two reads, which are made without the mutex, with the write of `closeRWC`, and of `GetReusedCon`, which does not lock. -/
theorem C117_partial {r d : Bool} {acts : List CMAct} {s : CMSt} (h : cmRun r d acts = some s) :
    (∀ x, x ≠ .rwc → RaceFree s.tr x) ∧
    ∀ i j, Race s.tr .rwc i j → ∃ a b, s.tr[i]? = some a ∧ s.tr[j]? = some b ∧ Spec.RwcRace a.line b.line :=
  ⟨fun _ hx _ _ hr => hx (cm_races h hr).1, fun _ _ hr => (cm_races h hr).2⟩

/-- The connection comes up and is closed at once. -/
def cmUp : List CMAct := [.lAcc, .lMv .mk, .lAcc, .lAcc, .lMv .goW, .lAcc, .lMv .await]

def cmStart : List CMAct := cmUp ++ [.closeBy (.user 0), .lAcc, .lMv .lock2, .lMv .close, .rAcc, .rAcc, .lAcc, .lAcc]

/-- **C117 is false**: a connection that is closed while its reader starts. -/
theorem C117_refuted : ∃ acts s i j a b, cmRun false true acts = some s ∧ Race s.tr .rwc i j ∧ s.tr[i]? = some a ∧ s.tr[j]? = some b ∧
    a.g = .reader 0 ∧ a.line = 482 ∧ b.g = .loop ∧ b.line = 437 := by
  have h1 : ((cmRun false true cmStart).get (by decide +kernel)).tr[23]? = some ⟨.reader 0, .acc .rwc false false, 482⟩ := by decide +kernel
  have h2 : ((cmRun false true cmStart).get (by decide +kernel)).tr[25]? = some ⟨.loop, .acc .rwc true false, 437⟩ := by decide +kernel
  refine ⟨cmStart, (cmRun false true cmStart).get (by decide +kernel), 23, 25, _, _, (Option.some_get _).symm,
    ⟨by decide, ⟨_, _, h1, h2, ?_⟩, ?_⟩, h1, h2, rfl, rfl, rfl, rfl⟩
  · exact ⟨false, true, false, false, rfl, rfl, .inr rfl, by decide⟩
  · exact not_HB_of_closed [] (by decide +kernel) (by decide)

/-- Another goroutine calls GetReusedCon while the connection is being lost. -/
def cmReused : List CMAct := cmUp ++ [.rAcc, .rAcc, .rMv .init, .rAcc, .rAcc, .rMv .read, .rAcc, .rMv .fin, .rMv .last, .reused 0,
  .lAcc, .lMv .lock2, .lMv .close, .lAcc, .lAcc]

/-- And GetReusedCon races with the end of any transport connection. -/
theorem C117_refuted_reused : ∃ acts s i j a b, cmRun true true acts = some s ∧ Race s.tr .rwc i j ∧ s.tr[i]? = some a ∧
    s.tr[j]? = some b ∧ a.g = .user 0 ∧ a.line = 25 ∧ b.g = .loop ∧ b.line = 437 := by
  have h1 : ((cmRun true true cmReused).get (by decide +kernel)).tr[23]? = some ⟨.user 0, .acc .rwc false false, 25⟩ := by decide +kernel
  have h2 : ((cmRun true true cmReused).get (by decide +kernel)).tr[28]? = some ⟨.loop, .acc .rwc true false, 437⟩ := by decide +kernel
  refine ⟨cmReused, (cmRun true true cmReused).get (by decide +kernel), 23, 28, _, _, (Option.some_get _).symm,
    ⟨by decide, ⟨_, _, h1, h2, ?_⟩, ?_⟩, h1, h2, rfl, rfl, rfl, rfl⟩
  · exact ⟨false, true, false, false, rfl, rfl, .inr rfl, by decide⟩
  · exact not_HB_of_closed [] (by decide +kernel) (by decide)

/-- A connection that goes down after a response, a request of the server and a batch, and comes up again: the executions `C117_partial`
speaks of include this one, in which all the fields are used by all the goroutines of two transport connections. -/
def cmLife : List CMAct := cmUp ++ [.share 0 1, .load (.user 1),
  .wAcc, .wMv .reset, .wAcc, .wMv .collect, .wAcc, .wAcc, .wAcc, .wAcc, .wMv .batch, .wAcc,
  .rAcc, .rAcc, .rMv .init, .rAcc, .rAcc, .rMv .read, .rAcc,
  .wMv .locked, .wAcc, .wMv .reg, .wAcc, .wAcc, .wSkip, .wMv .write, .wAcc, .wAcc, .wMv .after, .wAcc, .wMv .reset,
  .rMv .table, .rAcc, .rMv .del, .rAcc, .rMv .read, .rAcc,
  .rMv .table, .rAcc, .rMv .nf, .rAcc, .rMv .handle, .rAcc, .rMv .read, .load (.handler 0), .rAcc,
  .rMv .fin, .rMv .last, .rMv .dead, .lAcc, .lMv .lock2, .lMv .close, .lAcc, .lAcc, .lAcc, .lAcc, .lMv .join, .lAcc,
  .wAcc, .wMv .collect, .wAcc, .wSkip, .wSkip, .wSkip, .wMv .abort, .wAcc, .wMv .fin, .wMv .last, .wMv .dead, .hEnd 0, .lMv .endc, .lAcc, .lAcc, .lMv .connect, .lAcc,
  .lMv .dial, .lAcc, .lAcc, .lMv .store, .lAcc, .lAcc, .lAcc, .lAcc, .lMv .mk, .lAcc, .lAcc, .lMv .goW, .lAcc, .lMv .await, .rAcc, .wAcc]

example : (cmRun true true cmLife).map (fun s => (s.n, s.lph, s.rph, s.wph, s.tr.length)) = some (1, .await, .check, .start, 88) := by
  decide +kernel

end Qrpc
