import Verif.Model.ServerMem
import Verif.Lemmas.Mem
/-!
# C119 A server's fields are used without data races
-/
namespace Qrpc
open Spec

/-! ## Control -/

/-- Phases with the lock. -/
def NPh.mu : NPh → Bool
  | .add1 | .rem1 | .sh1 | .sh2 | .shW | .sh3 | .os1 | .os2 => true
  | _ => false

/-- Phases that are reached only before Shutdown, and only after. -/
def NPh.before : NPh → Bool
  | .sh2 | .shW | .os2 => true
  | _ => false

def NPh.after : NPh → Bool
  | .sh4 | .hook => true
  | _ => false

def nEdge (p : NPh) : Option Bool × NSync × NPh → Bool
  | (c, .none, q) => q.mu == p.mu && (!q.before || p.before || c == some false) && (!q.after || p.after) && q != .add && (q != .la || p == .la)
  | (_, .lock _, q) => !p.mu && q.mu && !q.before && !q.after && q != .la && q != .sh3
  | (_, .unlock _, q) => p.mu && !q.mu && !q.before && (!q.after || p == .sh3) && q != .la && q != .sh3

theorem nNext_ok (p : NPh) : ∀ e ∈ p.next, nEdge p e = true := by cases p <;> decide
theorem nCalls_ok (p : NPh) : p.calls = true → p.mu = false ∧ p.before = false ∧ p ≠ .la ∧ p ≠ .sh3 ∧ p.block = [] := by cases p <;> decide
theorem nEntry_ok (p : NPh) : p.entry = true → p.mu = false ∧ p.before = false ∧ p.after = false ∧ p ≠ .sh3 := by cases p <;> decide

theorem nBlock (p : NPh) : ∀ a ∈ p.block, (a.x ≠ .ln → a.line ≠ 536 → p.mu = true) ∧ (a.line = 536 → a.x = .hooks ∧ a.w = false ∧ p.after = true) ∧
    (a.x = .hooks → a.w = true → p.before = true) ∧ (a.x = .ln → a.w = true → p = .la ∧ a.line = 220) ∧ (a.line = 220 → p = .la) ∧
    (p = .sh3 → a.x = .done ∧ a.w = true) ∧ ((a.x = .done ∧ a.w = true) → p = .sh3) := by
  cases p <;> decide

theorem setN_self (f : Nat → List NFr) (g : Nat) (l : List NFr) : setN f g l g = l := by simp [setN]
theorem setN_ne (f : Nat → List NFr) {g g' : Nat} (l : List NFr) (h : g' ≠ g) : setN f g l g' = f g' := by simp [setN, h]

structure NCtl (s : NSt) : Prop where
  low : ∀ g f fs, s.stk g = f :: fs → ∀ f' ∈ fs, f'.ph.calls = true
  muT : ∀ g f fs, s.stk g = f :: fs → f.ph.mu = true → s.mu = some g
  todo : ∀ g, ∀ f ∈ s.stk g, ∀ a ∈ f.todo, a ∈ f.ph.block
  live : ∀ g, s.stk g ≠ [] → g ∈ s.us
  bef : ∀ g f fs, s.stk g = f :: fs → f.ph.before = true → s.done = false
  d3 : ∀ g f fs, s.stk g = f :: fs → f.ph = .sh3 → f.todo = [] → s.done = true
  aft : ∀ g, ∀ f ∈ s.stk g, f.ph.after = true → s.done = true
  la : s.wild = false → ∀ g, ∀ f ∈ s.stk g, f.ph = .la → s.us = [0]

theorem NCtl.init : NCtl NSt.init := by
  constructor <;> simp [NSt.init]

/-- A change of the innermost call. -/
theorem NCtl.top {s s' : NSt} {g : Nat} {f f' : NFr} {fs : List NFr} (h : NCtl s) (hg : s.stk g = f :: fs)
    (hstk : s'.stk = setN s.stk g (f' :: fs)) (hus : s'.us = s.us) (hw : s'.wild = s.wild)
    (hd : s'.done = s.done ∨ (s'.done = true ∧ f'.ph = .sh3 ∧ f.ph = .sh3))
    (ht : ∀ a ∈ f'.todo, a ∈ f'.ph.block) (hm : f'.ph.mu = true → s'.mu = some g) (hmo : ∀ g', g' ≠ g → s.mu = some g' → s'.mu = some g')
    (hb : f'.ph.before = true → s'.done = false) (h3 : f'.ph = .sh3 → f'.todo = [] → s'.done = true)
    (ha : f'.ph.after = true → s'.done = true) (hl : f'.ph = .la → f.ph = .la) : NCtl s' := by
  obtain ⟨c1, c2, c3, c4, c5, c6, c7, c8⟩ := h
  have hmono : s.done = true → s'.done = true := by
    intro h; rcases hd with hd | hd
    · rw [hd, h]
    · exact hd.1
  refine ⟨?_, ?_, ?_, ?_, ?_, ?_, ?_, ?_⟩
  · intro g' k ks hk
    by_cases e : g' = g
    · subst e; rw [hstk, setN_self] at hk; cases hk; exact c1 g' f _ hg
    · rw [hstk, setN_ne _ _ e] at hk; exact c1 g' k ks hk
  · intro g' k ks hk hp
    by_cases e : g' = g
    · subst e; rw [hstk, setN_self] at hk; cases hk; exact hm hp
    · rw [hstk, setN_ne _ _ e] at hk; exact hmo g' e (c2 g' k ks hk hp)
  · intro g' k hk
    by_cases e : g' = g
    · subst e; rw [hstk, setN_self] at hk
      rcases List.mem_cons.1 hk with rfl | hk
      · exact ht
      · exact c3 g' k (by rw [hg]; exact .tail _ hk)
    · rw [hstk, setN_ne _ _ e] at hk; exact c3 g' k hk
  · intro g' hn
    rw [hus]
    by_cases e : g' = g
    · subst e; exact c4 g' (by rw [hg]; simp)
    · rw [hstk, setN_ne _ _ e] at hn; exact c4 g' hn
  · intro g' k ks hk hp
    by_cases e : g' = g
    · subst e; rw [hstk, setN_self] at hk; cases hk; exact hb hp
    · rw [hstk, setN_ne _ _ e] at hk
      rcases hd with hd | hd
      · rw [hd]; exact c5 g' k ks hk hp
      · have h1 := c2 g _ _ hg (by rw [hd.2.2]; rfl)
        have h2 := c2 g' _ _ hk (by cases hq : k.ph <;> rw [hq] at hp <;> simp_all [NPh.before, NPh.mu])
        rw [h1] at h2; cases h2; exact absurd rfl e
  · intro g' k ks hk hp hn
    by_cases e : g' = g
    · subst e; rw [hstk, setN_self] at hk; cases hk; exact h3 hp hn
    · rw [hstk, setN_ne _ _ e] at hk; exact hmono (c6 g' k ks hk hp hn)
  · intro g' k hk hp
    by_cases e : g' = g
    · subst e; rw [hstk, setN_self] at hk
      rcases List.mem_cons.1 hk with rfl | hk
      · exact ha hp
      · exact hmono (c7 g' k (by rw [hg]; exact .tail _ hk) hp)
    · rw [hstk, setN_ne _ _ e] at hk; exact hmono (c7 g' k hk hp)
  · intro hw' g' k hk hp
    rw [hw] at hw'; rw [hus]
    by_cases e : g' = g
    · subst e; rw [hstk, setN_self] at hk
      rcases List.mem_cons.1 hk with rfl | hk
      · exact c8 hw' g' f (by rw [hg]; simp) (hl hp)
      · exact c8 hw' g' k (by rw [hg]; exact .tail _ hk) hp
    · rw [hstk, setN_ne _ _ e] at hk; exact c8 hw' g' k hk hp

theorem nMayCall_live {s : NSt} (c : NCtl s) {g : Nat} (h : s.mayCall g = true) : g ∈ s.us := by
  unfold NSt.mayCall at h
  split at h
  · rename_i f fs he; exact c.live g (by rw [he]; simp)
  · simpa using h

theorem nMayCall_low {s : NSt} (c : NCtl s) {g : Nat} (h : s.mayCall g = true) : ∀ f ∈ s.stk g, f.ph.calls = true := by
  unfold NSt.mayCall at h
  split at h
  · rename_i f fs he
    intro k hk; rw [he] at hk
    rcases List.mem_cons.1 hk with rfl | hk
    · exact h
    · exact c.low g f fs he k hk
  · rename_i he; intro k hk; rw [he] at hk; cases hk

theorem nSync_rest {s s' : NSt} {g : Nat} {y : NSync} (h : s.sync g y = some s') :
    s'.stk = s.stk ∧ s'.us = s.us ∧ s'.done = s.done ∧ s'.wild = s.wild := by
  cases y <;> simp only [NSt.sync, NSt.emit] at h
  all_goals (try split at h) <;> try cases h
  all_goals exact ⟨rfl, rfl, rfl, rfl⟩

theorem NCtl.step {s s' : NSt} {a : NAct} (h : NCtl s) (hs : nmStep s a = some s') : NCtl s' := by
  cases a with
  | acc g =>
    simp only [nmStep] at hs
    split at hs <;> cases hs
    rename_i p b r fs hg
    have hb := nBlock p b (h.todo g ⟨p, b :: r⟩ (by rw [hg]; exact .head _) b (.head _))
    have hin := h.todo g _ (by rw [hg]; exact .head _)
    refine h.top (f' := ⟨p, r⟩) hg rfl rfl rfl ?_ (fun a ha => hin a (.tail _ ha)) (fun hp => h.muT g _ _ hg hp) (fun _ _ h => h) ?_ ?_ ?_ (fun h => h)
    · cases hd : (b.x == .done && b.w)
      · left; show (s.done || _) = _; simp
      · right
        simp only [Bool.and_eq_true, beq_iff_eq] at hd
        refine ⟨?_, hb.2.2.2.2.2.2 hd, hb.2.2.2.2.2.2 hd⟩
        show (s.done || _) = _; simp
    · intro hp
      have hd := h.bef g _ _ hg hp
      show (s.done || _) = _
      rw [hd]
      cases hx : (b.x == .done && b.w) with
      | false => rfl
      | true =>
        simp only [Bool.and_eq_true, beq_iff_eq] at hx
        have := hb.2.2.2.2.2.2 hx; simp only at hp; rw [this] at hp; cases hp
    · intro hp _
      have := hb.2.2.2.2.2.1 hp
      show (s.done || _) = _; simp [this]
    · intro hp
      have := h.aft g ⟨p, b :: r⟩ (by rw [hg]; exact .head _) hp
      show (s.done || _) = _; simp [this]
  | mv g k =>
    simp only [nmStep] at hs
    split at hs <;> try cases hs
    rename_i p fs hg
    split at hs <;> try cases hs
    rename_i c y p' he
    split at hs <;> try cases hs
    rename_i hc
    cases hy : s.sync g y with
    | none => rw [hy] at hs; cases hs
    | some s1 =>
      rw [hy] at hs; cases hs
      have hok := nNext_ok p _ (List.mem_of_getElem? he)
      obtain ⟨r1, r2, r3, r4⟩ := nSync_rest hy
      have hm := h.muT g _ _ hg
      have hbf := h.bef g _ _ hg
      have haf := h.aft g _ (by rw [hg]; exact .head _)
      have hd3 := h.d3 g _ _ hg
      simp only at hm hbf haf hd3
      refine h.top (f' := ⟨p', p'.block⟩) hg (by show setN s1.stk g _ = _; rw [r1]) r2 r4 (.inl r3) (fun a ha => ha) ?_ ?_ ?_ ?_ ?_ ?_
      all_goals cases y <;> simp only [NSt.sync, NSt.emit] at hy
      all_goals (try split at hy) <;> try cases hy
      all_goals simp only [nEdge, Bool.and_eq_true, Bool.or_eq_true, beq_iff_eq, Bool.not_eq_true', bne_iff_ne] at hok
      all_goals simp_all [NSt.put]
      all_goals grind [NPh.block, NPh.mu]
  | call g p =>
    simp only [nmStep] at hs
    split at hs <;> cases hs
    rename_i hc
    have hl := nMayCall_live h hc.1
    have hlow := nMayCall_low h hc.1
    have hen := nEntry_ok p hc.2
    obtain ⟨c1, c2, c3, c4, c5, c6, c7, c8⟩ := h
    refine ⟨?_, ?_, ?_, ?_, ?_, ?_, ?_, ?_⟩
    · intro g' k ks hk
      by_cases e : g' = g
      · subst e; simp only [NSt.put, setN_self] at hk; cases hk; exact hlow
      · simp only [NSt.put, setN_ne _ _ e] at hk; exact c1 g' k ks hk
    · intro g' k ks hk hp
      by_cases e : g' = g
      · subst e; simp only [NSt.put, setN_self] at hk; cases hk; rw [hen.1] at hp; cases hp
      · simp only [NSt.put, setN_ne _ _ e] at hk; exact c2 g' k ks hk hp
    · intro g' k hk
      by_cases e : g' = g
      · subst e; simp only [NSt.put, setN_self] at hk
        rcases List.mem_cons.1 hk with rfl | hk
        · exact fun a ha => ha
        · exact c3 g' k hk
      · simp only [NSt.put, setN_ne _ _ e] at hk; exact c3 g' k hk
    · intro g' hn
      by_cases e : g' = g
      · subst e; exact hl
      · simp only [NSt.put, setN_ne _ _ e] at hn; exact c4 g' hn
    · intro g' k ks hk hp
      by_cases e : g' = g
      · subst e; simp only [NSt.put, setN_self] at hk; cases hk; rw [hen.2.1] at hp; cases hp
      · simp only [NSt.put, setN_ne _ _ e] at hk; exact c5 g' k ks hk hp
    · intro g' k ks hk hp hn
      by_cases e : g' = g
      · subst e; simp only [NSt.put, setN_self] at hk; cases hk; exact absurd hp hen.2.2.2
      · simp only [NSt.put, setN_ne _ _ e] at hk; exact c6 g' k ks hk hp hn
    · intro g' k hk hp
      by_cases e : g' = g
      · subst e; simp only [NSt.put, setN_self] at hk
        rcases List.mem_cons.1 hk with rfl | hk
        · rw [hen.2.2.1] at hp; cases hp
        · exact c7 g' k hk hp
      · simp only [NSt.put, setN_ne _ _ e] at hk; exact c7 g' k hk hp
    · intro hw g' k hk hp
      simp only [Bool.or_eq_false_iff] at hw
      by_cases e : g' = g
      · subst e; simp only [NSt.put, setN_self] at hk
        rcases List.mem_cons.1 hk with rfl | hk
        · simp only at hp; subst hp; simpa [NSt.put] using hw.2
        · exact c8 hw.1 g' k hk hp
      · simp only [NSt.put, setN_ne _ _ e] at hk; exact c8 hw.1 g' k hk hp
  | ret g =>
    simp only [nmStep] at hs
    split at hs <;> cases hs
    rename_i td fs hg
    obtain ⟨c1, c2, c3, c4, c5, c6, c7, c8⟩ := h
    have hlow := c1 g _ _ hg
    have sub : ∀ {g' : Nat} {k : NFr}, k ∈ setN s.stk g fs g' → k ∈ s.stk g' := by
      intro g' k hk
      by_cases e : g' = g
      · subst e; rw [setN_self] at hk; rw [hg]; exact .tail _ hk
      · rw [setN_ne _ _ e] at hk; exact hk
    have top : ∀ {g' : Nat} {k : NFr} {ks : List NFr}, setN s.stk g fs g' = k :: ks → s.stk g' = k :: ks ∨ (g' = g ∧ k.ph.calls = true ∧ ∀ f ∈ ks, f.ph.calls = true) := by
      intro g' k ks hk
      by_cases e : g' = g
      · subst e; rw [setN_self] at hk
        exact .inr ⟨rfl, hlow k (by rw [hk]; simp), fun f hf => hlow f (by rw [hk]; exact .tail _ hf)⟩
      · rw [setN_ne _ _ e] at hk; exact .inl hk
    refine ⟨?_, ?_, ?_, ?_, ?_, ?_, ?_, ?_⟩
    · intro g' k ks hk
      rcases top hk with h1 | h1
      · exact c1 g' k ks h1
      · exact h1.2.2
    · intro g' k ks hk hp
      rcases top hk with h1 | h1
      · exact c2 g' k ks h1 hp
      · rw [(nCalls_ok _ h1.2.1).1] at hp; cases hp
    · exact fun g' k hk => c3 g' k (sub hk)
    · intro g' hn
      by_cases e : g' = g
      · subst e; exact c4 g' (by rw [hg]; simp)
      · simp only [NSt.put, setN_ne _ _ e] at hn; exact c4 g' hn
    · intro g' k ks hk hp
      rcases top hk with h1 | h1
      · exact c5 g' k ks h1 hp
      · rw [(nCalls_ok _ h1.2.1).2.1] at hp; cases hp
    · intro g' k ks hk hp hn
      rcases top hk with h1 | h1
      · exact c6 g' k ks h1 hp hn
      · exact absurd hp (nCalls_ok _ h1.2.1).2.2.2.1
    · exact fun g' k hk hp => c7 g' k (sub hk) hp
    · exact fun hw g' k hk hp => c8 hw g' k (sub hk) hp
  | share g j =>
    simp only [nmStep] at hs
    split at hs <;> cases hs
    rename_i hc
    have hl := nMayCall_live h hc.1
    have hlow := nMayCall_low h hc.1
    obtain ⟨c1, c2, c3, c4, c5, c6, c7, c8⟩ := h
    refine ⟨c1, c2, c3, fun g hg => .tail _ (c4 g hg), c5, c6, c7, ?_⟩
    intro hw g' k hk hp
    exfalso
    have h1 := c8 hw g' k hk hp
    have hk : k ∈ s.stk g' := hk
    have h2 := c4 g' (by intro e; rw [e] at hk; cases hk)
    rw [h1] at hl h2
    have e1 : g = 0 := by simpa using hl
    have e2 : g' = 0 := by simpa using h2
    rw [e2, ← e1] at hk
    exact (nCalls_ok _ (hlow k hk)).2.2.1 hp

/-! ## Who knows what -/

structure NKn (s : NSt) : Prop where
  le : nmInit.length ≤ s.tr.length
  ini : ∀ i, i < nmInit.length → ∀ g ∈ s.us, Knows s.tr g i
  evl : ∀ (i : Nat) (a : NEv), s.tr[i]? = some a → a.g ∈ s.us
  nat : ∀ (i : Nat) (a : NEv) (x : NX) (w p : Bool), s.tr[i]? = some a → a.op = .acc x w p → a.line = 536 → x = .hooks ∧ w = false ∧ s.done = true
  kmu : ∀ (i : Nat) (a : NEv) (x : NX) (w p : Bool), s.tr[i]? = some a → a.op = .acc x w p → x ≠ .ln → a.line ≠ 536 →
    i < nmInit.length ∨ ((s.mu = none → KnowsO s.tr .mu i) ∧ ∀ g, s.mu = some g → Knows s.tr g i)
  khk : ∀ (i : Nat) (a : NEv) (p : Bool), s.tr[i]? = some a → a.op = .acc .hooks true p →
    ∀ g, ∀ f ∈ s.stk g, f.ph.after = true → Knows s.tr g i
  lnw : ∀ (i : Nat) (a : NEv) (p : Bool), s.tr[i]? = some a → a.op = .acc .ln true p → i < nmInit.length ∨ a.line = 220
  kln : s.wild = false → ∀ (i : Nat) (a : NEv) (p : Bool), s.tr[i]? = some a → a.op = .acc .ln true p → ∀ g ∈ s.us, Knows s.tr g i

/-- A step that accesses no field. -/
structure NQuiet (s s' : NSt) (l : List NEv) : Prop where
  tr : s'.tr = s.tr ++ l
  na : ∀ e ∈ l, ∀ x w p, e.op ≠ .acc x w p
  ev : ∀ e ∈ l, e.g ∈ s'.us
  us : ∀ g ∈ s'.us, g ∈ s.us ∨ ∃ e ∈ l, e.g ∈ s.us ∧ e.op = .go g
  um : ∀ g ∈ s.us, g ∈ s'.us
  mu : s'.mu = s.mu ∨ (∃ g, s.mu = none ∧ s'.mu = some g ∧ ∃ e ∈ l, e.g = g ∧ e.op = .acq .mu) ∨
    (∃ g, s.mu = some g ∧ s'.mu = none ∧ ∃ e ∈ l, e.g = g ∧ e.op = .rel .mu)
  dn : s'.done = s.done
  af : ∀ g, ∀ f ∈ s'.stk g, f.ph.after = true → (∃ f ∈ s.stk g, f.ph.after = true) ∨ (s.mu = some g ∧ g ∈ s.us)
  wl : s'.wild = false → s.wild = false

theorem NKn.quiet {s s' : NSt} {l : List NEv} (h : NKn s) (q : NQuiet s s' l) : NKn s' := by
  have htr := q.tr
  have old : ∀ {i : Nat} {a : NEv} {x : NX} {w p : Bool}, s'.tr[i]? = some a → a.op = .acc x w p → s.tr[i]? = some a := by
    intro i a x w p h1 h2
    rw [htr] at h1
    rcases snocs h1 with h1 | h1
    · exact h1
    · exact absurd h2 (q.na a h1 x w p)
  have hk : ∀ {g : Nat} {i : Nat}, Knows s.tr g i → Knows s'.tr g i := fun h => htr ▸ h.mono l
  have all : ∀ {i : Nat}, (∀ g ∈ s.us, Knows s.tr g i) → ∀ g ∈ s'.us, Knows s'.tr g i := by
    intro i h1 g hg
    rcases q.us g hg with h2 | ⟨e, he, h2, h3⟩
    · exact hk (h1 g h2)
    · exact htr ▸ Knows.go_in (h1 _ h2) h3 he
  refine ⟨?_, fun i hi => all (h.ini i hi), ?_, ?_, ?_, ?_, ?_, ?_⟩
  · rw [htr, List.length_append]; exact Nat.le_trans h.le (Nat.le_add_right _ _)
  · intro i a ha
    rw [htr] at ha
    rcases snocs ha with ha | ha
    · exact q.um _ (h.evl i a ha)
    · exact q.ev a ha
  · intro i a x w p h1 h2 h3; rw [q.dn]; exact h.nat i a x w p (old h1 h2) h2 h3
  · intro i a x w p h1 h2 h3 h4
    refine (h.kmu i a x w p (old h1 h2) h2 h3 h4).imp id ?_
    rintro ⟨k1, k2⟩
    rcases q.mu with m | ⟨g, m1, m2, e, he, e1, e2⟩ | ⟨g, m1, m2, e, he, e1, e2⟩
    · exact ⟨fun h => htr ▸ (k1 (m ▸ h)).mono l, fun g hg => hk (k2 g (m ▸ hg))⟩
    · refine ⟨fun h => ?_, fun g' hg => ?_⟩
      · rw [m2] at h; cases h
      · rw [m2] at hg; cases hg
        exact htr ▸ e1 ▸ (k1 m1).acq_in e2 he
    · refine ⟨fun _ => htr ▸ Knows.rel_in (e1 ▸ k2 g m1) e2 he, fun g' hg => ?_⟩
      rw [m2] at hg; cases hg
  · intro i a p h1 h2 g f hf hp
    rcases q.af g f hf hp with ⟨f', hf', hp'⟩ | ⟨hm, hlive⟩
    · exact hk (h.khk i a p (old h1 h2) h2 g f' hf' hp')
    · refine hk ?_
      have hl : a.line ≠ 536 := fun h3 => absurd (h.nat i a _ _ p (old h1 h2) h2 h3).2.1 (by decide)
      rcases h.kmu i a _ _ p (old h1 h2) h2 (by decide) hl with h3 | h3
      · exact h.ini i h3 g hlive
      · exact h3.2 g hm
  · exact fun i a p h1 h2 => h.lnw i a p (old h1 h2) h2
  · exact fun hw i a p h1 h2 => all (h.kln (q.wl hw) i a p (old h1 h2) h2)

theorem nStep_quiet {s s' : NSt} {a : NAct} (c : NCtl s) (hs : nmStep s a = some s') (ha : ∀ g, a ≠ .acc g) : ∃ l, NQuiet s s' l := by
  cases a with
  | acc g => exact absurd rfl (ha g)
  | mv g k =>
    simp only [nmStep] at hs
    split at hs <;> try cases hs
    rename_i p fs hg
    split at hs <;> try cases hs
    rename_i cd y p' he
    split at hs <;> try cases hs
    rename_i hc
    cases hy : s.sync g y with
    | none => rw [hy] at hs; cases hs
    | some s1 =>
      rw [hy] at hs; cases hs
      have hok := nNext_ok p _ (List.mem_of_getElem? he)
      obtain ⟨r1, r2, r3, r4⟩ := nSync_rest hy
      have hm := c.muT g _ _ hg
      have hl := c.live g (by rw [hg]; simp)
      have haf : ∀ g', ∀ f ∈ (s1.put g (⟨p', p'.block⟩ :: fs)).stk g', f.ph.after = true →
          (∃ f ∈ s.stk g', f.ph.after = true) ∨ (s.mu = some g' ∧ g' ∈ s.us) := by
        intro g' f hf hp
        by_cases e : g' = g
        · subst e
          simp only [NSt.put, setN_self] at hf
          rcases List.mem_cons.1 hf with rfl | hf
          · simp only at hp hm
            cases hpa : p.after with
            | true => exact .inl ⟨_, by rw [hg]; exact .head _, hpa⟩
            | false =>
              refine .inr ⟨hm ?_, hl⟩
              cases y <;> simp only [nEdge, Bool.and_eq_true, Bool.or_eq_true, beq_iff_eq, Bool.not_eq_true', bne_iff_ne] at hok
              · simp_all
              · simp_all
              · exact hok.1.1.1.1.1
          · exact .inl ⟨f, by rw [hg]; exact .tail _ hf, hp⟩
        · simp only [NSt.put, setN_ne _ _ e, r1] at hf; exact .inl ⟨f, hf, hp⟩
      cases y with
      | none =>
        cases hy
        exact ⟨[], (List.append_nil _).symm, by simp, by simp, fun g h => .inl h, fun g h => h, .inl rfl, rfl, haf, fun h => h⟩
      | lock ln =>
        simp only [NSt.sync, NSt.emit] at hy
        split at hy <;> try cases hy
        rename_i hmu
        exact ⟨[⟨g, .acq .mu, ln⟩], rfl, by simp, (fun e he => by cases List.mem_singleton.1 he; exact hl), fun g h => .inl h, fun g h => h,
          .inr (.inl ⟨g, hmu, rfl, _, .head _, rfl, rfl⟩), rfl, haf, fun h => h⟩
      | unlock ln =>
        cases hy
        simp only [nEdge, Bool.and_eq_true] at hok
        exact ⟨[⟨g, .rel .mu, ln⟩], rfl, by simp, (fun e he => by cases List.mem_singleton.1 he; exact hl), fun g h => .inl h, fun g h => h,
          .inr (.inr ⟨g, hm hok.1.1.1.1.1, rfl, _, .head _, rfl, rfl⟩), rfl, haf, fun h => h⟩
  | call g p =>
    simp only [nmStep] at hs
    split at hs <;> cases hs
    rename_i hc
    have hen := nEntry_ok p hc.2
    refine ⟨[], (List.append_nil _).symm, by simp, by simp, fun g h => .inl h, fun g h => h, .inl rfl, rfl, ?_, ?_⟩
    · intro g' f hf hp
      by_cases e : g' = g
      · subst e; simp only [NSt.put, setN_self] at hf
        rcases List.mem_cons.1 hf with rfl | hf
        · rw [hen.2.2.1] at hp; cases hp
        · exact .inl ⟨f, hf, hp⟩
      · simp only [NSt.put, setN_ne _ _ e] at hf; exact .inl ⟨f, hf, hp⟩
    · intro hw; simp only [Bool.or_eq_false_iff] at hw; exact hw.1
  | ret g =>
    simp only [nmStep] at hs
    split at hs <;> cases hs
    rename_i td fs hg
    refine ⟨[], (List.append_nil _).symm, by simp, by simp, fun g h => .inl h, fun g h => h, .inl rfl, rfl, ?_, fun h => h⟩
    intro g' f hf hp
    by_cases e : g' = g
    · subst e; simp only [NSt.put, setN_self] at hf
      exact .inl ⟨f, by rw [hg]; exact .tail _ hf, hp⟩
    · simp only [NSt.put, setN_ne _ _ e] at hf; exact .inl ⟨f, hf, hp⟩
  | share g j =>
    simp only [nmStep] at hs
    split at hs <;> cases hs
    rename_i hc
    have hl := nMayCall_live c hc.1
    refine ⟨[⟨g, .go j, 0⟩], rfl, by simp, by simpa using Or.inr hl, ?_, fun g h => .tail _ h, .inl rfl, rfl, fun g f hf hp => .inl ⟨f, hf, hp⟩, fun h => h⟩
    intro g' hg'
    rcases List.mem_cons.1 hg' with rfl | hg'
    · exact .inr ⟨_, .head _, hl, rfl⟩
    · exact .inl hg'

/-- An access: who makes it, and where. -/
theorem nStep_acc {s s' : NSt} {g : Nat} (hs : nmStep s (.acc g) = some s') :
    ∃ p b r fs, s.stk g = ⟨p, b :: r⟩ :: fs ∧ s'.tr = s.tr ++ [⟨g, .acc b.x b.w false, b.line⟩] ∧ s'.mu = s.mu ∧ s'.us = s.us ∧ s'.wild = s.wild ∧
      (s.done = true → s'.done = true) ∧ s'.stk = setN s.stk g (⟨p, r⟩ :: fs) := by
  simp only [nmStep] at hs
  split at hs <;> cases hs
  rename_i p b r fs hg
  exact ⟨p, b, r, fs, hg, rfl, rfl, rfl, rfl, fun h => by show (s.done || _) = true; simp [h], rfl⟩

theorem NKn.acc {s s' : NSt} {g : Nat} (c : NCtl s) (h : NKn s) (hs : nmStep s (.acc g) = some s') : NKn s' := by
  obtain ⟨p, b, r, fs, hg, htr, hmu, hus, hw, hd, hstk⟩ := nStep_acc hs
  have hb := nBlock p b (c.todo g ⟨p, b :: r⟩ (by rw [hg]; exact .head _) b (.head _))
  have hl := c.live g (by rw [hg]; simp)
  have hk : ∀ {g : Nat} {i : Nat}, Knows s.tr g i → Knows s'.tr g i := fun h => htr ▸ h.mono _
  have hnew : Knows s'.tr g s.tr.length := by rw [htr]; exact Knows.own' (a := ⟨g, .acc b.x b.w false, b.line⟩) (by simp) rfl
  have stk : ∀ {g' : Nat} {f : NFr}, f ∈ s'.stk g' → f.ph.after = true → ∃ f ∈ s.stk g', f.ph.after = true := by
    intro g' f hf hp
    rw [hstk] at hf
    by_cases e : g' = g
    · subst e; rw [setN_self] at hf
      rcases List.mem_cons.1 hf with rfl | hf
      · exact ⟨⟨p, b :: r⟩, by rw [hg]; exact .head _, hp⟩
      · exact ⟨f, by rw [hg]; exact .tail _ hf, hp⟩
    · rw [setN_ne _ _ e] at hf; exact ⟨f, hf, hp⟩
  refine ⟨?_, ?_, ?_, ?_, ?_, ?_, ?_, ?_⟩
  · rw [htr, List.length_append]; exact Nat.le_trans h.le (Nat.le_add_right _ _)
  · intro i hi g hg; exact hk (h.ini i hi g (hus ▸ hg))
  · intro i a ha
    rw [hus]; rw [htr] at ha
    rcases getElem?_snoc ha with ha | ⟨_, rfl⟩
    · exact h.evl i a ha
    · exact hl
  · intro i a x w q h1 h2 h3
    rw [htr] at h1
    rcases getElem?_snoc h1 with h1 | ⟨_, rfl⟩
    · obtain ⟨k1, k2, k3⟩ := h.nat i a x w q h1 h2 h3; exact ⟨k1, k2, hd k3⟩
    · cases h2
      obtain ⟨k1, k2, k3⟩ := hb.2.1 h3
      exact ⟨k1, k2, hd (c.aft g ⟨p, b :: r⟩ (by rw [hg]; exact .head _) k3)⟩
  · intro i a x w q h1 h2 h3 h4
    rw [htr] at h1
    rw [hmu]
    rcases getElem?_snoc h1 with h1 | ⟨rfl, rfl⟩
    · refine (h.kmu i a x w q h1 h2 h3 h4).imp id ?_
      rintro ⟨k1, k2⟩
      exact ⟨fun h => htr ▸ (k1 h).mono _, fun g hg => hk (k2 g hg)⟩
    · cases h2
      have hm := c.muT g _ _ hg (hb.1 h3 h4)
      refine .inr ⟨fun h => ?_, fun g' hg' => ?_⟩
      · rw [hm] at h; cases h
      · rw [hm] at hg'; cases hg'; exact hnew
  · intro i a q h1 h2 g' f hf hp
    obtain ⟨f', hf', hp'⟩ := stk hf hp
    rw [htr] at h1
    rcases getElem?_snoc h1 with h1 | ⟨rfl, rfl⟩
    · exact hk (h.khk i a q h1 h2 g' f' hf' hp')
    · injection h2 with e1 e2
      have h5 := c.bef g _ _ hg (hb.2.2.1 e1 e2)
      rw [c.aft g' f' hf' hp'] at h5; cases h5
  · intro i a q h1 h2
    rw [htr] at h1
    rcases getElem?_snoc h1 with h1 | ⟨rfl, rfl⟩
    · exact h.lnw i a q h1 h2
    · injection h2 with e1 e2
      exact .inr (hb.2.2.2.1 e1 e2).2
  · intro hw' i a q h1 h2 g' hg'
    rw [hw] at hw'; rw [hus] at hg'; rw [htr] at h1
    rcases getElem?_snoc h1 with h1 | ⟨rfl, rfl⟩
    · exact hk (h.kln hw' i a q h1 h2 g' hg')
    · injection h2 with e1 e2
      have h5 := c.la hw' g ⟨p, b :: r⟩ (by rw [hg]; exact .head _) (hb.2.2.2.1 e1 e2).1
      rw [h5] at hg' hl
      have e3 : g' = 0 := by simpa using hg'
      have e4 : g = 0 := by simpa using hl
      rw [e3, ← e4]; exact hnew

theorem NKn.step {s s' : NSt} {a : NAct} (c : NCtl s) (h : NKn s) (hs : nmStep s a = some s') : NKn s' := by
  by_cases ha : ∃ g, a = .acc g
  · obtain ⟨g, rfl⟩ := ha; exact h.acc c hs
  · obtain ⟨l, q⟩ := nStep_quiet c hs (fun g e => ha ⟨g, e⟩)
    exact h.quiet q

theorem NKn.init : NKn NSt.init := by
  refine ⟨Nat.le_refl _, ?_, ?_, ?_, ?_, ?_, ?_, ?_⟩
  · intro i hi g hg
    have e : g = 0 := by simpa [NSt.init] using hg
    subst e
    have : i = 0 ∨ i = 1 ∨ i = 2 ∨ i = 3 := by simp only [nmInit, List.length_cons, List.length_nil] at hi; omega
    rcases this with rfl | rfl | rfl | rfl
    all_goals exact Knows.own' (by simp only [NSt.init, nmInit]; rfl) rfl
  · intro i a ha
    have := List.mem_of_getElem? ha
    simp only [NSt.init, nmInit] at this ⊢
    simp at this
    rcases this with rfl | rfl | rfl | rfl <;> simp
  · intro i a x w p ha h2 h3
    exfalso
    have := List.mem_of_getElem? ha
    simp only [NSt.init, nmInit] at this
    simp at this
    rcases this with rfl | rfl | rfl | rfl <;> simp at h3
  · intro i a x w p ha _ _ _
    exact .inl (List.getElem?_eq_some_iff.1 ha).1
  · intro i a p _ _ g f hf; cases hf
  · intro i a p ha _
    exact .inl (List.getElem?_eq_some_iff.1 ha).1
  · intro _ i a p ha h2 g hg
    have e : g = 0 := by simpa [NSt.init] using hg
    subst e
    refine Knows.own' ha ?_
    have := List.mem_of_getElem? ha
    simp only [NSt.init, nmInit] at this
    simp at this
    rcases this with rfl | rfl | rfl | rfl <;> rfl

/-! ## Races -/

def NRaces (s : NSt) : Prop := ∀ x i j, Race s.tr x i j →
  x = .ln ∧ s.wild = true ∧ ∃ k e, (k = i ∨ k = j) ∧ s.tr[k]? = some e ∧ e.line = 220

theorem NRaces.step {s s' : NSt} {a : NAct} (c : NCtl s) (h : NKn s) (hr : NRaces s) (hs : nmStep s a = some s') : NRaces s' := by
  by_cases ha : ∃ g, a = .acc g
  · obtain ⟨g, rfl⟩ := ha
    obtain ⟨p, b, r, fs, hg, htr, hmu, hus, hw, hd, hstk⟩ := nStep_acc hs
    have hb := nBlock p b (c.todo g ⟨p, b :: r⟩ (by rw [hg]; exact .head _) b (.head _))
    have hl := c.live g (by rw [hg]; simp)
    intro x i j hx
    rw [htr] at hx
    rcases new_race hx with hx | ⟨rfl, a, ha, ⟨w, v, q1, q2, o1, o2, o3, _⟩, hn⟩
    · obtain ⟨h1, h2, k, e, h3, h4, h5⟩ := hr x i j hx
      exact ⟨h1, hw ▸ h2, k, e, h3, htr ▸ getElem?_append_of_some h4 _, h5⟩
    · injection o2 with e1 e2 e3
      have old : ¬ i < nmInit.length := fun hi => hn (h.ini i hi g hl)
      by_cases hx : x = .ln
      · subst hx
        refine ⟨rfl, ?_, ?_⟩
        · rw [hw]
          cases hwv : s.wild with
          | true => rfl
          | false =>
            exfalso
            rcases o3 with rfl | rfl
            · exact hn (h.kln hwv i a q1 ha o1 g hl)
            · have h5 := c.la hwv g ⟨p, b :: r⟩ (by rw [hg]; exact .head _) (hb.2.2.2.1 e1 e2).1
              have h6 := h.evl i a ha
              rw [h5] at h6 hl
              have e4 : a.g = 0 := by simpa using h6
              have e5 : g = 0 := by simpa using hl
              exact hn (Knows.own' ha (e4.trans e5.symm))
        · rcases o3 with rfl | rfl
          · exact ⟨i, a, .inl rfl, htr ▸ getElem?_append_of_some ha _, (h.lnw i a q1 ha o1).resolve_left old⟩
          · exact ⟨s.tr.length, ⟨g, .acc b.x b.w false, b.line⟩, .inr rfl, by rw [htr]; simp, (hb.2.2.2.1 e1 e2).2⟩
      · exfalso
        by_cases l1 : b.line = 536
        · obtain ⟨k1, k2, k3⟩ := hb.2.1 l1
          rw [e2] at k2
          subst k2
          have hw' : w = true := o3.resolve_right (by decide)
          subst hw'
          rw [e1] at k1; subst k1
          exact hn (h.khk i a q1 ha o1 g ⟨p, b :: r⟩ (by rw [hg]; exact .head _) k3)
        · by_cases l2 : a.line = 536
          · obtain ⟨k1, k2, k3⟩ := h.nat i a x w q1 ha o1 l2
            subst k1 k2
            have hv : v = true := o3.resolve_left (by decide)
            subst hv
            rw [c.bef g _ _ hg (hb.2.2.1 e1 e2)] at k3; cases k3
          · rcases h.kmu i a x w q1 ha o1 hx l2 with h5 | h5
            · exact old h5
            · exact hn (h5.2 g (c.muT g _ _ hg (hb.1 (by rw [e1]; exact hx) l1)))
  · obtain ⟨l, q⟩ := nStep_quiet c hs (fun g e => ha ⟨g, e⟩)
    intro x i j hx
    have hx' : Race s.tr x i j := by
      obtain ⟨hij, ⟨a, b, ha, hb, w, v, q1, q2, o1, o2, o3⟩, hnb⟩ := hx
      rw [q.tr] at ha hb
      refine ⟨hij, ⟨a, b, (snocs ha).resolve_right ?_, (snocs hb).resolve_right ?_, w, v, q1, q2, o1, o2, o3⟩, fun hh => hnb (q.tr ▸ HB.mono hh l)⟩
      · exact fun hm => q.na a hm _ _ _ o1
      · exact fun hm => q.na b hm _ _ _ o2
    obtain ⟨h1, h2, k, e, h3, h4, h5⟩ := hr x i j hx'
    refine ⟨h1, ?_, k, e, h3, q.tr ▸ getElem?_append_of_some h4 _, h5⟩
    cases hw : s'.wild with
    | true => rfl
    | false => rw [q.wl hw] at h2; cases h2

theorem n_races {acts : List NAct} {s : NSt} (h : nmRun acts = some s) : NRaces s :=
  (runActs_inv (P := fun s => NCtl s ∧ NKn s ∧ NRaces s)
    (fun _ _ _ h hs => ⟨h.1.step hs, h.2.1.step h.1 hs, h.2.2.step h.1 h.2.1 hs⟩) ⟨NCtl.init, NKn.init, by
      intro x i j ⟨hij, ⟨a, b, ha, hb, w, v, q1, q2, o1, o2, o3⟩, hn⟩
      exact absurd (HB.program hij ha hb ((NKn.init.evl i a ha |> List.mem_singleton.1).trans (NKn.init.evl j b hb |> List.mem_singleton.1).symm)) hn⟩ h).2.2

/-! ## ListenAll before the server is shared -/

def Spec.isShare : NAct → Bool
  | .share _ _ => true
  | _ => false

/-- Nobody calls ListenAll once another goroutine has got the server. -/
def Spec.ListenFirst (acts : List NAct) : Prop :=
  ∀ pre g post, acts = pre ++ .call g .la :: post → ∀ a ∈ pre, isShare a = false

theorem nStep_us {s s' : NSt} {a : NAct} (hs : nmStep s a = some s') : s'.us = s.us ∨ isShare a = true := by
  cases a with
  | share g j => exact .inr rfl
  | mv g k =>
    simp only [nmStep] at hs
    split at hs <;> try cases hs
    split at hs <;> try cases hs
    split at hs <;> try cases hs
    rename_i y p' _ _
    cases hy : s.sync g y with
    | none => rw [hy] at hs; cases hs
    | some s1 => rw [hy] at hs; cases hs; exact .inl (nSync_rest hy).2.1
  | acc g => simp only [nmStep] at hs; split at hs <;> cases hs; exact .inl rfl
  | call g p => simp only [nmStep] at hs; split at hs <;> cases hs; exact .inl rfl
  | ret g => simp only [nmStep] at hs; split at hs <;> cases hs; exact .inl rfl

theorem nStep_wild {s s' : NSt} {a : NAct} (hs : nmStep s a = some s') : s'.wild = s.wild ∨ (∃ g, a = .call g .la ∧ s.us ≠ [0]) := by
  cases a with
  | share g j => simp only [nmStep] at hs; split at hs <;> cases hs; exact .inl rfl
  | mv g k =>
    simp only [nmStep] at hs
    split at hs <;> try cases hs
    split at hs <;> try cases hs
    split at hs <;> try cases hs
    rename_i y p' _ _
    cases hy : s.sync g y with
    | none => rw [hy] at hs; cases hs
    | some s1 => rw [hy] at hs; cases hs; exact .inl (nSync_rest hy).2.2.2
  | acc g => simp only [nmStep] at hs; split at hs <;> cases hs; exact .inl rfl
  | call g p =>
    simp only [nmStep] at hs; split at hs <;> cases hs
    cases hx : (p == .la && s.us != [0])
    · left; show (s.wild || _) = _; simp
    · right; simp only [Bool.and_eq_true, beq_iff_eq, bne_iff_ne] at hx; exact ⟨g, by rw [hx.1], hx.2⟩
  | ret g => simp only [nmStep] at hs; split at hs <;> cases hs; exact .inl rfl

theorem n_wild : ∀ (acts : List NAct) (s s' : NSt), runActs nmStep s acts = some s' → s'.wild = true →
    s.wild = true ∨ ∃ pre g post, acts = pre ++ .call g .la :: post ∧ (s.us ≠ [0] ∨ ∃ a ∈ pre, isShare a = true)
  | [], s, s', h, hw => by cases h; exact .inl hw
  | a :: as, s, s', h, hw => by
    simp only [runActs] at h
    cases h1 : nmStep s a with
    | none => rw [h1] at h; cases h
    | some s1 =>
      rw [h1] at h
      rcases n_wild as s1 s' h hw with h2 | ⟨pre, g, post, rfl, h2⟩
      · rcases nStep_wild h1 with h3 | ⟨g, rfl, h3⟩
        · exact .inl (h3 ▸ h2)
        · exact .inr ⟨[], g, as, rfl, .inl h3⟩
      · refine .inr ⟨a :: pre, g, post, rfl, ?_⟩
        rcases h2 with h2 | ⟨b, hb, h2⟩
        · rcases nStep_us h1 with h3 | h3
          · exact .inl (h3 ▸ h2)
          · exact .inr ⟨a, .head _, h3⟩
        · exact .inr ⟨b, .tail _ hb, h2⟩

/-- **C119.** The listeners, the flag and the hooks of a server are used without data races, although Shutdown walks the hooks without the
lock (server.go:536); the listeners of the bindings too, if nobody calls ListenAll once another goroutine has the server. Partial: without
that, a race is one of the store in ListenAll (`C119_refuted_ln`). -/
theorem C119_partial {acts : List NAct} {s : NSt} (h : nmRun acts = some s) :
    (∀ x i j, x ≠ .ln → ¬ Race s.tr x i j) ∧
    (∀ i j, Race s.tr .ln i j → ∃ k e, (k = i ∨ k = j) ∧ s.tr[k]? = some e ∧ e.line = 220) ∧
    (ListenFirst acts → ∀ i j, ¬ Race s.tr .ln i j) := by
  have hr := n_races h
  refine ⟨fun x i j hx hy => hx (hr x i j hy).1, fun i j hy => (hr _ i j hy).2.2, fun hf i j hy => ?_⟩
  rcases n_wild acts _ _ h (hr _ i j hy).2.1 with h1 | ⟨pre, g, post, h1, h2⟩
  · cases h1
  · rcases h2 with h2 | ⟨a, ha, h2⟩
    · exact h2 rfl
    · rw [hf pre g post h1 a ha] at h2; cases h2

def nmLate : List NAct := [.share 0 1, .call 0 .la, .acc 0, .acc 0, .call 1 .bc, .acc 1]

/-- **C119 is false** of the listeners of the bindings: another goroutine asks for the configuration of a binding while ListenAll stores
the listener. -/
theorem C119_refuted_ln : ∃ acts s i j a b, nmRun acts = some s ∧ Race s.tr .ln i j ∧ s.tr[i]? = some a ∧ s.tr[j]? = some b ∧
    a.g = 0 ∧ a.line = 220 ∧ b.g = 1 ∧ b.line = 240 := by
  have h1 : ((nmRun nmLate).get (by decide +kernel)).tr[6]? = some ⟨0, .acc .ln true false, 220⟩ := by decide +kernel
  have h2 : ((nmRun nmLate).get (by decide +kernel)).tr[7]? = some ⟨1, .acc .ln false false, 240⟩ := by decide +kernel
  refine ⟨nmLate, (nmRun nmLate).get (by decide +kernel), 6, 7, _, _, (Option.some_get _).symm,
    ⟨by decide, ⟨_, _, h1, h2, ?_⟩, ?_⟩, h1, h2, rfl, rfl, rfl, rfl⟩
  · exact ⟨true, false, false, false, rfl, rfl, .inl rfl, by decide⟩
  · exact not_HB_of_closed [] (by decide +kernel) (by decide)

/-- ListenAll, then ServeAll with one goroutine that serves; a hook is registered; another goroutine shuts the server down and runs the
hook, which registers one more; the goroutine that serves forgets its listener. -/
def nmLife : List NAct :=
  [.call 0 .la, .acc 0, .acc 0, .mv 0 1, .ret 0, .call 0 .sa, .acc 0, .mv 0 0, .ret 0, .share 0 1, .call 1 .add, .mv 1 0, .acc 1, .mv 1 0,
   .call 1 .os, .mv 1 0, .acc 1, .mv 1 1, .acc 1, .mv 1 0, .ret 1, .share 1 2,
   .call 2 .sh, .mv 2 0, .acc 2, .mv 2 1, .acc 2, .mv 2 0, .acc 2, .mv 2 0, .acc 2, .mv 2 2, .acc 2, .mv 2 0, .acc 2, .mv 2 0,
   .call 2 .os, .mv 2 0, .acc 2, .mv 2 0, .mv 2 0, .ret 2, .mv 1 0, .mv 1 0, .acc 1, .mv 1 0, .ret 1, .mv 2 0, .acc 2, .mv 2 1, .ret 2]

/-- It is an execution, ListenAll comes first in it, and Shutdown walks the hooks without the lock. -/
example : ∃ s, nmRun nmLife = some s ∧ ListenFirst nmLife ∧ s.done = true ∧ s.wild = false ∧
    (∃ (i : Nat) (a : NEv), s.tr[i]? = some a ∧ a.line = 536) ∧ (∃ (i : Nat) (a : NEv), s.tr[i]? = some a ∧ a.line = 556) := by
  refine ⟨(nmRun nmLife).get (by decide +kernel), (Option.some_get _).symm, ?_, by decide +kernel, by decide +kernel,
    ⟨23, ⟨2, .acc .hooks false false, 536⟩, by decide +kernel, rfl⟩, ⟨13, ⟨1, .acc .hooks true false, 556⟩, by decide +kernel, rfl⟩⟩
  intro pre g post h a ha
  cases pre with
  | nil => cases ha
  | cons b pre =>
    exfalso
    injection h with _ h
    have : NAct.call g .la ∈ nmLife.tail := by show _ ∈ _; rw [show nmLife.tail = _ from h]; simp
    simp [nmLife] at this

end Qrpc
