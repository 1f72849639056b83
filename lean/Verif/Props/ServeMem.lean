import Verif.Lemmas.ServeMemB
/-!
# C118 A server connection's fields are used without data races
-/
namespace Qrpc
open Spec

/-- Nobody got the connection from `WalkConn`. -/
def Spec.NoFind (tr : List SMEv) : Prop := ∀ e ∈ tr, e.op ≠ .acq .map

/-! ## Who knows what -/

def KMu (s : SMSt) (i : Nat) : Prop :=
  (s.mu = none → KnowsO s.tr .muW i) ∧ (∀ g, s.mu = some g → Knows s.tr g i) ∧ ∀ g ∈ s.rl, Knows s.tr g i

def KRl (s : SMSt) (g0 : SG) (i : Nat) : Prop := (g0 ∈ s.rl ∨ KnowsO s.tr .muR i) ∧ ∀ g, s.mu = some g → Knows s.tr g i

def KTok (s : SMSt) (i : Nat) : Prop := (s.tok = .free → KnowsO s.tr .tok i) ∧ ∀ g, s.tok = .held g → Knows s.tr g i

/-- The accesses of `serve` before it starts the reader that are not made under a lock. -/
def setupLine (l : Nat) : Prop := l = 44 ∨ l = 45 ∨ l = 173 ∨ l = 177

structure SMKn (s : SMSt) : Prop where
  le : smInit.length ≤ s.tr.length
  ini : ∀ i, i < smInit.length → ∀ g, s.live g = true → Knows s.tr g i
  inim : ∀ i, i < smInit.length → KnowsO s.tr .map i
  evl : ∀ (i : Nat) (a : SMEv), s.tr[i]? = some a → s.live a.g = true
  kmu : ∀ (i : Nat) (a : SMEv) (x : SX) (w p : Bool), s.tr[i]? = some a → a.op = .acc x w p → x.guarded = true → a.line ≠ 90 →
    i < smInit.length ∨ KMu s i
  krl : ∀ (i : Nat) (a : SMEv) (x : SX) (w p : Bool), s.tr[i]? = some a → a.op = .acc x w p → a.line = 90 → w = false ∧ KRl s a.g i
  ktok : ∀ (i : Nat) (a : SMEv) (w p : Bool), s.tr[i]? = some a → a.op = .acc .cached w p → i < smInit.length ∨ KTok s i
  kset : ∀ (i : Nat) (a : SMEv) (x : SX) (w p : Bool), s.tr[i]? = some a → a.op = .acc x w p → setupLine a.line →
    a.g = .serve ∧ p = false ∧ ∀ g, s.live g = true → (∀ j, g ≠ .other j) → Knows s.tr g i
  ksetN : NoFind s.tr → ∀ (i : Nat) (a : SMEv) (x : SX) (w p : Bool), s.tr[i]? = some a → a.op = .acc x w p → setupLine a.line →
    ∀ g, s.live g = true → Knows s.tr g i
  solo : NoFind s.tr → s.sv = .setup → ∀ j, s.live (.other j) = false
  kwr : ∀ (i : Nat) (a : SMEv) (w p : Bool), s.tr[i]? = some a → a.op = .acc .writer w p → a.g = .serve
  kbf : ∀ (i : Nat) (a : SMEv) (w p : Bool), s.tr[i]? = some a → a.op = .acc .bufr w p → a.g = .reader ∨ setupLine a.line
  krd : ∀ (i : Nat) (a : SMEv) (w p : Bool), s.tr[i]? = some a → a.op = .acc .reader w p →
    i < smInit.length ∨ a.line = 173 ∨ (w = false ∧ (a.g = .reader ∨ a.line = 118))
  kin : ∀ (i : Nat) (a : SMEv) (w p : Bool), s.tr[i]? = some a → a.op = .acc .inflight w p →
    i < smInit.length ∨ p = true ∨ a.line = 177
  kti : ∀ (i : Nat) (a : SMEv) (w p : Bool), s.tr[i]? = some a → a.op = .acc .timeout w p →
    a.line = 45 ∨ (a.g = .reader ∧ w = false) ∨ a.line = 57
  att : ∀ (i : Nat) (a : SMEv) (x : SX) (w : Bool), s.tr[i]? = some a → a.op = .acc x w true → x = .inflight
  tmg : s.wild = false → ∀ (i : Nat) (a : SMEv) (w p : Bool), s.tr[i]? = some a → a.op = .acc .timeout w p → a.g = .serve ∨ a.g = .reader
  tms : s.wild = false → ∀ (i : Nat) (a : SMEv) (w p : Bool), s.tr[i]? = some a → a.op = .acc .timeout w p → a.g = .serve →
    (s.rd.active = true → Knows s.tr .reader i) ∧ (s.gate = true → KnowsO s.tr .gate i)
  tmr : s.wild = false → ∀ (i : Nat) (a : SMEv) (w p : Bool), s.tr[i]? = some a → a.op = .acc .timeout w p → a.g = .reader →
    (s.sv = .blk → Knows s.tr .serve i) ∧ ∀ n, (n, true) ∈ s.q → KnowsO s.tr (.rfc n) i

theorem SMKn.quiet {s s' : SMSt} {l : List SMEv} (h : SMKn s) (q : SMQuiet s s' l) : SMKn s' := by
  have htr := q.tr
  have old : ∀ {i : Nat} {a : SMEv} {x : SX} {w p : Bool}, s'.tr[i]? = some a → a.op = .acc x w p → s.tr[i]? = some a := by
    intro i a x w p h1 h2
    rw [htr] at h1
    rcases snocs h1 with h1 | h1
    · exact h1
    · exact absurd h2 (q.na a h1 x w p)
  have hk : ∀ {g : SG} {i : Nat}, Knows s.tr g i → Knows s'.tr g i := fun h => htr ▸ h.mono l
  have hko : ∀ {o : SO} {i : Nat}, KnowsO s.tr o i → KnowsO s'.tr o i := fun h => htr ▸ h.mono l
  have kg : ∀ {e : SMEv} {g : SG} {i : Nat}, e ∈ l → e.op = .go g → Knows s.tr e.g i → Knows s'.tr g i :=
    fun he ho h => htr ▸ h.go_in ho he
  have ka : ∀ {e : SMEv} {o : SO} {g : SG} {i : Nat}, (e ∈ l ∧ e.g = g ∧ e.op = .acq o) → KnowsO s.tr o i → Knows s'.tr g i :=
    fun he h => htr ▸ he.2.1 ▸ h.acq_in he.2.2 he.1
  have kr : ∀ {e : SMEv} {o : SO} {g : SG} {i : Nat}, (e ∈ l ∧ e.g = g ∧ e.op = .rel o) → Knows s.tr g i → KnowsO s'.tr o i :=
    fun he h => htr ▸ Knows.rel_in (he.2.1 ▸ h) he.2.2 he.1
  have nf : NoFind s'.tr → NoFind s.tr ∧ NoFind l := by
    intro h; rw [htr] at h
    exact ⟨fun e he => h e (List.mem_append_left _ he), fun e he => h e (List.mem_append_right _ he)⟩
  refine ⟨?_, ?_, ?_, ?_, ?_, ?_, ?_, ?_, ?_, ?_, ?_, ?_, ?_, ?_, ?_, ?_, ?_, ?_, ?_⟩
  · rw [htr, List.length_append]; exact Nat.le_trans h.le (Nat.le_add_right _ _)
  · intro i hi g hg
    rcases q.lv g hg with h1 | ⟨e, he, h1, h2, _⟩ | ⟨e, he, h1, h2, _⟩
    · exact hk (h.ini i hi g h1)
    · exact kg he h2 (h.ini i hi _ h1)
    · exact ka ⟨he, h1, h2⟩ (h.inim i hi)
  · exact fun i hi => hko (h.inim i hi)
  · intro i a ha
    rw [htr] at ha
    rcases snocs ha with ha | ha
    · exact q.lm _ (h.evl i a ha)
    · exact q.ev a ha
  · intro i a x w p h1 h2 h3 h4
    refine (h.kmu i a x w p (old h1 h2) h2 h3 h4).imp id ?_
    rintro ⟨k1, k2, k3⟩
    rcases q.mu with ⟨m1, m2⟩ | ⟨g, m1, m2, m3, m4, ⟨e, he⟩, _⟩ | ⟨g, m1, m2, m3, m4, e, he⟩ | ⟨g, m1, m2, m3, e, he⟩ | ⟨g, m1, m2, e, he⟩
    · exact ⟨fun h => hko (k1 (m1 ▸ h)), fun g hg => hk (k2 g (m1 ▸ hg)), fun g hg => hk (k3 g (m2 ▸ hg))⟩
    · refine ⟨fun h => ?_, fun g' hg => ?_, fun g' hg => ?_⟩
      · rw [m3] at h; cases h
      · rw [m3] at hg; cases hg; exact ka he (k1 m1)
      · rw [m4] at hg; cases hg
    · refine ⟨fun _ => kr he (k2 g m1), fun g' hg => ?_, fun g' hg => ?_⟩
      · rw [m3] at hg; cases hg
      · rw [m4] at hg; cases hg
    · refine ⟨fun _ => hko (k1 m1), fun g' hg => ?_, fun g' hg => ?_⟩
      · rw [m2] at hg; cases hg
      · rw [m3] at hg
        rcases List.mem_cons.1 hg with rfl | hg
        · exact ka he (k1 m1)
        · exact hk (k3 g' hg)
    · exact ⟨fun h => hko (k1 (m1 ▸ h)), fun g hg => hk (k2 g (m1 ▸ hg)), fun g' hg => hk (k3 g' (List.mem_of_mem_erase (m2 ▸ hg)))⟩
  · intro i a x w p h1 h2 h3
    obtain ⟨h4, k1, k2⟩ := h.krl i a x w p (old h1 h2) h2 h3
    refine ⟨h4, ?_⟩
    rcases q.mu with ⟨m1, m2⟩ | ⟨g, m1, m2, m3, m4, _, e, he⟩ | ⟨g, m1, m2, m3, m4, e, he⟩ | ⟨g, m1, m2, m3, e, he⟩ | ⟨g, m1, m2, e, he⟩
    · exact ⟨k1.imp (fun h => m2 ▸ h) hko, fun g hg => hk (k2 g (m1 ▸ hg))⟩
    · have : KnowsO s.tr .muR i := k1.resolve_left fun h => by rw [m2] at h; cases h
      refine ⟨.inr (hko this), fun g' hg => ?_⟩
      rw [m3] at hg; cases hg; exact ka he this
    · have : KnowsO s.tr .muR i := k1.resolve_left fun h => by rw [m2] at h; cases h
      refine ⟨.inr (hko this), fun g' hg => ?_⟩
      rw [m3] at hg; cases hg
    · refine ⟨k1.imp (fun h => ?_) hko, fun g' hg => ?_⟩
      · rw [m3]; exact List.mem_cons_of_mem _ h
      · rw [m2] at hg; cases hg
    · refine ⟨?_, fun g' hg => hk (k2 g' (m1 ▸ hg))⟩
      by_cases hg : a.g = g
      · exact .inr (kr he (Knows.own' (old h1 h2) hg))
      · refine k1.imp (fun h => ?_) hko
        rw [m2]; exact (List.mem_erase_of_ne hg).2 h
  · intro i a w p h1 h2
    refine (h.ktok i a w p (old h1 h2) h2).imp id ?_
    rintro ⟨k1, k2⟩
    rcases q.tk with m1 | ⟨g, m1, m2, e, he⟩ | ⟨g, m1, m2, e, he⟩ | m1
    · exact ⟨fun h => hko (k1 (m1 ▸ h)), fun g hg => hk (k2 g (m1 ▸ hg))⟩
    · refine ⟨fun h => ?_, fun g' hg => ?_⟩
      · rw [m2] at h; cases h
      · rw [m2] at hg; cases hg; exact ka he (k1 m1)
    · refine ⟨fun _ => kr he (k2 g m1), fun g' hg => ?_⟩
      rw [m2] at hg; cases hg
    · refine ⟨fun h => ?_, fun g' hg => ?_⟩
      · rw [m1] at h; cases h
      · rw [m1] at hg; cases hg
  · intro i a x w p h1 h2 h3
    obtain ⟨h4, h5, h6⟩ := h.kset i a x w p (old h1 h2) h2 h3
    refine ⟨h4, h5, fun g hg hn => ?_⟩
    rcases q.lv g hg with h7 | ⟨e, he, h7, h8, h9⟩ | ⟨e, he, h7, h8, j, h9⟩
    · exact hk (h6 g h7 hn)
    · exact kg he h8 (Knows.own' (old h1 h2) (h4.trans (h9 hn).symm))
    · exact absurd h9 (hn j)
  · intro hnf i a x w p h1 h2 h3 g hg
    obtain ⟨n1, n2⟩ := nf hnf
    have h4 := h.ksetN n1 i a x w p (old h1 h2) h2 h3
    rcases q.lv g hg with h7 | ⟨e, he, h7, h8, h9⟩ | ⟨e, he, h7, h8, _⟩
    · exact hk (h4 g h7)
    · exact kg he h8 (h4 _ h7)
    · exact absurd h8 (n2 e he)
  · intro hnf hsv j
    obtain ⟨n1, n2⟩ := nf hnf
    have h4 := h.solo n1 (q.sv hsv)
    cases hl : s'.live (.other j) with
    | false => rfl
    | true =>
      rcases q.us hsv j hl with h5 | ⟨e, he, h5⟩ | ⟨k, h5⟩
      · rw [h4 j] at h5; cases h5
      · exact absurd h5 (n2 e he)
      · rw [h4 k] at h5; cases h5
  · exact fun i a w p h1 h2 => h.kwr i a w p (old h1 h2) h2
  · exact fun i a w p h1 h2 => h.kbf i a w p (old h1 h2) h2
  · exact fun i a w p h1 h2 => h.krd i a w p (old h1 h2) h2
  · exact fun i a w p h1 h2 => h.kin i a w p (old h1 h2) h2
  · exact fun i a w p h1 h2 => h.kti i a w p (old h1 h2) h2
  · exact fun i a x w h1 h2 => h.att i a x w (old h1 h2) h2
  · exact fun hw i a w p h1 h2 => h.tmg (q.wl hw) i a w p (old h1 h2) h2
  · intro hw i a w p h1 h2 h3
    obtain ⟨k1, k2⟩ := h.tms (q.wl hw) i a w p (old h1 h2) h2 h3
    have own : Knows s.tr .serve i := Knows.own' (old h1 h2) h3
    refine ⟨fun h => ?_, fun h => ?_⟩
    · rcases q.act h with h4 | ⟨e, he, h4, h5⟩ | ⟨h4, e, he⟩
      · exact hk (k1 h4)
      · exact kg he h5 (h4 ▸ own)
      · exact ka he (k2 h4)
    · rcases q.gt h with h4 | ⟨e, he⟩
      · exact hko (k2 h4)
      · exact kr he own
  · intro hw i a w p h1 h2 h3
    obtain ⟨k1, k2⟩ := h.tmr (q.wl hw) i a w p (old h1 h2) h2 h3
    have own : Knows s.tr .reader i := Knows.own' (old h1 h2) h3
    refine ⟨fun h => ?_, fun n h => ?_⟩
    · rcases q.bl h with h4 | ⟨n, h4, e, he⟩
      · exact hk (k1 h4)
      · exact ka he (k2 n h4)
    · rcases q.qn n h with h4 | ⟨e, he⟩
      · exact hko (k2 n h4)
      · exact kr he own

theorem SMakes.live {s : SMSt} (c : SMCtl s) {g : SG} {b : SAcc} (m : SMakes s g b) : s.live g = true := by
  cases m with
  | serve _ => rfl
  | reader m => simp only [SMSt.live, bne_iff_ne]; exact (dblock _ _ m).2.2.2.2.2.2.2
  | call h _ => exact c.live g (by rw [h]; simp)

theorem kblock2 (p : KPh) : ∀ a ∈ p.block, a.line ≠ 44 ∧ a.line ≠ 45 ∧ a.line ≠ 173 ∧ a.line ≠ 177 := by cases p <;> decide
theorem dblock2 (p : DPh) : ∀ a ∈ p.block, a.line ≠ 44 ∧ a.line ≠ 45 ∧ a.line ≠ 173 ∧ a.line ≠ 177 := by cases p <;> decide
theorem vblock2 (p : VPh) : ∀ a ∈ p.block, (a.x = .bufr → a.line = 44) ∧
    (a.line = 44 ∨ a.line = 45 ∨ a.line = 173 ∨ a.line = 177 → p = .setup) := by cases p <;> decide

theorem SMKn.access {s s' : SMSt} {g : SG} {b : SAcc} (c : SMCtl s) (h : SMKn s) (m : SMakes s g b)
    (htr : s'.tr = s.tr ++ [⟨g, .acc b.x b.w b.a, b.line⟩]) (e1 : s'.mu = s.mu) (e2 : s'.rl = s.rl) (e3 : s'.tok = s.tok)
    (e4 : s'.sv = s.sv) (e5 : s'.rd = s.rd) (e6 : s'.q = s.q) (e7 : s'.gate = s.gate) (e8 : s'.hn = s.hn) (e9 : s'.us = s.us)
    (e10 : s'.wild = s.wild) : SMKn s' := by
  have hk : ∀ {g : SG} {i : Nat}, Knows s.tr g i → Knows s'.tr g i := fun h => htr ▸ h.mono _
  have hko : ∀ {o : SO} {i : Nat}, KnowsO s.tr o i → KnowsO s'.tr o i := fun h => htr ▸ h.mono _
  have hnew : Knows s'.tr g s.tr.length := by
    rw [htr]; exact Knows.own' (a := ⟨g, .acc b.x b.w b.a, b.line⟩) (by simp) rfl
  have split : ∀ {i : Nat} {a : SMEv}, s'.tr[i]? = some a → s.tr[i]? = some a ∨ (i = s.tr.length ∧ a = ⟨g, .acc b.x b.w b.a, b.line⟩) := by
    intro i b hb; rw [htr] at hb; exact getElem?_snoc hb
  have nf : NoFind s'.tr → NoFind s.tr := by
    intro h; rw [htr] at h
    exact fun e he => h e (List.mem_append_left _ he)
  have hl : ∀ g, s'.live g = s.live g := by intro g; cases g <;> simp [SMSt.live, e5, e8, e9]
  have gl := m.live c
  obtain ⟨bx, bw, ba, bl⟩ := b
  refine ⟨?_, ?_, ?_, ?_, ?_, ?_, ?_, ?_, ?_, ?_, ?_, ?_, ?_, ?_, ?_, ?_, ?_, ?_, ?_⟩
  · rw [htr, List.length_append]; exact Nat.le_trans h.le (Nat.le_add_right _ _)
  · exact fun i hi g hg => hk (h.ini i hi g (hl g ▸ hg))
  · exact fun i hi => hko (h.inim i hi)
  · intro i a ha
    rw [hl]
    rcases split ha with ha | ⟨rfl, rfl⟩
    · exact h.evl i a ha
    · exact gl
  · intro i a x w p ha h2 h3 h4
    rcases split ha with ha | ⟨rfl, rfl⟩
    · refine (h.kmu i a x w p ha h2 h3 h4).imp id ?_
      rintro ⟨k1, k2, k3⟩
      exact ⟨fun h => hko (k1 (e1 ▸ h)), fun g hg => hk (k2 g (e1 ▸ hg)), fun g hg => hk (k3 g (e2 ▸ hg))⟩
    · cases h2
      have hm : s.mu = some g := by
        cases m with
        | serve m => have := (vblock _ _ m).1; simp only at this; rw [this] at h3; cases h3
        | reader m => have := (dblock _ _ m).1; simp only at this; rw [this] at h3; cases h3
        | call hs m => exact c.muT _ _ _ hs ((kblock _ _ m).1 h3 h4)
      have hr := c.rlMu (by rw [hm]; simp)
      refine .inr ⟨fun h => ?_, fun g' hg => ?_, fun g' hg => ?_⟩
      · rw [e1, hm] at h; cases h
      · rw [e1, hm] at hg; cases hg; exact hnew
      · rw [e2, hr] at hg; cases hg
  · intro i a x w p ha h2 h3
    rcases split ha with ha | ⟨rfl, rfl⟩
    · obtain ⟨h4, k1, k2⟩ := h.krl i a x w p ha h2 h3
      exact ⟨h4, k1.imp (fun h => e2 ▸ h) hko, fun g hg => hk (k2 g (e1 ▸ hg))⟩
    · cases h2
      cases m with
      | serve m => exact absurd h3 (vblock _ _ m).2.2.1
      | reader m => exact absurd h3 (dblock _ _ m).2.2.1
      | call hs m =>
        obtain ⟨_, h5, h6⟩ := (kblock _ _ m).2.1 h3
        have hr := c.rlT _ _ _ hs h6
        refine ⟨h5, .inl (e2 ▸ hr), fun g' hg => ?_⟩
        have := c.rlMu (by rw [← e1, hg]; simp)
        rw [this] at hr; cases hr
  · intro i a w p ha h2
    rcases split ha with ha | ⟨rfl, rfl⟩
    · refine (h.ktok i a w p ha h2).imp id ?_
      rintro ⟨k1, k2⟩
      exact ⟨fun h => hko (k1 (e3 ▸ h)), fun g hg => hk (k2 g (e3 ▸ hg))⟩
    · cases h2
      have ht : s.tok = .held g := by
        cases m with
        | serve m => exact absurd rfl (vblock _ _ m).2.1
        | reader m => exact absurd rfl (dblock _ _ m).2.1
        | call hs m => exact c.tokF _ _ (by rw [hs]; simp) ((kblock _ _ m).2.2.1 rfl)
      refine .inr ⟨fun h => ?_, fun g' hg => ?_⟩
      · rw [e3, ht] at h; cases h
      · rw [e3, ht] at hg; cases hg; exact hnew
  · intro i a x w p ha h2 h3
    rcases split ha with ha | ⟨rfl, rfl⟩
    · obtain ⟨h4, h5, h6⟩ := h.kset i a x w p ha h2 h3
      exact ⟨h4, h5, fun g hg hn => hk (h6 g (hl g ▸ hg) hn)⟩
    · cases h2
      cases m with
      | serve m =>
        refine ⟨rfl, (vblock _ _ m).2.2.2.1, fun g' hg hn => ?_⟩
        rcases setup_only c ((vblock2 _ _ m).2 h3) g' (hl g' ▸ hg) with rfl | ⟨j, rfl⟩
        · exact hnew
        · exact absurd rfl (hn j)
      | reader m => have := dblock2 _ _ m; simp only [setupLine] at h3 this; omega
      | call hs m => have := kblock2 _ _ m; simp only [setupLine] at h3 this; omega
  · intro hn i a x w p ha h2 h3 g' hg
    rcases split ha with ha | ⟨rfl, rfl⟩
    · exact hk (h.ksetN (nf hn) i a x w p ha h2 h3 g' (hl g' ▸ hg))
    · cases h2
      cases m with
      | serve m =>
        have hsu := (vblock2 _ _ m).2 h3
        rcases setup_only c hsu g' (hl g' ▸ hg) with rfl | ⟨j, rfl⟩
        · exact hnew
        · rw [hl, h.solo (nf hn) hsu j] at hg; cases hg
      | reader m => have := dblock2 _ _ m; simp only [setupLine] at h3 this; omega
      | call hs m => have := kblock2 _ _ m; simp only [setupLine] at h3 this; omega
  · intro hn hsv j
    rw [hl]; exact h.solo (nf hn) (e4 ▸ hsv) j
  · intro i a w p ha h2
    rcases split ha with ha | ⟨rfl, rfl⟩
    · exact h.kwr i a w p ha h2
    · cases h2
      cases m with
      | serve m => rfl
      | reader m => exact absurd rfl (dblock _ _ m).2.2.2.1
      | call hs m => exact absurd rfl (kblock _ _ m).2.2.2.1
  · intro i a w p ha h2
    rcases split ha with ha | ⟨rfl, rfl⟩
    · exact h.kbf i a w p ha h2
    · cases h2
      cases m with
      | serve m => exact .inr (.inl ((vblock2 _ _ m).1 rfl))
      | reader m => exact .inl rfl
      | call hs m => exact absurd rfl (kblock _ _ m).2.2.2.2.1
  · intro i a w p ha h2
    rcases split ha with ha | ⟨rfl, rfl⟩
    · exact h.krd i a w p ha h2
    · cases h2
      cases m with
      | serve m => exact .inr (.inl ((vblock _ _ m).2.2.2.2.2.1 rfl).2)
      | reader m => exact .inr (.inr ⟨((dblock _ _ m).2.2.2.2.2.1 rfl).1, .inl rfl⟩)
      | call hs m => exact .inr (.inr ⟨((kblock _ _ m).2.2.2.2.2.1 rfl).1, .inr ((kblock _ _ m).2.2.2.2.2.1 rfl).2⟩)
  · intro i a w p ha h2
    rcases split ha with ha | ⟨rfl, rfl⟩
    · exact h.kin i a w p ha h2
    · cases h2
      cases m with
      | serve m => exact .inr (.inr ((vblock _ _ m).2.2.2.2.2.2.1 rfl).2)
      | reader m => exact .inr (.inl ((dblock _ _ m).2.2.2.2.1.2 rfl))
      | call hs m => exact .inr (.inl ((kblock _ _ m).2.2.2.2.2.2.1 rfl))
  · intro i a w p ha h2
    rcases split ha with ha | ⟨rfl, rfl⟩
    · exact h.kti i a w p ha h2
    · cases h2
      cases m with
      | serve m => exact .inl ((vblock _ _ m).2.2.2.2.2.2.2 rfl)
      | reader m => exact .inr (.inl ⟨rfl, ((dblock _ _ m).2.2.2.2.2.2.1 rfl).2.1⟩)
      | call hs m => exact .inr (.inr ((kblock _ _ m).2.2.2.2.2.2.2.2.1 rfl).1)
  · intro i a x w ha h2
    rcases split ha with ha | ⟨rfl, rfl⟩
    · exact h.att i a x w ha h2
    · cases h2
      cases m with
      | serve m => have := (vblock _ _ m).2.2.2.1; cases this
      | reader m => exact (dblock _ _ m).2.2.2.2.1.1 rfl
      | call hs m => exact (kblock _ _ m).2.2.2.2.2.2.2.1 rfl
  · intro hw i a w p ha h2
    rw [e10] at hw
    rcases split ha with ha | ⟨rfl, rfl⟩
    · exact h.tmg hw i a w p ha h2
    · cases h2
      cases m with
      | serve m => exact .inl rfl
      | reader m => exact .inr rfl
      | call hs m =>
        rcases c.rc hw _ _ (by rw [hs]; exact .head _) ((kblock _ _ m).2.2.2.2.2.2.2.2.1 rfl).2 with h5 | h5
        · exact .inr h5
        · exact .inl h5.1
  · intro hw i a w p ha h2 h3
    rw [e10] at hw
    rcases split ha with ha | ⟨rfl, rfl⟩
    · obtain ⟨k1, k2⟩ := h.tms hw i a w p ha h2 h3
      exact ⟨fun h => hk (k1 (e5 ▸ h)), fun h => hko (k2 (e7 ▸ h))⟩
    · cases h2
      rw [e5, e7]
      have hno : s.rd.active = false ∧ s.gate = false := by
        cases m with
        | serve m =>
          have hsu := (vblock _ _ m).2.2.2.2.1 (by simp)
          have := c.off.2 hsu
          refine ⟨by rw [this]; rfl, ?_⟩
          cases hgt : s.gate with
          | false => rfl
          | true => have h6 := (c.opn hgt).1; rw [this] at h6; cases h6
        | reader m => cases h3
        | call hs m =>
          rcases c.rc hw _ _ (by rw [hs]; exact .head _) ((kblock _ _ m).2.2.2.2.2.2.2.2.1 rfl).2 with h5 | h5
          · rw [h5] at h3; cases h3
          · have := c.blk h5.2
            exact ⟨by simp [DPh.active, this.1], this.2.1⟩
      rw [hno.1, hno.2]
      exact ⟨fun h => (by cases h), fun h => (by cases h)⟩
  · intro hw i a w p ha h2 h3
    rw [e10] at hw
    rcases split ha with ha | ⟨rfl, rfl⟩
    · obtain ⟨k1, k2⟩ := h.tmr hw i a w p ha h2 h3
      exact ⟨fun h => hk (k1 (e4 ▸ h)), fun n h => hko (k2 n (e6 ▸ h))⟩
    · cases h2
      rw [e4, e6]
      have hno : s.rd.still = false := by
        cases m with
        | serve m => cases h3
        | reader m => rw [((dblock _ _ m).2.2.2.2.2.2.1 rfl).2.2]; rfl
        | call hs m =>
          simp only at h3; subst h3
          rcases c.rst (by rw [hs]; simp) with h5 | h5 <;> rw [h5] <;> rfl
      refine ⟨fun h => ?_, fun n h => ?_⟩
      · have := (c.blk h).1; rw [hno] at this; cases this
      · have := c.qB n h; rw [hno] at this; cases this

theorem smInit_all : ∀ a ∈ smInit, a.g = .serve := by decide

theorem SMKn.init : SMKn SMSt.init := by
  have hg : ∀ (i : Nat) (a : SMEv), smInit[i]? = some a → a.g = .serve := fun i a h => smInit_all a (List.mem_of_getElem? h)
  have lt : ∀ (i : Nat) (a : SMEv), smInit[i]? = some a → i < smInit.length := fun i a h => (List.getElem?_eq_some_iff.1 h).1
  have hl : ∀ g, SMSt.init.live g = true → g = .serve := by
    intro g h; cases g <;> simp [SMSt.live, SMSt.init] at h ⊢
  have nw : ∀ (P : SMEv → Bool), (smInit.all P = true) → ∀ (i : Nat) (a : SMEv), smInit[i]? = some a → P a = true :=
    fun P h i a ha => List.all_eq_true.1 h a (List.mem_of_getElem? ha)
  have ns : ∀ (i : Nat) (a : SMEv), smInit[i]? = some a → ¬ setupLine a.line := by
    intro i a h
    have := nw (fun a => a.line != 44 && a.line != 45 && a.line != 173 && a.line != 177) (by decide) i a h
    simp only [Bool.and_eq_true, bne_iff_ne] at this
    simp only [setupLine]; omega
  have nt : ∀ (i : Nat) (a : SMEv) (w p : Bool), smInit[i]? = some a → a.op = .acc .timeout w p → False := by
    intro i a w p h ho
    have := nw (fun a => match a.op with | .acc .timeout _ _ => false | _ => true) (by decide) i a h
    simp [ho] at this
  refine ⟨Nat.le_refl _, ?_, ?_, ?_, ?_, ?_, ?_, ?_, ?_, ?_, ?_, ?_, ?_, ?_, ?_, ?_, ?_, ?_, ?_⟩
  · intro i hi g h
    rw [hl g h]
    have h1 : smInit[i]? = some smInit[i] := List.getElem?_eq_getElem hi
    exact Knows.own' h1 (hg i _ h1)
  · intro i hi
    have h1 : smInit[i]? = some smInit[i] := List.getElem?_eq_getElem hi
    have h2 : smInit[8]? = some ⟨.serve, .rel .map, 441⟩ := by decide
    refine ⟨8, _, ?_, h2, rfl⟩
    have : smInit.length = 9 := by decide
    rcases Nat.lt_or_ge i 8 with h | h
    · exact .inr (.program h h1 h2 (hg i _ h1))
    · exact .inl (by omega)
  · intro i a h; rw [hg i a h]; rfl
  · exact fun i a x w p h _ _ _ => .inl (lt i a h)
  · intro i a x w p h _ h3
    have := nw (fun a => a.line != 90) (by decide) i a h
    simp [h3] at this
  · exact fun i a w p h _ => .inl (lt i a h)
  · exact fun i a x w p h _ h3 => absurd h3 (ns i a h)
  · exact fun _ i a x w p h _ h3 => absurd h3 (ns i a h)
  · intro _ _ j; simp [SMSt.live, SMSt.init]
  · exact fun i a w p h _ => hg i a h
  · intro i a w p h ho
    have := nw (fun a => match a.op with | .acc .bufr _ _ => false | _ => true) (by decide) i a h
    simp [ho] at this
  · exact fun i a w p h _ => .inl (lt i a h)
  · exact fun i a w p h _ => .inl (lt i a h)
  · exact fun i a w p h ho => (nt i a w p h ho).elim
  · intro i a x w h ho
    have := nw (fun a => match a.op with | .acc _ _ true => false | _ => true) (by decide) i a h
    simp [ho] at this
  · exact fun _ i a w p h ho => (nt i a w p h ho).elim
  · exact fun _ i a w p h ho => (nt i a w p h ho).elim
  · exact fun _ i a w p h ho => (nt i a w p h ho).elim

def SMInv (s : SMSt) : Prop := SMCtl s ∧ SMKn s

theorem SMInv.step {s s' : SMSt} {a : SMAct} (h : SMInv s) (hs : smStep s a = some s') : SMInv s' := by
  refine ⟨h.1.step hs, ?_⟩
  rcases smStep_cases h.1 hs with ⟨l, q⟩ | ⟨g, b, m, h1, h2, h3, h4, h5, h6, h7, h8, h9, h10, h11⟩
  · exact h.2.quiet q
  · exact h.2.access h.1 m h1 h2 h3 h4 h5 h6 h7 h8 h9 h10 h11

/-! ## C118 -/

/-- The accesses that race: `serve` storing the frame reader (173) and `ReaderConfig` (118), `serve` storing the inflight counter (177) and
any use of it, both by a goroutine that got the connection from `WalkConn`; and `SetReadTimeout` (reader.go:57) with any other use of the
timeout. -/
def Spec.ServeRace (x : SX) (a b : SMEv) : Prop :=
  (x = .reader ∧ a.line = 173 ∧ b.line = 118 ∧ ∃ k, b.g = .other k) ∨ (x = .inflight ∧ a.line = 177 ∧ ∃ k, b.g = .other k) ∨
  (x = .timeout ∧ a.line = 57)

def ServeRaces (s : SMSt) (x : SX) (a b : SMEv) : Prop :=
  (Spec.ServeRace x a b ∨ Spec.ServeRace x b a) ∧ (NoFind s.tr → x = .timeout) ∧ (s.wild = false → x ≠ .timeout)

theorem smakes_race {s : SMSt} {g : SG} {b : SAcc} (h : SMInv s) (m : SMakes s g b) {x : SX} {i : Nat} {a : SMEv} (ha : s.tr[i]? = some a)
    (hc : Conflict x a ⟨g, .acc b.x b.w b.a, b.line⟩) (hk : ¬ Knows s.tr g i) :
    ServeRaces s x a ⟨g, .acc b.x b.w b.a, b.line⟩ := by
  obtain ⟨c, k⟩ := h
  obtain ⟨w, v, p, q, h1, h2, h3, h4⟩ := hc
  have hl := m.live c
  obtain ⟨bx, bw, ba, bl⟩ := b
  cases h2
  have own : a.g ≠ g := fun e => hk (Knows.own' ha e)
  have old : ¬ i < smInit.length := fun e => hk (k.ini i e g hl)
  -- an access of the set-up is known to all but the goroutines that found the connection
  have viaSet : setupLine a.line → ∃ j, g = .other j := by
    intro e
    have := (k.kset i a bx w p ha h1 e).2.2 g hl
    cases g with
    | other j => exact ⟨j, rfl⟩
    | serve => exact (hk (this (by simp))).elim
    | reader => exact (hk (this (by simp))).elim
    | handler n => exact (hk (this (by simp))).elim
  have viaSetN : setupLine a.line → ¬ NoFind s.tr := fun e hn => hk (k.ksetN hn i a bx w p ha h1 e g hl)
  -- before the reader starts
  have early : s.sv = .setup → g = .serve → ∃ j, a.g = .other j := by
    intro e eg
    rcases setup_only c e a.g (k.evl i a ha) with e1 | e1
    · exact (own (e1.trans eg.symm)).elim
    · exact e1
  have earlyN : s.sv = .setup → g = .serve → ¬ NoFind s.tr := by
    intro e eg hn
    obtain ⟨j, e1⟩ := early e eg
    have := k.solo hn e j
    rw [← e1, k.evl i a ha] at this; cases this
  cases hx : bx.guarded with
  | true =>
    exfalso
    cases m with
    | serve m => have := (vblock _ _ m).1; simp only at this; rw [this] at hx; cases hx
    | reader m => have := (dblock _ _ m).1; simp only at this; rw [this] at hx; cases hx
    | call hs m =>
      have hb := kblock _ _ m
      by_cases hbl : bl = 90
      · obtain ⟨_, h6, h7⟩ := hb.2.1 hbl
        have hr := c.rlT _ _ _ hs h7
        have hw : w = true := h3.resolve_right fun e => by simp only at h6 e; rw [h6] at e; cases e
        have hal : a.line ≠ 90 := by
          intro e; have := (k.krl i a bx w p ha h1 e).1; rw [hw] at this; cases this
        rcases k.kmu i a bx w p ha h1 hx hal with h8 | h8
        · exact old h8
        · exact hk (h8.2.2 g hr)
      · have hm := c.muT _ _ _ hs (hb.1 hx hbl)
        by_cases hal : a.line = 90
        · exact hk ((k.krl i a bx w p ha h1 hal).2.2 g hm)
        · rcases k.kmu i a bx w p ha h1 hx hal with h8 | h8
          · exact old h8
          · exact hk (h8.2.1 g hm)
  | false =>
    cases bx with
    | closed => cases hx
    | id => cases hx
    | closeNotify => cases hx
    | respes => cases hx
    | cached =>
      exfalso
      have ht : s.tok = .held g := by
        cases m with
        | serve m => exact absurd rfl (vblock _ _ m).2.1
        | reader m => exact absurd rfl (dblock _ _ m).2.1
        | call hs m => exact c.tokF _ _ (by rw [hs]; simp) ((kblock _ _ m).2.2.1 rfl)
      rcases k.ktok i a w p ha h1 with h8 | h8
      · exact old h8
      · exact hk (h8.2 g ht)
    | writer =>
      exfalso
      cases m with
      | serve m => exact own (k.kwr i a w p ha h1)
      | reader m => exact absurd rfl (dblock _ _ m).2.2.2.1
      | call hs m => exact absurd rfl (kblock _ _ m).2.2.2.1
    | bufr =>
      exfalso
      cases m with
      | serve m =>
        obtain ⟨j, hj⟩ := early ((vblock _ _ m).2.2.2.2.1 (by simp)) rfl
        rcases k.kbf i a w p ha h1 with h8 | h8
        · rw [hj] at h8; cases h8
        · exact own (k.kset i a _ w p ha h1 h8).1
      | reader m =>
        rcases k.kbf i a w p ha h1 with h8 | h8
        · exact own h8
        · obtain ⟨j, hj⟩ := viaSet h8; cases hj
      | call hs m => exact absurd rfl (kblock _ _ m).2.2.2.2.1
    | reader =>
      refine ⟨?_, ?_, fun _ => by simp⟩
      · cases m with
        | serve m =>
          have hb := (vblock _ _ m).2.2.2.2.2.1 rfl
          obtain ⟨j, hj⟩ := early ((vblock _ _ m).2.2.2.2.1 (by simp)) rfl
          rcases k.krd i a w p ha h1 with h8 | h8 | ⟨_, h8 | h8⟩
          · exact (old h8).elim
          · have := (k.kset i a _ w p ha h1 (.inr (.inr (.inl h8)))).1
            rw [hj] at this; cases this
          · rw [hj] at h8; cases h8
          · exact .inr (.inl ⟨rfl, hb.2, h8, j, hj⟩)
        | reader m =>
          have hb := (dblock _ _ m).2.2.2.2.2.1 rfl
          rcases k.krd i a w p ha h1 with h8 | h8 | ⟨h8, _⟩
          · exact (old h8).elim
          · obtain ⟨j, hj⟩ := viaSet (.inr (.inr (.inl h8))); cases hj
          · rcases h3 with h3 | h3
            · rw [h8] at h3; cases h3
            · have := hb.1; simp only at this h3; rw [this] at h3; cases h3
        | call hs m =>
          have hb := (kblock _ _ m).2.2.2.2.2.1 rfl
          rcases k.krd i a w p ha h1 with h8 | h8 | ⟨h8, _⟩
          · exact (old h8).elim
          · exact .inl (.inl ⟨rfl, h8, hb.2, viaSet (.inr (.inr (.inl h8)))⟩)
          · rcases h3 with h3 | h3
            · rw [h8] at h3; cases h3
            · have := hb.1; simp only at this h3; rw [this] at h3; cases h3
      · intro hn
        exfalso
        have rd : ∀ (h : bw = false), False := by
          intro hb
          have hw : w = true := h3.resolve_right fun e => by simp only at e; rw [hb] at e; cases e
          rcases k.krd i a w p ha h1 with h8 | h8 | ⟨h8, _⟩
          · exact old h8
          · exact viaSetN (.inr (.inr (.inl h8))) hn
          · rw [hw] at h8; cases h8
        cases m with
        | serve m => exact earlyN ((vblock _ _ m).2.2.2.2.1 (by simp)) rfl hn
        | reader m => exact rd ((dblock _ _ m).2.2.2.2.2.1 rfl).1
        | call hs m => exact rd ((kblock _ _ m).2.2.2.2.2.1 rfl).1
    | inflight =>
      have hp : ba = true → p = false := by
        intro e; cases hp : p with
        | false => rfl
        | true => exact absurd ⟨hp, e⟩ h4
      have at' : ba = true → setupLine a.line ∧ a.line = 177 := by
        intro e
        rcases k.kin i a w p ha h1 with h8 | h8 | h8
        · exact (old h8).elim
        · rw [hp e] at h8; cases h8
        · exact ⟨.inr (.inr (.inr h8)), h8⟩
      refine ⟨?_, ?_, fun _ => by simp⟩
      · cases m with
        | serve m =>
          have hb := (vblock _ _ m).2.2.2.2.2.2.1 rfl
          exact .inr (.inr (.inl ⟨rfl, hb.2, early ((vblock _ _ m).2.2.2.2.1 (by simp)) rfl⟩))
        | reader m =>
          obtain ⟨j, hj⟩ := viaSet (at' ((dblock _ _ m).2.2.2.2.1.2 rfl)).1; cases hj
        | call hs m =>
          have := at' ((kblock _ _ m).2.2.2.2.2.2.1 rfl)
          exact .inl (.inr (.inl ⟨rfl, this.2, viaSet this.1⟩))
      · intro hn
        exfalso
        cases m with
        | serve m => exact earlyN ((vblock _ _ m).2.2.2.2.1 (by simp)) rfl hn
        | reader m => exact viaSetN (at' ((dblock _ _ m).2.2.2.2.1.2 rfl)).1 hn
        | call hs m => exact viaSetN (at' ((kblock _ _ m).2.2.2.2.2.2.1 rfl)).1 hn
    | timeout =>
      refine ⟨?_, fun _ => rfl, fun hw => ?_⟩
      · cases m with
        | serve m =>
          obtain ⟨j, hj⟩ := early ((vblock _ _ m).2.2.2.2.1 (by simp)) rfl
          rcases k.kti i a w p ha h1 with h8 | h8 | h8
          · have := (k.kset i a _ w p ha h1 (.inr (.inl h8))).1
            rw [hj] at this; cases this
          · rw [hj] at h8; cases h8.1
          · exact .inl (.inr (.inr ⟨rfl, h8⟩))
        | reader m =>
          rcases k.kti i a w p ha h1 with h8 | h8 | h8
          · obtain ⟨j, hj⟩ := viaSet (.inr (.inl h8)); cases hj
          · exact (own h8.1).elim
          · exact .inl (.inr (.inr ⟨rfl, h8⟩))
        | call hs m => exact .inr (.inr (.inr ⟨rfl, ((kblock _ _ m).2.2.2.2.2.2.2.2.1 rfl).1⟩))
      · exfalso
        have rdr : g = .reader → s.rd.active = true → False := by
          intro eg hac
          rcases k.tmg hw i a w p ha h1 with h8 | h8
          · exact hk (eg ▸ (k.tms hw i a w p ha h1 h8).1 hac)
          · exact own (h8.trans eg.symm)
        cases m with
        | serve m =>
          obtain ⟨j, hj⟩ := early ((vblock _ _ m).2.2.2.2.1 (by simp)) rfl
          rcases k.tmg hw i a w p ha h1 with h8 | h8 <;> rw [hj] at h8 <;> cases h8
        | reader m => exact rdr rfl (by rw [((dblock _ _ m).2.2.2.2.2.2.1 rfl).2.2]; rfl)
        | call hs m =>
          rcases c.rc hw _ _ (by rw [hs]; exact .head _) ((kblock _ _ m).2.2.2.2.2.2.2.2.1 rfl).2 with h5 | ⟨h5, h6⟩
          · subst h5
            refine rdr rfl ?_
            rcases c.rst (by rw [hs]; simp) with h5 | h5 <;> rw [h5] <;> rfl
          · subst h5
            rcases k.tmg hw i a w p ha h1 with h8 | h8
            · exact own h8
            · exact hk ((k.tmr hw i a w p ha h1 h8).1 h6)

def SMRaces (s : SMSt) : Prop := ∀ x i j, Race s.tr x i j → ∃ a b, s.tr[i]? = some a ∧ s.tr[j]? = some b ∧ ServeRaces s x a b

theorem sm_races {acts : List SMAct} {s : SMSt} (h : smRun acts = some s) : SMRaces s := by
  have key : SMInv s ∧ SMRaces s := by
    refine runActs_inv (P := fun s => SMInv s ∧ SMRaces s) ?_ ?_ h
    · rintro s act s' ⟨hi, hs⟩ hst
      refine ⟨SMInv.step hi hst, ?_⟩
      rcases smStep_cases hi.1 hst with ⟨l, q⟩ | ⟨g, b, m, h1, h2, h3, h4, h5, h6, h7, h8, h9, h10, h11⟩
      · intro x i j ⟨hij, ⟨a, b, ha, hb, hc⟩, hn⟩
        obtain ⟨w, v, p, q', e1, e2, _⟩ := id hc
        rw [q.tr] at ha hb hn
        have ha' := (snocs ha).resolve_right fun h => q.na a h _ _ _ e1
        have hb' := (snocs hb).resolve_right fun h => q.na b h _ _ _ e2
        obtain ⟨a', b', h3, h4, h5, h6, h7⟩ := hs x i j ⟨hij, ⟨a, b, ha', hb', hc⟩, fun h => hn (HB.mono h l)⟩
        rw [q.tr]
        refine ⟨a', b', getElem?_append_of_some h3 l, getElem?_append_of_some h4 l, h5, fun hn => h6 ?_, fun hw => h7 (q.wl hw)⟩
        rw [q.tr] at hn
        exact fun e he => hn e (List.mem_append_left _ he)
      · intro x i j hr
        have nf : NoFind s'.tr → NoFind s.tr := by
          intro h; rw [h1] at h
          exact fun e he => h e (List.mem_append_left _ he)
        rw [h1] at hr
        suffices hh : ∃ a b', s'.tr[i]? = some a ∧ s'.tr[j]? = some b' ∧ ServeRaces s x a b' by
          obtain ⟨a, b', k1, k2, k3, k4, k5⟩ := hh
          exact ⟨a, b', k1, k2, k3, fun hn => k4 (nf hn), fun hw => k5 (h11 ▸ hw)⟩
        rw [h1]
        rcases new_race hr with hr | ⟨rfl, a, ha, hc, hk⟩
        · obtain ⟨a', b', h3, h4, h5⟩ := hs x i j hr
          exact ⟨a', b', getElem?_append_of_some h3 _, getElem?_append_of_some h4 _, h5⟩
        · exact ⟨a, ⟨g, .acc b.x b.w b.a, b.line⟩, getElem?_append_of_some ha _, by simp, smakes_race hi m ha hc hk⟩
    · refine ⟨⟨SMCtl.init, SMKn.init⟩, ?_⟩
      rintro x i j ⟨hij, ⟨a, b, ha, hb, hc⟩, hn⟩
      exact absurd (.program hij ha hb
        ((smInit_all a (List.mem_of_getElem? ha)).trans (smInit_all b (List.mem_of_getElem? hb)).symm)) hn
  exact key.2

/-- **C118 (partial)**. However a server connection is used, and however its goroutines are interleaved: the table of responses, the flag
`closed`, the id, the list of close callbacks, the batch under construction, the writer and the reader's buffer are free of data races;
the only races on the other three fields are those of `ServeRace`. If nobody got the connection from `WalkConn`, the frame reader and the
inflight counter are free of races, and if the read timeout is set only by blocking handlers or by the reader, so is the timeout. -/
theorem C118_partial {acts : List SMAct} {s : SMSt} (h : smRun acts = some s) :
    (∀ x, x ≠ .reader → x ≠ .inflight → x ≠ .timeout → RaceFree s.tr x) ∧
    (∀ x i j, Race s.tr x i j → ∃ a b, s.tr[i]? = some a ∧ s.tr[j]? = some b ∧ (Spec.ServeRace x a b ∨ Spec.ServeRace x b a)) ∧
    (NoFind s.tr → RaceFree s.tr .reader ∧ RaceFree s.tr .inflight) ∧
    (s.wild = false → RaceFree s.tr .timeout) := by
  refine ⟨?_, ?_, ?_, ?_⟩
  · intro x h1 h2 h3 i j hr
    obtain ⟨a, b, _, _, h4, _⟩ := sm_races h x i j hr
    rcases h4 with (h4 | h4 | h4) | (h4 | h4 | h4)
    all_goals first | exact h1 h4.1 | exact h2 h4.1 | exact h3 h4.1
  · intro x i j hr
    obtain ⟨a, b, h1, h2, h3, _⟩ := sm_races h x i j hr
    exact ⟨a, b, h1, h2, h3⟩
  · intro hn
    refine ⟨fun i j hr => ?_, fun i j hr => ?_⟩
    all_goals
      obtain ⟨a, b, _, _, _, h4, _⟩ := sm_races h _ i j hr
      cases h4 hn
  · intro hw i j hr
    obtain ⟨a, b, _, _, _, _, h4⟩ := sm_races h _ i j hr
    exact h4 hw rfl

/-- `serve` up to the start of the reader. -/
def smUp : List SMAct := [.sAcc, .sAcc, .sAcc, .sAcc, .sAcc, .sMv .loop]

def smWalk : List SMAct := [.find 0, .call (.other 0) .rcfg, .acc (.other 0), .sAcc, .sAcc, .sAcc]

/-- **C118 is false**: a goroutine gets the connection from `WalkConn` and calls `ReaderConfig` while `serve` stores the reader. -/
theorem C118_refuted_reader : ∃ acts s i j a b, smRun acts = some s ∧ Race s.tr .reader i j ∧ s.tr[i]? = some a ∧ s.tr[j]? = some b ∧
    a.g = .other 0 ∧ a.line = 118 ∧ b.g = .serve ∧ b.line = 173 := by
  have h1 : ((smRun smWalk).get (by decide +kernel)).tr[10]? = some ⟨.other 0, .acc .reader false false, 118⟩ := by decide +kernel
  have h2 : ((smRun smWalk).get (by decide +kernel)).tr[13]? = some ⟨.serve, .acc .reader true false, 173⟩ := by decide +kernel
  refine ⟨smWalk, (smRun smWalk).get (by decide +kernel), 10, 13, _, _, (Option.some_get _).symm,
    ⟨by decide, ⟨_, _, h1, h2, ?_⟩, ?_⟩, h1, h2, rfl, rfl, rfl, rfl⟩
  · exact ⟨false, true, false, false, rfl, rfl, .inr rfl, by decide⟩
  · exact not_HB_of_closed [] (by decide +kernel) (by decide)

def smPush : List SMAct := [.find 0, .call (.other 0) .wr, .mv (.other 0) 1, .mv (.other 0) 1, .acc (.other 0), .sAcc, .sAcc, .sAcc, .sAcc, .sAcc]

/-- It pushes a frame while `serve` stores the inflight counter. -/
theorem C118_refuted_inflight : ∃ acts s i j a b, smRun acts = some s ∧ Race s.tr .inflight i j ∧ s.tr[i]? = some a ∧ s.tr[j]? = some b ∧
    a.g = .other 0 ∧ a.line = 683 ∧ b.g = .serve ∧ b.line = 177 := by
  have h1 : ((smRun smPush).get (by decide +kernel)).tr[11]? = some ⟨.other 0, .acc .inflight true true, 683⟩ := by decide +kernel
  have h2 : ((smRun smPush).get (by decide +kernel)).tr[16]? = some ⟨.serve, .acc .inflight true false, 177⟩ := by decide +kernel
  refine ⟨smPush, (smRun smPush).get (by decide +kernel), 11, 16, _, _, (Option.some_get _).symm,
    ⟨by decide, ⟨_, _, h1, h2, ?_⟩, ?_⟩, h1, h2, rfl, rfl, rfl, rfl⟩
  · exact ⟨true, true, true, false, rfl, rfl, .inr rfl, by decide⟩
  · exact not_HB_of_closed [] (by decide +kernel) (by decide)

def smTime : List SMAct := smUp ++ [.rAcc, .rAcc, .rAcc, .rMv .proc, .send false, .recv, .call (.handler 0) .rcfg, .acc (.handler 0),
  .mv (.handler 0) 0, .acc (.handler 0), .rAcc, .rAcc]

/-- A handler of a non-blocking frame sets the read timeout while the reader goes on to the next frame. -/
theorem C118_refuted_timeout : ∃ acts s i j a b, smRun acts = some s ∧ NoFind s.tr ∧ Race s.tr .timeout i j ∧ s.tr[i]? = some a ∧
    s.tr[j]? = some b ∧ a.g = .handler 0 ∧ a.line = 57 ∧ b.g = .reader ∧ b.line = 83 := by
  have h1 : ((smRun smTime).get (by decide +kernel)).tr[22]? = some ⟨.handler 0, .acc .timeout true false, 57⟩ := by decide +kernel
  have h2 : ((smRun smTime).get (by decide +kernel)).tr[24]? = some ⟨.reader, .acc .timeout false false, 83⟩ := by decide +kernel
  refine ⟨smTime, (smRun smTime).get (by decide +kernel), 22, 24, _, _, (Option.some_get _).symm, by unfold Spec.NoFind; decide +kernel,
    ⟨by decide, ⟨_, _, h1, h2, ?_⟩, ?_⟩, h1, h2, rfl, rfl, rfl, rfl⟩
  · exact ⟨true, false, false, false, rfl, rfl, .inl rfl, by decide⟩
  · exact not_HB_of_closed [] (by decide +kernel) (by decide)

/-- A connection on which a blocking handler sets the timeout and the id and answers, another handler makes a request of its own and starts
a goroutine that reads the id, the answer comes, and the reader closes: the hypotheses of all parts of `C118_partial` hold of it. -/
def smLife : List SMAct := smUp ++ [.rAcc, .rAcc, .rAcc, .rMv .proc, .send true, .recv, .sAcc,
  .call .serve .rcfg, .acc .serve, .mv .serve 0, .acc .serve, .mv .serve 0, .ret .serve,
  .call .serve .setID, .mv .serve 0, .acc .serve, .mv .serve 1, .acc .serve, .mv .serve 0, .ret .serve,
  .call .serve .wr, .mv .serve 1, .mv .serve 1, .acc .serve, .mv .serve 1, .acc .serve, .mv .serve 1, .acc .serve, .mv .serve 1,
  .acc .serve, .mv .serve 0, .acc .serve, .mv .serve 0, .acc .serve, .mv .serve 0, .ret .serve,
  .sMv .loop, .rMv .rd, .rAcc, .rAcc, .rAcc, .rMv .proc, .send false, .recv,
  .call (.handler 0) .wr, .mv (.handler 0) 1, .mv (.handler 0) 1, .acc (.handler 0), .mv (.handler 0) 1, .acc (.handler 0), .mv (.handler 0) 1,
  .acc (.handler 0), .mv (.handler 0) 2, .acc (.handler 0), .mv (.handler 0) 1, .acc (.handler 0), .acc (.handler 0), .acc (.handler 0),
  .skip (.handler 0), .mv (.handler 0) 1, .acc (.handler 0), .mv (.handler 0) 0, .acc (.handler 0), .mv (.handler 0) 0, .acc (.handler 0),
  .mv (.handler 0) 0, .ret (.handler 0),
  .rAcc, .rAcc, .rAcc, .rMv .proc, .call .reader .tab, .mv .reader 0, .acc .reader, .mv .reader 2, .acc .reader, .mv .reader 0, .ret .reader,
  .share (.handler 0) 0, .call (.other 0) .getID, .mv (.other 0) 0, .acc (.other 0),
  .rMv .fin, .call .reader .cls, .mv (.other 0) 0, .mv .reader 0, .acc .reader, .mv .reader 1,
  .acc .reader, .acc .reader, .acc .reader, .acc .reader, .acc .reader, .mv .reader 0, .mv .reader 0, .ret .reader,
  .rMv .fin2, .rAcc, .rAcc, .rMv .rend, .rAcc, .rMv .ended]

example : (smRun smLife).map (fun s => (s.rd, s.sv, s.hn, s.wild, s.tr.length)) = some (.ended, .loop, 1, false, 83) := by
  decide +kernel

example : ∃ s, smRun smLife = some s ∧ NoFind s.tr ∧ s.wild = false :=
  ⟨(smRun smLife).get (by decide +kernel), (Option.some_get _).symm, by unfold Spec.NoFind; decide +kernel, by decide +kernel⟩

end Qrpc
