import Verif.Model.ServeMem
import Verif.Lemmas.Mem
/-!
# Server connection: the control part of the accesses (for C118)
-/
namespace Qrpc
open Spec

/-! ## The phases -/

/-- Phases with ci's lock, with its read lock, with the token. -/
def KPh.mu : KPh → Bool
  | .setID1 | .setID2 | .ntf1 | .ntf2 | .tab1 | .tab2 | .cls1 | .cls2 | .w6 | .w7 => true
  | _ => false

def KPh.rl : KPh → Bool
  | .getID1 => true
  | _ => false

def KPh.tok : KPh → Bool
  | .w1 | .w2 | .w3 | .w4 | .w5 | .w6 | .w7 | .w8 | .w9 | .wErr | .wErr2 | .wCls | .wQuit | .wFin | .wAbort => true
  | _ => false

def KPh.rc : KPh → Bool
  | .rcfg | .rcfg1 => true
  | _ => false

def edgeOK (p : KPh) : KSync × KPh → Bool
  | (.none, q) => q.mu == p.mu && q.rl == p.rl && q.tok == p.tok
  | (.lock _, q) => !p.mu && !p.rl && q.mu && !q.rl && q.tok == p.tok
  | (.unlock _, q) => p.mu && !p.rl && !q.mu && !q.rl && q.tok == p.tok
  | (.rlock _, q) => !p.mu && !p.rl && !q.mu && q.rl && q.tok == p.tok
  | (.runlock _, q) => !p.mu && p.rl && !q.mu && !q.rl && q.tok == p.tok
  | (.take _, q) => !p.tok && q.tok && q.mu == p.mu && q.rl == p.rl
  | (.give _, q) => p.tok && !q.tok && q.mu == p.mu && q.rl == p.rl
  | (.lose, q) => p.tok && !q.tok && q.mu == p.mu && q.rl == p.rl

theorem next_ok (p : KPh) : ∀ e ∈ p.next, edgeOK p e = true := by cases p <;> decide
theorem next_rc (p : KPh) : ∀ e ∈ p.next, e.2.rc = true → p.rc = true := by cases p <;> decide
theorem calls_ok (p : KPh) : p.calls = true → p.mu = false ∧ p.rl = false ∧ p.rc = false ∧ p.block = [] := by cases p <;> decide
theorem entry_ok (p : KPh) : p.entry = true → p.mu = false ∧ p.rl = false ∧ p.tok = false := by cases p <;> decide

def SX.guarded : SX → Bool
  | .closed | .id | .closeNotify | .respes => true
  | _ => false

theorem kblock (p : KPh) : ∀ a ∈ p.block, (a.x.guarded = true → a.line ≠ 90 → p.mu = true) ∧ (a.line = 90 → a.x = .id ∧ a.w = false ∧ p.rl = true) ∧
    (a.x = .cached → p.tok = true) ∧ a.x ≠ .writer ∧ a.x ≠ .bufr ∧ (a.x = .reader → a.w = false ∧ a.line = 118) ∧ (a.x = .inflight → a.a = true) ∧
    (a.a = true → a.x = .inflight) ∧ (a.x = .timeout → a.line = 57 ∧ p.rc = true) ∧ (a.line = 118 → a.x = .reader ∧ p.rc = true) := by
  cases p <;> decide

theorem vblock (p : VPh) : ∀ a ∈ p.block, a.x.guarded = false ∧ a.x ≠ .cached ∧ a.line ≠ 90 ∧ a.a = false ∧ (a.x ≠ .writer → p = .setup) ∧
    (a.x = .reader → a.w = true ∧ a.line = 173) ∧ (a.x = .inflight → a.w = true ∧ a.line = 177) ∧ (a.x = .timeout → a.line = 45) := by
  cases p <;> decide

theorem dblock (p : DPh) : ∀ a ∈ p.block, a.x.guarded = false ∧ a.x ≠ .cached ∧ a.line ≠ 90 ∧ a.x ≠ .writer ∧ (a.a = true ↔ a.x = .inflight) ∧
    (a.x = .reader → a.w = false ∧ a.line ∈ [364, 379]) ∧ (a.x = .timeout → a.line = 83 ∧ a.w = false ∧ p = .rd) ∧ p ≠ .off := by
  cases p <;> decide

/-! ## Control -/

def DPh.still : DPh → Bool
  | .gate | .rend | .ended => true
  | _ => false

structure SMCtl (s : SMSt) : Prop where
  low : ∀ g f fs, s.stk g = f :: fs → ∀ f' ∈ fs, f'.ph.calls = true
  muT : ∀ g f fs, s.stk g = f :: fs → f.ph.mu = true → s.mu = some g
  rlT : ∀ g f fs, s.stk g = f :: fs → f.ph.rl = true → g ∈ s.rl
  rlMu : s.mu ≠ none → s.rl = []
  tokF : ∀ g, ∀ f ∈ s.stk g, f.ph.tok = true → s.tok = .held g
  tokU : ∀ g, (s.stk g).Pairwise fun a b => ¬ (a.ph.tok = true ∧ b.ph.tok = true)
  todo : ∀ g, ∀ f ∈ s.stk g, ∀ a ∈ f.todo, a ∈ f.ph.block
  live : ∀ g, s.stk g ≠ [] → s.live g = true
  svt : ∀ a ∈ s.svTodo, a ∈ s.sv.block
  rdt : ∀ a ∈ s.rdTodo, a ∈ s.rd.block
  sst : s.stk .serve ≠ [] → s.sv = .blk ∨ s.sv = .exit
  rst : s.stk .reader ≠ [] → s.rd = .proc ∨ s.rd = .fin
  off : s.rd = .off ↔ s.sv = .setup
  early : s.sv = .setup → s.q = [] ∧ s.hn = 0
  blk : s.sv = .blk → s.rd.still = true ∧ s.gate = false ∧ ∀ e ∈ s.q, e.2 = false
  opn : s.gate = true → s.rd.still = true ∧ ∀ e ∈ s.q, e.2 = false
  qB : ∀ n, (n, true) ∈ s.q → s.rd.still = true
  qU : s.q.Pairwise fun a _ => a.2 = false
  rc : s.wild = false → ∀ g, ∀ f ∈ s.stk g, f.ph.rc = true → g = .reader ∨ (g = .serve ∧ s.sv = .blk)

theorem SMCtl.init : SMCtl SMSt.init := by
  constructor <;> simp [SMSt.init]

theorem setStk_self (f : SG → List SFr) (g : SG) (l : List SFr) : setStk f g l g = l := by simp [setStk]
theorem setStk_ne (f : SG → List SFr) {g g' : SG} (l : List SFr) (h : g' ≠ g) : setStk f g l g' = f g' := by simp [setStk, h]

/-- What a synchronising operation of a call leaves alone. -/
theorem sync_rest {s s' : SMSt} {g : SG} {y : KSync} (h : s.sync g y = some s') : s'.stk = s.stk ∧ s'.sv = s.sv ∧ s'.svTodo = s.svTodo ∧
    s'.rd = s.rd ∧ s'.rdTodo = s.rdTodo ∧ s'.q = s.q ∧ s'.gate = s.gate ∧ s'.hn = s.hn ∧ s'.us = s.us ∧ s'.wild = s.wild := by
  cases y <;> simp only [SMSt.sync, SMSt.emit] at h
  all_goals (try split at h) <;> try cases h
  all_goals exact ⟨rfl, rfl, rfl, rfl, rfl, rfl, rfl, rfl, rfl, rfl⟩

/-- The part of a change of the innermost call. -/
theorem SMCtl.top {s s' : SMSt} {g : SG} {f f' : SFr} {fs : List SFr} (h : SMCtl s) (hg : s.stk g = f :: fs)
    (hstk : s'.stk = setStk s.stk g (f' :: fs)) (h1 : s'.sv = s.sv) (h2 : s'.svTodo = s.svTodo) (h3 : s'.rd = s.rd) (h4 : s'.rdTodo = s.rdTodo)
    (h5 : s'.q = s.q) (h6 : s'.gate = s.gate) (h7 : s'.hn = s.hn) (h8 : s'.us = s.us) (h9 : s'.wild = s.wild)
    (ht : ∀ a ∈ f'.todo, a ∈ f'.ph.block) (hrc : f'.ph.rc = true → f.ph.rc = true)
    (hm : f'.ph.mu = true → s'.mu = some g) (hmo : ∀ g', g' ≠ g → s.mu = some g' → s'.mu = some g')
    (hr : f'.ph.rl = true → g ∈ s'.rl) (hro : ∀ g', g' ≠ g → g' ∈ s.rl → g' ∈ s'.rl) (hrm : s'.mu ≠ none → s'.rl = [])
    (htk : f'.ph.tok = true → s'.tok = .held g ∧ ∀ x ∈ fs, x.ph.tok = false)
    (htf : ∀ x ∈ fs, x.ph.tok = true → s'.tok = .held g)
    (hto : ∀ g', g' ≠ g → s.tok = .held g' → s'.tok = .held g') : SMCtl s' := by
  obtain ⟨c1, c2, c3, c4, c5, c6, c7, c8, c9, c10, c11, c12, c13, c14, c15, c16, c17, c18, c19⟩ := h
  have hl : ∀ g, s'.live g = s.live g := by intro g; cases g <;> simp [SMSt.live, h3, h7, h8]
  have hne : ∀ g', s'.stk g' ≠ [] → s.stk g' ≠ [] := by
    intro g' hn he
    by_cases e : g' = g
    · subst e; rw [hg] at he; cases he
    · rw [hstk, setStk_ne _ _ e] at hn; exact hn he
  refine ⟨?_, ?_, ?_, hrm, ?_, ?_, ?_, ?_, ?_, ?_, ?_, ?_, ?_, ?_, ?_, ?_, ?_, ?_, ?_⟩
  · intro g' k ks hk
    by_cases e : g' = g
    · subst e; rw [hstk, setStk_self] at hk; cases hk; exact c1 g' f _ hg
    · rw [hstk, setStk_ne _ _ e] at hk; exact c1 g' k ks hk
  · intro g' k ks hk hp
    by_cases e : g' = g
    · subst e; rw [hstk, setStk_self] at hk; cases hk; exact hm hp
    · rw [hstk, setStk_ne _ _ e] at hk; exact hmo g' e (c2 g' k ks hk hp)
  · intro g' k ks hk hp
    by_cases e : g' = g
    · subst e; rw [hstk, setStk_self] at hk; cases hk; exact hr hp
    · rw [hstk, setStk_ne _ _ e] at hk; exact hro g' e (c3 g' k ks hk hp)
  · intro g' k hk hp
    by_cases e : g' = g
    · subst e; rw [hstk, setStk_self] at hk
      rcases List.mem_cons.1 hk with rfl | hk
      · exact (htk hp).1
      · exact htf k hk hp
    · rw [hstk, setStk_ne _ _ e] at hk; exact hto g' e (c5 g' k hk hp)
  · intro g'
    by_cases e : g' = g
    · subst e
      rw [hstk, setStk_self]
      have := c6 g'
      rw [hg] at this
      refine List.pairwise_cons.2 ⟨fun x hx hp => ?_, (List.pairwise_cons.1 this).2⟩
      have := (htk hp.1).2 x hx
      rw [hp.2] at this; cases this
    · rw [hstk, setStk_ne _ _ e]; exact c6 g'
  · intro g' k hk
    by_cases e : g' = g
    · subst e; rw [hstk, setStk_self] at hk
      rcases List.mem_cons.1 hk with rfl | hk
      · exact ht
      · exact c7 g' k (by rw [hg]; exact List.mem_cons_of_mem _ hk)
    · rw [hstk, setStk_ne _ _ e] at hk; exact c7 g' k hk
  · exact fun g' hn => (hl g').trans (c8 g' (hne g' hn))
  · rw [h1, h2]; exact c9
  · rw [h3, h4]; exact c10
  · rw [h1]; exact fun hn => c11 (hne _ hn)
  · rw [h3]; exact fun hn => c12 (hne _ hn)
  · rw [h1, h3]; exact c13
  · rw [h1, h5, h7]; exact c14
  · rw [h1, h3, h5, h6]; exact c15
  · rw [h3, h5, h6]; exact c16
  · rw [h3, h5]; exact c17
  · rw [h5]; exact c18
  · rw [h1, h9]
    intro hw g' k hk hp
    by_cases e : g' = g
    · subst e; rw [hstk, setStk_self] at hk
      rcases List.mem_cons.1 hk with rfl | hk
      · exact c19 hw g' f (by rw [hg]; simp) (hrc hp)
      · exact c19 hw g' k (by rw [hg]; exact List.mem_cons_of_mem _ hk) hp
    · rw [hstk, setStk_ne _ _ e] at hk; exact c19 hw g' k hk hp

/-- A change elsewhere. -/
theorem SMCtl.base {s s' : SMSt} (h : SMCtl s) (hstk : s'.stk = s.stk) (h1 : s'.mu = s.mu) (h2 : s'.rl = s.rl) (h3 : s'.tok = s.tok)
    (h4 : s'.wild = s.wild) (hl : ∀ g, s.live g = true → s'.live g = true)
    (c9 : ∀ a ∈ s'.svTodo, a ∈ s'.sv.block) (c10 : ∀ a ∈ s'.rdTodo, a ∈ s'.rd.block)
    (c11 : s.stk .serve ≠ [] → s'.sv = .blk ∨ s'.sv = .exit) (c12 : s.stk .reader ≠ [] → s'.rd = .proc ∨ s'.rd = .fin)
    (c13 : s'.rd = .off ↔ s'.sv = .setup) (c14 : s'.sv = .setup → s'.q = [] ∧ s'.hn = 0)
    (c15 : s'.sv = .blk → s'.rd.still = true ∧ s'.gate = false ∧ ∀ e ∈ s'.q, e.2 = false)
    (c16 : s'.gate = true → s'.rd.still = true ∧ ∀ e ∈ s'.q, e.2 = false)
    (c17 : ∀ n, (n, true) ∈ s'.q → s'.rd.still = true) (c18 : s'.q.Pairwise fun a _ => a.2 = false)
    (c19 : s.stk .serve ≠ [] → s.sv = .blk → s'.sv = .blk) : SMCtl s' := by
  obtain ⟨d1, d2, d3, d4, d5, d6, d7, d8, _, _, _, _, _, _, _, _, _, _, d19⟩ := h
  refine ⟨by rw [hstk]; exact d1, by rw [hstk, h1]; exact d2, by rw [hstk, h2]; exact d3, by rw [h1, h2]; exact d4,
    by rw [hstk, h3]; exact d5, by rw [hstk]; exact d6, by rw [hstk]; exact d7, ?_, c9, c10, by rw [hstk]; exact c11, by rw [hstk]; exact c12, c13, c14,
    c15, c16, c17, c18, ?_⟩
  · rw [hstk]; exact fun g hn => hl g (d8 g hn)
  · rw [hstk, h4]
    intro hw g f hf hp
    rcases d19 hw g f hf hp with rfl | ⟨rfl, h5⟩
    · exact .inl rfl
    · exact .inr ⟨rfl, c19 (by intro he; rw [he] at hf; cases hf) h5⟩

theorem SMCtl.rests {s : SMSt} (h : SMCtl s) {g : SG} {f : SFr} {fs : List SFr} (hg : s.stk g = f :: fs) (hf : f.ph.tok = true) :
    ∀ x ∈ fs, x.ph.tok = false := by
  have := h.tokU g
  rw [hg] at this
  intro x hx
  have := (List.pairwise_cons.1 this).1 x hx
  cases hp : x.ph.tok with
  | false => rfl
  | true => exact absurd ⟨hf, hp⟩ this

/-- The innermost call goes on in the same phase, with fewer accesses to make. -/
theorem SMCtl.less {s s' : SMSt} {g : SG} {p : KPh} {t t' : List SAcc} {fs : List SFr} (h : SMCtl s) (hg : s.stk g = ⟨p, t⟩ :: fs)
    (ht : ∀ a ∈ t', a ∈ t) (hs : ∃ tr, s' = { s with tr := tr, stk := setStk s.stk g (⟨p, t'⟩ :: fs) }) : SMCtl s' := by
  obtain ⟨tr, rfl⟩ := hs
  refine h.top hg rfl rfl rfl rfl rfl rfl rfl rfl rfl rfl ?_ id ?_ (fun _ _ => id) ?_ (fun _ _ => id) h.rlMu ?_ ?_ (fun _ _ => id)
  · exact fun a ha => h.todo g ⟨p, t⟩ (by rw [hg]; simp) a (ht a ha)
  · exact fun hp => h.muT g _ _ hg hp
  · exact fun hp => h.rlT g _ _ hg hp
  · exact fun hp => ⟨h.tokF g ⟨p, t⟩ (by rw [hg]; simp) hp, h.rests hg hp⟩
  · exact fun x hx hp => h.tokF g x (by rw [hg]; exact List.mem_cons_of_mem _ hx) hp

theorem SMCtl.mv {s s1 : SMSt} {g : SG} {y : KSync} {p p' : KPh} {fs : List SFr} (h : SMCtl s) (hg : s.stk g = ⟨p, []⟩ :: fs)
    (he : (y, p') ∈ p.next) (hs : s.sync g y = some s1) : SMCtl (s1.put g (⟨p', p'.block⟩ :: fs)) := by
  obtain ⟨e1, e2, e3, e4, e5, e6, e7, e8, e9, e10⟩ := sync_rest hs
  have hok := next_ok p _ he
  have hm := h.muT g _ _ hg
  have hr := h.rlT g _ _ hg
  have ht := h.tokF g ⟨p, []⟩ (by rw [hg]; simp)
  have htr := fun hp => h.rests hg hp
  have hfs : ∀ x ∈ fs, x.ph.tok = true → s.tok = .held g := fun x hx hp => h.tokF g x (by rw [hg]; exact List.mem_cons_of_mem _ hx) hp
  simp only at hm hr ht htr
  refine h.top (s' := s1.put g (⟨p', p'.block⟩ :: fs)) (f' := ⟨p', p'.block⟩) hg (by simp [SMSt.put, e1]) e2 e3 e4 e5 e6 e7 e8 e9 e10 (fun _ => id) (next_rc p _ he)
    ?_ ?_ ?_ ?_ ?_ ?_ ?_ ?_
  all_goals
    cases y <;> simp only [SMSt.sync, SMSt.emit] at hs
    all_goals (try split at hs) <;> try cases hs
    all_goals simp only [edgeOK, Bool.and_eq_true, beq_iff_eq, Bool.not_eq_true'] at hok
    all_goals simp only [SMSt.put]
  all_goals try grind [SMCtl]

theorem SMCtl.call {s : SMSt} {g : SG} {p : KPh} {b : Bool} (h : SMCtl s) (hc : s.mayCall g = true) (hp : p.entry = true)
    (hb : b = false → s.wild = false ∧ (p.rc = true → g = .reader ∨ (g = .serve ∧ s.sv = .blk))) :
    SMCtl { s.put g (⟨p, p.block⟩ :: s.stk g) with wild := b } := by
  have hp := entry_ok p hp
  obtain ⟨c1, c2, c3, c4, c5, c6, c7, c8, c9, c10, c11, c12, c13, c14, c15, c16, c17, c18, c19⟩ := h
  have hl : s.live g = true := by
    unfold SMSt.mayCall at hc
    split at hc
    · rename_i f fs he; exact c8 g (by rw [he]; simp)
    · split at hc
      · rfl
      · simp only [Bool.or_eq_true, beq_iff_eq] at hc
        simp only [SMSt.live, bne_iff_ne]
        intro he; rw [he] at hc; rcases hc with hc | hc <;> cases hc
      · exact hc
  refine ⟨?_, ?_, ?_, c4, ?_, ?_, ?_, ?_, c9, c10, ?_, ?_, c13, c14, c15, c16, c17, c18, ?_⟩
  · intro g' k ks hk
    by_cases e : g' = g
    · subst e; simp only [SMSt.put, setStk_self] at hk; cases hk
      intro f' hf'
      unfold SMSt.mayCall at hc
      cases hs : s.stk g' with
      | nil => rw [hs] at hf'; cases hf'
      | cons f fs =>
        rw [hs] at hf' hc
        rcases List.mem_cons.1 hf' with rfl | hf'
        · exact hc
        · exact c1 g' f fs hs f' hf'
    · simp only [SMSt.put, setStk_ne _ _ e] at hk; exact c1 g' k ks hk
  · intro g' k ks hk hm
    by_cases e : g' = g
    · subst e; simp only [SMSt.put, setStk_self] at hk; cases hk; rw [hp.1] at hm; cases hm
    · simp only [SMSt.put, setStk_ne _ _ e] at hk; exact c2 g' k ks hk hm
  · intro g' k ks hk hm
    by_cases e : g' = g
    · subst e; simp only [SMSt.put, setStk_self] at hk; cases hk; rw [hp.2.1] at hm; cases hm
    · simp only [SMSt.put, setStk_ne _ _ e] at hk; exact c3 g' k ks hk hm
  · intro g' k hk hm
    by_cases e : g' = g
    · subst e; simp only [SMSt.put, setStk_self] at hk
      rcases List.mem_cons.1 hk with rfl | hk
      · rw [hp.2.2] at hm; cases hm
      · exact c5 g' k hk hm
    · simp only [SMSt.put, setStk_ne _ _ e] at hk; exact c5 g' k hk hm
  · intro g'
    by_cases e : g' = g
    · subst e; simp only [SMSt.put, setStk_self]
      exact List.pairwise_cons.2 ⟨fun x _ hx => (by rw [hp.2.2] at hx; exact absurd hx.1 (by decide)), c6 g'⟩
    · simp only [SMSt.put, setStk_ne _ _ e]; exact c6 g'
  · intro g' k hk
    by_cases e : g' = g
    · subst e; simp only [SMSt.put, setStk_self] at hk
      rcases List.mem_cons.1 hk with rfl | hk
      · exact fun _ => id
      · exact c7 g' k hk
    · simp only [SMSt.put, setStk_ne _ _ e] at hk; exact c7 g' k hk
  · intro g' hn
    by_cases e : g' = g
    · subst e; cases g' <;> exact hl
    · simp only [SMSt.put, setStk_ne _ _ e] at hn
      have := c8 g' hn
      cases g' <;> exact this
  · intro hn
    by_cases e : SG.serve = g
    · subst e
      unfold SMSt.mayCall at hc
      cases hs : s.stk .serve with
      | nil => rw [hs] at hc; simp at hc; exact hc.1
      | cons f fs => exact c11 (by rw [hs]; simp)
    · simp only [SMSt.put, setStk_ne _ _ e] at hn; exact c11 hn
  · intro hn
    by_cases e : SG.reader = g
    · subst e
      unfold SMSt.mayCall at hc
      cases hs : s.stk .reader with
      | nil => rw [hs] at hc; simp at hc; exact hc
      | cons f fs => exact c12 (by rw [hs]; simp)
    · simp only [SMSt.put, setStk_ne _ _ e] at hn; exact c12 hn
  · intro hw g' k hk hm
    by_cases e : g' = g
    · subst e; simp only [SMSt.put, setStk_self] at hk
      rcases List.mem_cons.1 hk with rfl | hk
      · exact (hb hw).2 hm
      · exact c19 (hb hw).1 g' k hk hm
    · simp only [SMSt.put, setStk_ne _ _ e] at hk; exact c19 (hb hw).1 g' k hk hm

theorem SMCtl.ret {s : SMSt} {g : SG} {f : SFr} {fs : List SFr} (h : SMCtl s) (hg : s.stk g = f :: fs) : SMCtl (s.put g fs) := by
  obtain ⟨c1, c2, c3, c4, c5, c6, c7, c8, c9, c10, c11, c12, c13, c14, c15, c16, c17, c18, c19⟩ := h
  have hne : ∀ g', (s.put g fs).stk g' ≠ [] → s.stk g' ≠ [] := by
    intro g' hn he
    by_cases e : g' = g
    · subst e; rw [hg] at he; cases he
    · simp only [SMSt.put, setStk_ne _ _ e] at hn; exact hn he
  have hlow := c1 g f fs hg
  refine ⟨?_, ?_, ?_, c4, ?_, ?_, ?_, ?_, c9, c10, fun hn => c11 (hne _ hn), fun hn => c12 (hne _ hn), c13, c14, c15, c16, c17, c18, ?_⟩
  · intro g' k ks hk f' hf'
    by_cases e : g' = g
    · subst e; simp only [SMSt.put, setStk_self] at hk; exact hlow f' (by rw [hk]; exact List.mem_cons_of_mem _ hf')
    · simp only [SMSt.put, setStk_ne _ _ e] at hk; exact c1 g' k ks hk f' hf'
  · intro g' k ks hk hm
    by_cases e : g' = g
    · subst e; simp only [SMSt.put, setStk_self] at hk
      have := (calls_ok _ (hlow k (by rw [hk]; simp))).1
      rw [this] at hm; cases hm
    · simp only [SMSt.put, setStk_ne _ _ e] at hk; exact c2 g' k ks hk hm
  · intro g' k ks hk hm
    by_cases e : g' = g
    · subst e; simp only [SMSt.put, setStk_self] at hk
      have := (calls_ok _ (hlow k (by rw [hk]; simp))).2.1
      rw [this] at hm; cases hm
    · simp only [SMSt.put, setStk_ne _ _ e] at hk; exact c3 g' k ks hk hm
  · intro g' k hk hm
    by_cases e : g' = g
    · subst e; simp only [SMSt.put, setStk_self] at hk; exact c5 g' k (by rw [hg]; exact List.mem_cons_of_mem _ hk) hm
    · simp only [SMSt.put, setStk_ne _ _ e] at hk; exact c5 g' k hk hm
  · intro g'
    by_cases e : g' = g
    · subst e; simp only [SMSt.put, setStk_self]
      have := c6 g'; rw [hg] at this; exact (List.pairwise_cons.1 this).2
    · simp only [SMSt.put, setStk_ne _ _ e]; exact c6 g'
  · intro g' k hk
    by_cases e : g' = g
    · subst e; simp only [SMSt.put, setStk_self] at hk; exact c7 g' k (by rw [hg]; exact List.mem_cons_of_mem _ hk)
    · simp only [SMSt.put, setStk_ne _ _ e] at hk; exact c7 g' k hk
  · intro g' hn
    have := c8 g' (hne g' hn)
    cases g' <;> exact this
  · intro hw g' k hk hm
    by_cases e : g' = g
    · subst e; simp only [SMSt.put, setStk_self] at hk; exact c19 hw g' k (by rw [hg]; exact List.mem_cons_of_mem _ hk) hm
    · simp only [SMSt.put, setStk_ne _ _ e] at hk; exact c19 hw g' k hk hm

theorem stills : DPh.off.still = false ∧ DPh.rd.still = false ∧ DPh.proc.still = false ∧ DPh.fin.still = false ∧ DPh.fin2.still = false ∧
    DPh.gate.still = true ∧ DPh.rend.still = true ∧ DPh.ended.still = true := by decide

theorem SMCtl.step_sMv {s s' : SMSt} {p : VPh} (h : SMCtl s) (hs : smStep s (.sMv p) = some s') : SMCtl s' := by
  have hb := h
  obtain ⟨-, -, -, -, -, -, -, -, c9, c10, c11, c12, c13, c14, c15, c16, c17, c18, -⟩ := hb
  simp only [smStep] at hs
  split at hs <;> try cases hs
  rename_i hc
  unfold svMove at hs
  split at hs <;> cases hs
  all_goals refine h.base rfl rfl rfl rfl rfl (fun g hg => (by cases g <;> simp_all [SMSt.live, SMSt.emit])) ?_ ?_ ?_ ?_ ?_ ?_ ?_ ?_ ?_ ?_ ?_
  all_goals clear h
  all_goals simp_all [SMSt.emit, VPh.block, stills]
  exact c17

theorem SMCtl.step_rMv {s s' : SMSt} {p : DPh} (h : SMCtl s) (hs : smStep s (.rMv p) = some s') : SMCtl s' := by
  have hb := h
  obtain ⟨-, -, -, -, -, -, -, -, c9, c10, c11, c12, c13, c14, c15, c16, c17, c18, -⟩ := hb
  simp only [smStep] at hs
  split at hs <;> try cases hs
  rename_i hc
  unfold rdMove at hs
  split at hs
  all_goals (try split at hs) <;> cases hs
  all_goals refine h.base rfl rfl rfl rfl rfl (fun g hg => (by cases g <;> simp_all [SMSt.live, SMSt.emit, SMSt.rTo])) ?_ ?_ ?_ ?_ ?_ ?_ ?_ ?_ ?_ ?_ ?_
  all_goals clear h
  all_goals simp_all [SMSt.emit, SMSt.rTo, stills]

theorem SMCtl.step_send {s s' : SMSt} {b : Bool} (h : SMCtl s) (hs : smStep s (.send b) = some s') : SMCtl s' := by
  have hb := h
  obtain ⟨-, -, -, -, -, -, -, -, c9, c10, c11, c12, c13, c14, c15, c16, c17, c18, -⟩ := hb
  simp only [smStep] at hs
  split at hs <;> cases hs
  rename_i hc
  have hq : ∀ e ∈ s.q, e.2 = false := by
    intro e he
    cases hb : e.2 with
    | false => rfl
    | true => have := c17 e.1 (by rw [← hb]; exact he); rw [hc.1] at this; cases this
  cases b
  all_goals refine h.base rfl rfl rfl rfl rfl (fun g hg => (by cases g <;> simp_all [SMSt.live, SMSt.emit, SMSt.rTo])) ?_ ?_ ?_ ?_ ?_ ?_ ?_ ?_ ?_ ?_ ?_
  all_goals clear h
  all_goals simp_all [SMSt.emit, SMSt.rTo, stills, List.pairwise_append]

theorem SMCtl.step_recv {s s' : SMSt} (h : SMCtl s) (hs : smStep s .recv = some s') : SMCtl s' := by
  have hb := h
  obtain ⟨-, -, -, -, -, -, -, -, c9, c10, c11, c12, c13, c14, c15, c16, c17, c18, -⟩ := hb
  simp only [smStep] at hs
  split at hs <;> try cases hs
  rename_i hc
  split at hs <;> cases hs
  all_goals refine h.base rfl rfl rfl rfl rfl (fun g hg => (by cases g <;> simp_all [SMSt.live, SMSt.emit] <;> omega)) ?_ ?_ ?_ ?_ ?_ ?_ ?_ ?_ ?_ ?_ ?_
  all_goals clear h
  all_goals simp_all [SMSt.emit]
  all_goals grind

theorem SMCtl.step_call {s s' : SMSt} {g : SG} {p : KPh} (h : SMCtl s) (hs : smStep s (.call g p) = some s') : SMCtl s' := by
  have hb := h
  obtain ⟨-, -, -, -, -, -, -, -, c9, c10, c11, c12, c13, c14, c15, c16, c17, c18, -⟩ := hb
  simp only [smStep] at hs
  split at hs <;> cases hs
  rename_i hc
  refine h.call hc.1 hc.2 ?_
  intro hb
  simp only [Bool.or_eq_false_iff, Bool.and_eq_false_iff, Bool.not_eq_false', Bool.or_eq_true, Bool.and_eq_true, beq_iff_eq] at hb
  refine ⟨hb.1, fun hp => ?_⟩
  have : p = .rcfg := by
    have := hc.2
    cases p <;> simp_all [KPh.rc, KPh.entry]
  subst this
  simpa using hb.2

theorem SMCtl.step {s s' : SMSt} {a : SMAct} (h : SMCtl s) (hs : smStep s a = some s') : SMCtl s' := by
  have hb := h
  obtain ⟨-, -, -, -, -, -, -, -, c9, c10, c11, c12, c13, c14, c15, c16, c17, c18, -⟩ := hb
  cases a with
  | sAcc =>
    simp only [smStep] at hs
    split at hs <;> cases hs
    rename_i b r hr
    refine h.base rfl rfl rfl rfl rfl (fun g hg => by cases g <;> exact hg) ?_ c10 c11 c12 c13 c14 c15 c16 c17 c18 (fun _ => id)
    exact fun x hx => c9 x (by rw [hr]; exact List.mem_cons_of_mem _ hx)
  | rAcc =>
    simp only [smStep] at hs
    split at hs <;> cases hs
    rename_i b r hr
    refine h.base rfl rfl rfl rfl rfl (fun g hg => by cases g <;> exact hg) c9 ?_ c11 c12 c13 c14 c15 c16 c17 c18 (fun _ => id)
    exact fun x hx => c10 x (by rw [hr]; exact List.mem_cons_of_mem _ hx)
  | sMv p =>
    exact h.step_sMv hs
  | rMv p =>
    exact h.step_rMv hs
  | send b =>
    exact h.step_send hs
  | recv =>
    exact h.step_recv hs
  | acc g =>
    simp only [smStep] at hs
    split at hs <;> cases hs
    rename_i p b r fs hg
    exact h.less hg (fun x hx => List.mem_cons_of_mem _ hx) ⟨_, rfl⟩
  | skip g =>
    simp only [smStep] at hs
    split at hs <;> cases hs
    rename_i b r fs hg
    exact h.less hg (fun x hx => List.mem_cons_of_mem _ hx) ⟨_, rfl⟩
  | mv g k =>
    simp only [smStep] at hs
    split at hs <;> try cases hs
    rename_i p fs hg
    split at hs <;> try cases hs
    rename_i y p' he
    cases hy : s.sync g y with
    | none => rw [hy] at hs; cases hs
    | some s1 => rw [hy] at hs; cases hs; exact h.mv hg (List.mem_of_getElem? he) hy
  | call g p =>
    exact h.step_call hs
  | ret g =>
    simp only [smStep] at hs
    split at hs <;> cases hs
    rename_i fs hg
    exact h.ret hg
  | find i =>
    simp only [smStep] at hs
    split at hs <;> cases hs
    refine h.base rfl rfl rfl rfl rfl (fun g hg => ?_) c9 c10 c11 c12 c13 c14 c15 c16 c17 c18 (fun _ => id)
    cases g <;> simp_all [SMSt.live, SMSt.emit]
  | share g j =>
    simp only [smStep] at hs
    split at hs <;> cases hs
    refine h.base rfl rfl rfl rfl rfl (fun g hg => ?_) c9 c10 c11 c12 c13 c14 c15 c16 c17 c18 (fun _ => id)
    cases g <;> simp_all [SMSt.live, SMSt.emit]

end Qrpc
