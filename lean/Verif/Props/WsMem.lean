import Verif.Model.WsMem
import Verif.Lemmas.StreamMem
import Verif.Props.ChannelMem
/-!
# C140 A WebSocket connection is read by one goroutine at a time and written by one goroutine at a time
-/
namespace Qrpc
open Spec

theorem wm_mono {tr : List WmEv} {ev : WmEv} {g i : Nat} (h : Knows tr g i) : Knows (tr ++ [ev]) g i := h.mono _
theorem wm_monoO {tr : List WmEv} {ev : WmEv} {o : WmO} {i : Nat} (h : KnowsO tr o i) : KnowsO (tr ++ [ev]) o i := h.mono _
theorem wm_acq {tr : List WmEv} {o : WmO} {g i l : Nat} (h : KnowsO tr o i) : Knows (tr ++ [⟨g, .acq o, l⟩]) g i := h.acq (e := ⟨g, .acq o, l⟩) rfl
theorem wm_rel {tr : List WmEv} {o : WmO} {g i l : Nat} (h : Knows tr g i) : KnowsO (tr ++ [⟨g, .rel o, l⟩]) o i := h.rel (e := ⟨g, .rel o, l⟩) rfl
theorem wm_go {tr : List WmEv} {g j i l : Nat} (h : Knows tr g i) : Knows (tr ++ [⟨g, .go j, l⟩]) j i := h.go (e := ⟨g, .go j, l⟩) rfl
theorem wm_own {tr : List WmEv} {op : MemOp Nat WmO WmX} {g l : Nat} : Knows (tr ++ [⟨g, op, l⟩]) g tr.length := Knows.own' (a := ⟨g, op, l⟩) (by simp) rfl
theorem wm_old {tr : List WmEv} {a : WmEv} {i : Nat} (h : tr[i]? = some a) : Knows tr a.g i := Knows.own h

/-! ## The server -/

def WmStg.isAcc : WmStg → Bool
  | .acc _ => true
  | _ => false


structure WmCtl (s : WmSt) : Prop where
  zero : 0 ∈ s.us
  one : s.up = true → 1 ∈ s.us
  ls : ∀ g, s.ls g = true → g ∈ s.us
  hd : ∀ g, s.hd g = true → g ∈ s.us
  stg0 : ∀ c, s.nc ≤ c → s.stg c = .none
  at' : ∀ c g, s.stg c = .at g → g ∈ s.us
  got : ∀ c g, s.stg c = .got g → g ∈ s.us
  acc : ∀ c g, s.stg c = .acc g → s.has g c = true
  has : ∀ g c, s.has g c = true → g ∈ s.us ∧ (s.stg c).isAcc = true
  srv : ∀ c h, s.srv c = some h → s.has h c = true
  rdr : ∀ c r, s.rdr c = some r → s.has r c = true
  map : ∀ c, s.map c = true → (s.stg c).isAcc = true
  tok : ∀ c, s.tok c ≠ .free → (s.stg c).isAcc = true
  held : ∀ c g, s.tok c = .held g → s.has g c = true

theorem WmCtl.init : WmCtl WmSt.init := by
  constructor <;> simp [WmSt.init]

macro "wm_cases" h:ident : tactic => `(tactic| (
  simp only [wmStep] at $h:ident
  repeat' split at $h:ident
  all_goals (first | (cases $h:ident; done) | skip)
  all_goals (try (simp only [Option.some.injEq] at $h:ident; subst $h:ident))
  all_goals (try (cases ‹WmPart› <;> simp only [WmPart.of]))))

theorem WmCtl.step {s s' : WmSt} {a : WmAct} (h : WmCtl s) (hs : wmStep s a = some s') : WmCtl s' := by
  obtain ⟨h0, h1, h2, h3, h4, h5, h6, h7, h8, h9, h10, h11, h12, h13⟩ := h
  cases a <;> wm_cases hs <;> constructor <;> simp only [setC]
  all_goals first
    | assumption
    | grind [setC, WmStg.isAcc]

structure WmOvl (s : WmSt) : Prop where
  ovl : ∀ (i : Nat) (e : WmEv) (w p : Bool), s.tr[i]? = some e → e.op = .acc .ovl w p → w = true → ∀ g ∈ s.us, Knows s.tr g i

theorem WmOvl.step {s s' : WmSt} {a : WmAct} (c : WmCtl s) (h : WmOvl s) (hs : wmStep s a = some s') : WmOvl s' := by
  obtain ⟨h1⟩ := h
  have c0 := c.zero
  have c1 := c.one
  have c2 := c.acc
  have c3 := c.has
  have c4 := c.srv
  clear c
  cases a <;> wm_cases hs <;> constructor <;> simp only [WmSt.ev]
  all_goals
    intro i e w p he ho hw
    first
      | exact h1 i e w p he ho hw
      | (rcases getElem?_snoc he with he | ⟨-, rfl⟩
         · have k1 := h1 i e w p he ho hw
           clear h1
           intro g' hg'
           grind [← wm_mono, ← wm_go]
         · first
             | (cases ho; done)
             | (cases ho; cases hw; done)
             | (exfalso; grind [WmPart.of]))

/-- Everybody who has or may get the connection knows event `i`. -/
structure WmAll (s : WmSt) (c i : Nat) : Prop where
  has : ∀ g, s.has g c = true → Knows s.tr g i
  map : s.map c = true → KnowsO s.tr (.map c) i

/-- What is known of an access to `c`, with `P` in place of `WmAll` for connections that are wrapped. -/
structure WmK (s : WmSt) (c i : Nat) (P : Prop) : Prop where
  lt : c < s.nc
  at' : ∀ g, s.stg c = .at g → Knows s.tr g i
  queued : s.stg c = .queued → KnowsO s.tr (.q c) i
  got : ∀ g, s.stg c = .got g → Knows s.tr g i
  acc : (s.stg c).isAcc = true → P

structure WmConn (s : WmSt) : Prop where
  fix : ∀ (i : Nat) (e : WmEv) (c : Nat) (w p : Bool), s.tr[i]? = some e → e.op = .acc (.fix c) w p → WmK s c i (w = true → WmAll s c i)
  rd : ∀ (i : Nat) (e : WmEv) (c : Nat) (w p : Bool), s.tr[i]? = some e → e.op = .acc (.rd c) w p → WmK s c i (s.rdr c = some e.g ∨ WmAll s c i)
  wr : ∀ (i : Nat) (e : WmEv) (c : Nat) (w p : Bool), s.tr[i]? = some e → e.op = .acc (.wr c) w p →
    WmK s c i (WmAll s c i ∨ ((s.tok c = .free → KnowsO s.tr (.tok c) i) ∧ ∀ g, s.tok c = .held g → Knows s.tr g i))

theorem WmAll.step {s s' : WmSt} {a : WmAct} {c i : Nat} (ct : WmCtl s) (h : WmAll s c i) (hacc : (s.stg c).isAcc = true) (hs : wmStep s a = some s') : WmAll s' c i := by
  obtain ⟨k1, k2⟩ := h
  have c2 := ct.acc
  have c3 := ct.has
  have c4 := ct.srv
  have c5 := ct.stg0
  clear ct
  cases a <;> wm_cases hs <;> constructor <;> simp only [WmSt.ev]
  all_goals first
    | assumption
    | (intro hm; grind [setC, WmStg.isAcc, ← wm_monoO, ← wm_rel])
    | (intro g' hg'; grind [← wm_mono])
    | (intro g' hg'
       simp only [setC] at hg'
       split at hg' <;> grind [setC, WmStg.isAcc, ← wm_mono, ← wm_acq, ← wm_go])

theorem WmK.step {s s' : WmSt} {a : WmAct} {c i : Nat} {P P' : Prop} (h : WmK s c i P) (hs : wmStep s a = some s')
    (h1 : (s.stg c).isAcc = true → P → P') (h2 : ∀ g, s.stg c = .got g → Knows s.tr g i → a = .wrap g c → P') : WmK s' c i P' := by
  obtain ⟨k0, k1, k2, k3, k4⟩ := h
  cases a <;> wm_cases hs <;> constructor <;> simp only [WmSt.ev]
  all_goals first
    | assumption
    | omega
    | grind [setC, WmStg.isAcc, ← wm_mono, ← wm_monoO, ← wm_rel, ← wm_acq]

theorem WmAll.wrap {s s' : WmSt} {c i g : Nat} (ct : WmCtl s) (hg : s.stg c = .got g) (hk : Knows s.tr g i) (hs : wmStep s (.wrap g c) = some s') : WmAll s' c i := by
  have c3 := ct.has
  have c4 := ct.map
  simp only [wmStep, hg, if_true, Option.some.injEq] at hs
  subst hs
  constructor <;> simp only [WmSt.ev]
  · intro g' hg'
    simp only [setC] at hg'
    split at hg' <;> grind [setC, WmStg.isAcc, ← wm_mono]
  · grind [WmStg.isAcc]

theorem WmConn.step {s s' : WmSt} {a : WmAct} (ct : WmCtl s) (h : WmConn s) (hs : wmStep s a = some s') : WmConn s' := by
  obtain ⟨h1, h2, h3⟩ := h
  have hall : ∀ c i, WmAll s c i → (s.stg c).isAcc = true → WmAll s' c i := fun c i k ha => k.step ct ha hs
  have hwrap : ∀ c i g, s.stg c = .got g → Knows s.tr g i → a = .wrap g c → WmAll s' c i := by
    rintro c i g hg hk rfl; exact WmAll.wrap ct hg hk hs
  have f1 : ∀ (i : Nat) (e : WmEv) (c : Nat) (w p : Bool), s.tr[i]? = some e → e.op = .acc (.fix c) w p → WmK s' c i (w = true → WmAll s' c i) :=
    fun i e c w p he ho => (h1 i e c w p he ho).step hs (fun ha k hw => hall c i (k hw) ha) (fun g hg hk hc _ => hwrap c i g hg hk hc)
  have f2 : ∀ (i : Nat) (e : WmEv) (c : Nat) (w p : Bool), s.tr[i]? = some e → e.op = .acc (.rd c) w p → WmK s' c i (s'.rdr c = some e.g ∨ WmAll s' c i) := by
    intro i e c w p he ho
    refine (h2 i e c w p he ho).step hs (fun ha k => k.imp (fun k => ?_) (fun k => hall c i k ha)) (fun g hg hk hc => .inr (hwrap c i g hg hk hc))
    clear hall hwrap f1 h1 h2 h3
    cases a <;> wm_cases hs <;> grind [setC]
  have f3 : ∀ (i : Nat) (e : WmEv) (c : Nat) (w p : Bool), s.tr[i]? = some e → e.op = .acc (.wr c) w p →
      WmK s' c i (WmAll s' c i ∨ ((s'.tok c = .free → KnowsO s'.tr (.tok c) i) ∧ ∀ g, s'.tok c = .held g → Knows s'.tr g i)) := by
    intro i e c w p he ho
    refine (h3 i e c w p he ho).step hs (fun ha k => k.imp (fun k => hall c i k ha) (fun k => ?_)) (fun g hg hk hc => .inl (hwrap c i g hg hk hc))
    clear hall hwrap f1 f2 h1 h2 h3
    obtain ⟨k1, k2⟩ := k
    cases a <;> wm_cases hs <;> simp only [WmSt.ev] <;> grind [setC, ← wm_mono, ← wm_monoO, ← wm_acq, ← wm_rel]
  have c1 := ct.has
  have c2 := ct.held
  have c3 := ct.rdr
  have c4 := ct.stg0
  have c5 := ct.map
  have c6 := ct.acc
  clear hall hwrap h1 h2 h3 ct
  cases a <;> wm_cases hs <;> constructor
  all_goals
    intro i e c w p he ho
    first
      | exact f1 i e c w p he ho
      | exact f2 i e c w p he ho
      | exact f3 i e c w p he ho
      | (simp only [WmSt.ev] at he
         rcases getElem?_snoc he with he | ⟨hi, rfl⟩
         · first
             | exact f1 i e c w p he ho
             | exact f2 i e c w p he ho
             | exact f3 i e c w p he ho
         · first
             | (cases ho; done)
             | (clear f1 f2 f3 he
                cases ho
                subst hi
                constructor
                all_goals first
                  | grind [setC, WmStg.isAcc, WmPart.of, WmSt.ev, WmAll, ← wm_own]
                  | (refine fun _ _ => ⟨fun g' hg' => ?_, fun hm => ?_⟩
                     · simp only [setC] at hg'
                       split at hg' <;> grind [WmStg.isAcc, WmSt.ev, ← wm_own]
                     · grind [WmStg.isAcc])))

structure WmInv (s : WmSt) : Prop where
  ctl : WmCtl s
  ovl : WmOvl s
  conn : WmConn s
  free : ∀ x, RaceFree s.tr x

theorem WmInv.init : WmInv WmSt.init := by
  have hm : ∀ (i : Nat) (e : WmEv), WmSt.init.tr[i]? = some e → e = ⟨0, .acc .ovl true false, 63⟩ := by
    intro i e he
    have := List.mem_of_getElem? he
    simpa [WmSt.init] using this
  refine ⟨.init, ⟨fun i e w p he _ _ g hg => ?_⟩, ⟨?_, ?_, ?_⟩, ?_⟩
  · have : g = 0 := by simpa [WmSt.init] using hg
    exact Knows.own' he (by rw [hm i e he, this])
  all_goals first
    | (intro i e c w p he ho; rw [hm i e he] at ho; cases ho; done)
    | skip
  rintro x i j ⟨hij, ⟨a, b, ha, hb, -⟩, hn⟩
  exact hn (.program hij ha hb (by rw [hm i a ha, hm j b hb]))

theorem WmInv.step {s s' : WmSt} {a : WmAct} (h : WmInv s) (hs : wmStep s a = some s') : WmInv s' := by
  refine ⟨h.ctl.step hs, h.ovl.step h.ctl hs, h.conn.step h.ctl hs, ?_⟩
  obtain ⟨ctl, ⟨o1⟩, ⟨f1, f2, f3⟩, free⟩ := h
  have k1 := ctl.has
  have k2 := ctl.rdr
  have k3 := ctl.held
  have k4 := ctl.stg0
  cases a <;> wm_cases hs <;> simp only [WmSt.ev]
  all_goals first
    | exact free
    | skip
  all_goals
    refine emits_ok (g := _) [_] s.tr free (by rintro e he; cases List.mem_singleton.1 he; rfl) ?_
    rintro e he i a x ha ⟨w, v, p, q, c1, c2, hw, hq⟩
    cases List.mem_singleton.1 he
    have k9 := wm_old ha
    first
      | (cases c2; done)
      | (cases c2
         have a1 := o1 i a w p ha
         grind)
      | (cases c2
         obtain ⟨m1, m2, m3, m4, m5⟩ := f1 i a _ w p ha c1
         grind [WmStg.isAcc, WmAll])
      | (cases c2
         obtain ⟨m1, m2, m3, m4, m5⟩ := f2 i a _ w p ha c1
         grind [WmStg.isAcc, WmAll])
      | (cases c2
         obtain ⟨m1, m2, m3, m4, m5⟩ := f3 i a _ w p ha c1
         grind [WmStg.isAcc, WmAll])

/-- **C140**, the server's side: whatever is done with the connections accepted from the overlay, all uses of the reading half of a connection are ordered, and so are all uses of its writing half; and
the overlay and what is set up in a connection are used without races. -/
theorem C140_server {acts : List WmAct} {s : WmSt} (h : wmRun acts = some s) : ∀ x, RaceFree s.tr x :=
  (runActs_inv (P := WmInv) (fun _ _ _ h hs => h.step hs) .init h).free

/-! ## The client -/

structure WcCtl (s : WcSt) : Prop where
  one : 1 ∈ s.us
  dial : ∀ c, s.ph = .dialing c → c + 1 = s.nc
  sett : ∀ c, s.ph = .setting c → c + 1 = s.nc
  rwc : ∀ c, s.rwc = some c → c + 1 = s.nc ∧ s.lbw = c ∧ (s.ph = .top ∨ s.ph = .run c)
  run : ∀ c, s.ph = .run c → s.lbw = c ∧ c + 1 = s.nc
  rdr : ∀ r, s.rdr = some r → (∃ c, s.ph = .run c) ∧ r ∈ s.us
  rdr0 : s.rdr = none → s.rc = none ∧ s.rEnd = false
  wtr : ∀ w, s.wtr = some w → (∃ c, s.ph = .run c) ∧ w ∈ s.us
  wtr0 : s.wtr = none → s.wEnd = false
  rc : ∀ c, s.rc = some c → s.ph = .run c
  mu : ∀ g b, s.mu = some (g, b) → g ∈ s.us ∧ (b = false → g = 1 ∧ ∃ c, s.ph = .setting c)
  set : ∀ c, s.ph = .setting c → s.mu = some (1, false)

theorem WcCtl.init (first : Bool) : WcCtl (WcSt.init first) := by
  cases first <;> constructor <;> simp [WcSt.init]

macro "wc_cases" h:ident : tactic => `(tactic| (
  simp only [wcStep] at $h:ident
  repeat' split at $h:ident
  all_goals (first | (cases $h:ident; done) | skip)
  all_goals (try (simp only [Option.some.injEq] at $h:ident; subst $h:ident))
  all_goals (try (cases ‹WmPart› <;> simp only [WmPart.of]))))

theorem WcCtl.step {s s' : WcSt} {a : WcAct} (h : WcCtl s) (hs : wcStep s a = some s') : WcCtl s' := by
  obtain ⟨h0, h1, h1', h2, h3, h4, h5, h6, h7, h8, h9, h10⟩ := h
  cases a <;> wc_cases hs <;> constructor
  all_goals first
    | assumption
    | grind

/-- The connection that is being set up or used. -/
inductive WcLive (s : WcSt) (c : Nat) : Prop
  | top (h : s.ph = .top) (h1 : s.rwc = some c)
  | dialing (h : s.ph = .dialing c)
  | setting (h : s.ph = .setting c)
  | run (h : s.ph = .run c)

/-- Everybody who has or may get the Connection knows event `i`. -/
structure WcAll (s : WcSt) (i : Nat) : Prop where
  us : ∀ g ∈ s.us, Knows s.tr g i
  hand : ∀ k, s.handed k = true → KnowsO s.tr (.hand k) i

structure WcConn (s : WcSt) : Prop where
  fix : ∀ (i : Nat) (e : WmEv) (c : Nat) (w p : Bool), s.tr[i]? = some e → e.op = .acc (.fix c) w p → c < s.nc ∧
    (w = true ∨ ∀ c', s.ph = .dialing c' → c ≠ c') ∧ (w = true → WcLive s c → WcAll s i ∨
      (Knows s.tr 1 i ∧ (s.mu = none → s.rwc = some c → KnowsO s.tr .mu i) ∧ ∀ g b, s.mu = some (g, b) → s.rwc = some c → Knows s.tr g i))
  rd : ∀ (i : Nat) (e : WmEv) (c : Nat) (w p : Bool), s.tr[i]? = some e → e.op = .acc (.rd c) w p → c < s.nc ∧
    (WcLive s c → (Knows s.tr 1 i ∧ ∀ r, s.rdr = some r → Knows s.tr r i) ∨ (s.rdr = some e.g ∧ s.ph = .run c))
  wr : ∀ (i : Nat) (e : WmEv) (c : Nat) (w p : Bool), s.tr[i]? = some e → e.op = .acc (.wr c) w p → c < s.nc ∧
    (WcLive s c → (Knows s.tr 1 i ∧ ∀ r, s.wtr = some r → Knows s.tr r i) ∨ (s.wtr = some e.g ∧ s.ph = .run c))

theorem WcAll.step {s s' : WcSt} {a : WcAct} {i : Nat} (ct : WcCtl s) (h : WcAll s i) (hs : wcStep s a = some s') : WcAll s' i := by
  obtain ⟨k1, k2⟩ := h
  have c0 := ct.one
  clear ct
  cases a <;> wc_cases hs <;> constructor <;> simp only [WcSt.ev]
  all_goals first
    | assumption
    | (intro k hk; grind [setC, ← wm_mono, ← wm_monoO, ← wm_rel, ← wm_acq, ← wm_go])

/-- A connection that is live was live before, or has just been dialled. -/
theorem WcLive.back {s s' : WcSt} {a : WcAct} {c : Nat} (ct : WcCtl s) (hs : wcStep s a = some s') (hc : c < s.nc) (h : WcLive s' c) : WcLive s c := by
  have c1 := ct.rwc
  clear ct
  cases a <;> wc_cases hs <;> (rcases h with ⟨h, h'⟩ | ⟨h⟩ | ⟨h⟩ | ⟨h⟩) <;> grind [WcLive]

theorem WcConn.step {s s' : WcSt} {a : WcAct} (ct : WcCtl s) (h : WcConn s) (hs : wcStep s a = some s') : WcConn s' := by
  obtain ⟨h1, h2, h3⟩ := h
  have hall : ∀ i, WcAll s i → WcAll s' i := fun i k => k.step ct hs
  have hback : ∀ c, c < s.nc → WcLive s' c → WcLive s c := fun c hc k => k.back ct hs hc
  have hnc : s.nc ≤ s'.nc := by
    clear hall hback h1 h2 h3 ct
    cases a <;> wc_cases hs <;> simp
  have f1 : ∀ (i : Nat) (e : WmEv) (c : Nat) (w p : Bool), s.tr[i]? = some e → e.op = .acc (.fix c) w p → c < s'.nc ∧
      (w = true ∨ ∀ c', s'.ph = .dialing c' → c ≠ c') ∧ (w = true → WcLive s' c → WcAll s' i ∨
      (Knows s'.tr 1 i ∧ (s'.mu = none → s'.rwc = some c → KnowsO s'.tr .mu i) ∧ ∀ g b, s'.mu = some (g, b) → s'.rwc = some c → Knows s'.tr g i)) := by
    intro i e c w p he ho
    obtain ⟨k1, k2, k3⟩ := h1 i e c w p he ho
    refine ⟨by omega, ?_, fun hw hl => ?_⟩
    · clear hall hback h1 h2 h3
      cases a <;> wc_cases hs <;> grind
    · rcases k3 hw (hback c k1 hl) with k | ⟨m1, m2, m3⟩
      · exact .inl (hall i k)
      · right
        have c1 := ct.rwc
        have c2 := ct.set
        have c3 := ct.mu
        clear hall hback h1 h2 h3 k3 ct
        cases a <;> wc_cases hs <;> simp only [WcSt.ev] <;> grind [← wm_mono, ← wm_monoO, ← wm_acq, ← wm_rel]
  have f2 : ∀ (i : Nat) (e : WmEv) (c : Nat) (w p : Bool), s.tr[i]? = some e → e.op = .acc (.rd c) w p → c < s'.nc ∧
      (WcLive s' c → (Knows s'.tr 1 i ∧ ∀ r, s'.rdr = some r → Knows s'.tr r i) ∨ (s'.rdr = some e.g ∧ s'.ph = .run c)) := by
    intro i e c w p he ho
    obtain ⟨k1, k3⟩ := h2 i e c w p he ho
    refine ⟨by omega, fun hl => ?_⟩
    have k4 := k3 (hback c k1 hl)
    have c1 := ct.rwc
    clear hall hback h1 h2 h3 k3 ct
    cases a <;> wc_cases hs <;> simp only [WcSt.ev] <;> grind [WcLive, ← wm_mono, ← wm_go]
  have f3 : ∀ (i : Nat) (e : WmEv) (c : Nat) (w p : Bool), s.tr[i]? = some e → e.op = .acc (.wr c) w p → c < s'.nc ∧
      (WcLive s' c → (Knows s'.tr 1 i ∧ ∀ r, s'.wtr = some r → Knows s'.tr r i) ∨ (s'.wtr = some e.g ∧ s'.ph = .run c)) := by
    intro i e c w p he ho
    obtain ⟨k1, k3⟩ := h3 i e c w p he ho
    refine ⟨by omega, fun hl => ?_⟩
    have k4 := k3 (hback c k1 hl)
    have c1 := ct.rwc
    clear hall hback h1 h2 h3 k3 ct
    cases a <;> wc_cases hs <;> simp only [WcSt.ev] <;> grind [WcLive, ← wm_mono, ← wm_go]
  have c1 := ct.rwc
  have c2 := ct.dial
  have c3 := ct.run
  have c4 := ct.rdr
  have c5 := ct.wtr
  have c6 := ct.rc
  clear hall hback hnc h1 h2 h3 ct
  cases a <;> wc_cases hs <;> constructor
  all_goals
    intro i e c w p he ho
    first
      | exact f1 i e c w p he ho
      | exact f2 i e c w p he ho
      | exact f3 i e c w p he ho
      | (simp only [WcSt.ev] at he
         rcases getElem?_snoc he with he | ⟨hi, rfl⟩
         · first
             | exact f1 i e c w p he ho
             | exact f2 i e c w p he ho
             | exact f3 i e c w p he ho
         · first
             | (cases ho; done)
             | (clear f1 f2 f3 he
                cases ho
                subst hi
                simp only [WcSt.ev]
                grind [WcLive, ← wm_own]))

structure WcInv (s : WcSt) : Prop where
  ctl : WcCtl s
  conn : WcConn s
  free : ∀ x, RaceFree s.tr x

theorem WcInv.init (first : Bool) : WcInv (WcSt.init first) := by
  have hm : ∀ (i : Nat) (e : WmEv), (WcSt.init first).tr[i]? = some e → e.g = 0 ∧ ((∀ x w p, e.op ≠ .acc x w p) ∨
      (first = true ∧ (e.op = .acc (.fix 0) true false ∨ e.op = .acc (.rd 0) true false ∨ e.op = .acc (.wr 0) true false) ∧
        Knows (WcSt.init first).tr 1 i)) := by
    intro i e he
    have hi : i < (WcSt.init first).tr.length := (List.getElem?_eq_some_iff.1 he).1
    cases first
    · have := List.mem_of_getElem? he
      simp [WcSt.init] at this
      subst this; simp
    · simp [WcSt.init] at hi
      have h3 : (WcSt.init true).tr[3]? = some ⟨0, .go 1, 209⟩ := rfl
      rcases (by omega : i = 3 ∨ i < 3) with rfl | hi
      · rw [h3] at he; cases he; simp
      · have hk : e.g = 0 → Knows (WcSt.init true).tr 1 i := fun hg =>
          ⟨3, _, .inr (.program hi he h3 hg), h3, .inr rfl⟩
        rcases (by omega : i = 0 ∨ i = 1 ∨ i = 2) with rfl | rfl | rfl <;> cases he <;> simp <;> exact hk rfl
  have hall : ∀ (i : Nat) (e : WmEv), (WcSt.init first).tr[i]? = some e → Knows (WcSt.init first).tr 1 i → WcAll (WcSt.init first) i := by
    intro i e he hk
    refine ⟨fun g hg => ?_, fun k hk => by cases hk⟩
    have : g = 1 ∨ g = 0 := by simpa [WcSt.init] using hg
    rcases this with rfl | rfl
    · exact hk
    · exact Knows.own' he (hm i e he).1
  refine ⟨.init first, ⟨?_, ?_, ?_⟩, ?_⟩
  · intro i e c w p he ho
    obtain ⟨g0, h | ⟨rfl, h, hk⟩⟩ := hm i e he
    · exact absurd ho (h _ _ _)
    · rw [ho] at h; simp at h
      obtain ⟨rfl, rfl, rfl⟩ := h
      exact ⟨by decide, .inl rfl, fun _ _ => .inl (hall i e he hk)⟩
  · intro i e c w p he ho
    obtain ⟨g0, h | ⟨rfl, h, hk⟩⟩ := hm i e he
    · exact absurd ho (h _ _ _)
    · rw [ho] at h; simp at h
      obtain ⟨rfl, rfl, rfl⟩ := h
      exact ⟨by decide, fun _ => .inl ⟨hk, fun r hr => by cases hr⟩⟩
  · intro i e c w p he ho
    obtain ⟨g0, h | ⟨rfl, h, hk⟩⟩ := hm i e he
    · exact absurd ho (h _ _ _)
    · rw [ho] at h; simp at h
      obtain ⟨rfl, rfl, rfl⟩ := h
      exact ⟨by decide, fun _ => .inl ⟨hk, fun r hr => by cases hr⟩⟩
  · rintro x i j ⟨hij, ⟨a, b, ha, hb, -⟩, hn⟩
    exact hn (.program hij ha hb ((hm i a ha).1.trans (hm j b hb).1.symm))

theorem WcInv.step {s s' : WcSt} {a : WcAct} (h : WcInv s) (hs : wcStep s a = some s') : WcInv s' := by
  refine ⟨h.ctl.step hs, h.conn.step h.ctl hs, ?_⟩
  obtain ⟨ctl, ⟨f1, f2, f3⟩, free⟩ := h
  have c0 := ctl.one
  have c1 := ctl.rwc
  have c2 := ctl.dial
  have c3 := ctl.run
  have c4 := ctl.rdr
  have c5 := ctl.wtr
  have c6 := ctl.rc
  have c7 := ctl.mu
  cases a <;> wc_cases hs <;> simp only [WcSt.ev]
  all_goals first
    | exact free
    | skip
  all_goals
    refine emits_ok (g := _) [_] s.tr free (by rintro e he; cases List.mem_singleton.1 he; rfl) ?_
    rintro e he i a x ha ⟨w, v, p, q, o1, o2, hw, hq⟩
    cases List.mem_singleton.1 he
    have k9 := wm_old ha
    first
      | (cases o2; done)
      | (cases o2
         have m := f1 i a _ w p ha o1
         clear f1 f2 f3
         grind [WcLive, WcAll])
      | (cases o2
         have m := f2 i a _ w p ha o1
         clear f1 f2 f3
         grind [WcLive])
      | (cases o2
         have m := f3 i a _ w p ha o1
         clear f1 f2 f3
         grind [WcLive])

/-- **C140**, the client's side: however often a connection is lost and dialled again, and whoever closes it, each WebSocket connection is read by one goroutine at a time and written by one at a time. -/
theorem C140_client {first : Bool} {acts : List WcAct} {s : WcSt} (h : wcRun first acts = some s) : ∀ x, RaceFree s.tr x :=
  (runActs_inv (P := WcInv) (fun _ _ _ h hs => h.step hs) (.init first) h).free

/-- Two connections are upgraded and one is dropped; the other is accepted by goroutine 2, served by 10, read by 11, written by a handler (12), by goroutine 0, which found it, and closed by the HTTP
goroutine, while the reader goes on. -/
example : (wmRun [.serveHTTP, .request 5, .spawn 0 2, .request 6, .upgrade 6, .upgrade 5, .init 6 0 .rd, .init 6 0 .wr, .init 5 1 .rd, .look 6, .offer 6 0, .look 5, .drop 5 1,
    .look 2, .accept 2 0, .wrap 2 0, .close 2 0, .serve 2 0 10, .track 10 0, .rdr 10 0 11, .read 11 0, .find 0 0, .spawn 10 12, .take 12 0, .read 11 0, .write 12 0, .give 12 0,
    .take 0 0, .write 0 0, .read 11 0, .find 1 0, .close 1 0, .read 11 0, .lose 0 0]).map
      (fun s => (s.tr.length, s.stg 0, s.stg 1, s.tok 0, s.rdr 0)) = some (33, .acc 2, .dropped, .lost, some 11) := by decide +kernel

/-- The first connection is closed by goroutine 7 while it is in use, and a second one is dialled and used. -/
example : (wcRun true [.hand 0 0, .take 7 0, .keep, .reader 2, .writer 3, .rstart, .read, .write, .lock 7, .write, .shut 7, .read, .unlock 7, .rfin, .wfin, .lock 1, .unlock 1, .wait,
    .dial, .init .rd, .init .wr, .setl, .setu, .writer 4, .write, .reader 5, .spawn 5 6, .rstart, .read, .lock 6, .shut 6]).map
      (fun s => (s.tr.length, s.nc, s.rc, s.rwc)) = some (32, 2, some 1, none) := by decide +kernel

end Qrpc
