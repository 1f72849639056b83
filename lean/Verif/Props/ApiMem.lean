import Verif.Model.ApiMem
import Verif.Lemmas.StreamMem
import Verif.Props.ChannelMem
/-!
# C139 The API, its connections and the results of CallAll are used without data races
-/
namespace Qrpc
open Spec

/-! ## Control -/

structure AmCtl (s : AmSt) : Prop where
  mine : ∀ g c, s.mine g = some c → c < s.nc ∧ g ∈ s.us ∧ s.stored c = false
  mine1 : ∀ g g' c, s.mine g = some c → s.mine g' = some c → g = g'
  stored : ∀ c, s.stored c = true → c < s.nc
  has : ∀ g c, s.has g c = true → s.stored c = true
  kids : ∀ r j, j ∈ s.kids r ↔ ∃ st, s.job j = some (r, st)
  kid : ∀ j, s.job j ≠ none → j ∈ s.us
  owns : ∀ r, r < s.nr → s.own r ∈ s.us
  jobs : ∀ j r st, s.job j = some (r, st) → r < s.nr
  lock : ∀ r j, s.lock r = some j → (s.job j = some (r, .locked) ∨ s.job j = some (r, .put))
  lock1 : ∀ r j, s.job j = some (r, .locked) → s.lock r = some j
  lock2 : ∀ r j, s.job j = some (r, .put) → s.lock r = some j
  ret : ∀ r, s.ret r = true → r < s.nr ∧ ∀ j ∈ s.kids r, s.job j = some (r, .done)

theorem AmCtl.init : AmCtl AmSt.init := by
  constructor <;> simp [AmSt.init]

macro "am_cases" h:ident : tactic => `(tactic| (
  simp only [amStep] at $h:ident
  repeat' split at $h:ident
  all_goals (first | (cases $h:ident; done) | skip)
  all_goals (try (simp only [Option.some.injEq] at $h:ident; subst $h:ident))))

theorem AmCtl.step {s s' : AmSt} {a : AmAct} (h : AmCtl s) (hs : amStep s a = some s') : AmCtl s' := by
  obtain ⟨h1, h2, h3, h4, h5, h6, h7, h8, h9, h10, h11, h12⟩ := h
  cases a <;> am_cases hs <;> constructor <;> simp only [setC]
  all_goals first
    | assumption
    | grind [setC]

/-! ## What is known -/

theorem am_mono {tr : List AmEv} {ev : AmEv} {g i : Nat} (h : Knows tr g i) : Knows (tr ++ [ev]) g i := h.mono _
theorem am_monoO {tr : List AmEv} {ev : AmEv} {o : AmO} {i : Nat} (h : KnowsO tr o i) : KnowsO (tr ++ [ev]) o i := h.mono _
theorem am_acq {tr : List AmEv} {o : AmO} {g i l : Nat} (h : KnowsO tr o i) : Knows (tr ++ [⟨g, .acq o, l⟩]) g i := h.acq (e := ⟨g, .acq o, l⟩) rfl
theorem am_rel {tr : List AmEv} {o : AmO} {g i l : Nat} (h : Knows tr g i) : KnowsO (tr ++ [⟨g, .rel o, l⟩]) o i := h.rel (e := ⟨g, .rel o, l⟩) rfl
theorem am_go {tr : List AmEv} {g j i l : Nat} (h : Knows tr g i) : Knows (tr ++ [⟨g, .go j, l⟩]) j i := h.go (e := ⟨g, .go j, l⟩) rfl
theorem am_own {tr : List AmEv} {op : MemOp Nat AmO AmX} {g l : Nat} : Knows (tr ++ [⟨g, op, l⟩]) g tr.length := Knows.own' (a := ⟨g, op, l⟩) (by simp) rfl
theorem am_old {tr : List AmEv} {a : AmEv} {i : Nat} (h : tr[i]? = some a) : Knows tr a.g i := Knows.own h

structure AmIni (s : AmSt) : Prop where
  ini : ∀ (i : Nat) (e : AmEv), s.tr[i]? = some e → e.line = 48 → (∀ g ∈ s.us, Knows s.tr g i) ∧ ∀ k, s.handed k = true → KnowsO s.tr (.hand k) i
  fixw : ∀ (i : Nat) (e : AmEv) (w p : Bool), s.tr[i]? = some e → e.op = .acc .fix w p → e.line = 48 ∨ w = false
  clo : ∀ (i : Nat) (e : AmEv) (w p : Bool), s.tr[i]? = some e → e.op = .acc .closed w p → e.line = 48 ∨ p = true

theorem AmIni.step {s s' : AmSt} {a : AmAct} (c : AmCtl s) (h : AmIni s) (hs : amStep s a = some s') : AmIni s' := by
  obtain ⟨h1, h2, h3⟩ := h
  have c1 := c.mine
  have c2 := c.kid
  have c3 := c.owns
  clear c
  cases a <;> am_cases hs <;> constructor <;> simp only [AmSt.ev]
  all_goals first
    | (intro i e he hl
       rcases getElem?_snoc he with he | ⟨-, rfl⟩
       · obtain ⟨k1, k2⟩ := h1 i e he hl
         clear h1 h2 h3
         refine ⟨fun g' hg' => ?_, fun k' hk' => ?_⟩
         · grind [← am_mono, ← am_acq, ← am_go]
         · grind [setC, ← am_monoO, ← am_rel]
       · cases hl; done)
    | (intro i e w p he ho
       rcases getElem?_snoc he with he | ⟨-, rfl⟩
       · first
           | exact h2 i e w p he ho
           | exact h3 i e w p he ho
       · first
           | (cases ho; done)
           | (cases ho; simp; done))

structure AmConn (s : AmSt) : Prop where
  conn : ∀ (i : Nat) (e : AmEv) (c : Nat) (w p : Bool), s.tr[i]? = some e → e.op = .acc (.conn c) w p → c < s.nc ∧
    (w = true → (∀ g, s.mine g = some c → Knows s.tr g i) ∧ (s.stored c = true → KnowsO s.tr (.ent c) i) ∧ ∀ g, s.has g c = true → Knows s.tr g i)

theorem AmConn.step {s s' : AmSt} {a : AmAct} (c : AmCtl s) (h : AmConn s) (hs : amStep s a = some s') : AmConn s' := by
  obtain ⟨h1⟩ := h
  have c1 := c.mine
  have c2 := c.stored
  have c3 := c.has
  have c4 := c.mine1
  clear c
  cases a <;> am_cases hs <;> constructor <;> simp only [AmSt.ev]
  all_goals
    intro i e c w p he ho
    rcases getElem?_snoc he with he | ⟨hi, rfl⟩
    · obtain ⟨k0, k1⟩ := h1 i e c w p he ho
      clear h1
      refine ⟨by omega, fun hw => ?_⟩
      obtain ⟨k1, k2, k3⟩ := k1 hw
      refine ⟨fun g' hg' => ?_, fun k' => ?_, fun g' hg' => ?_⟩
      · grind [setC, ← am_mono]
      · grind [setC, ← am_monoO, ← am_rel]
      · first
          | grind [← am_mono]
          | (simp only [setC] at hg'
             split at hg' <;> grind [setC, ← am_mono, ← am_acq])
    · first
        | (cases ho; done)
        | (cases ho; clear h1; subst hi; grind [setC, ← am_own])

/-- The accesses to the map of a CallAll: it is made; a result is put into it; its owner uses it. -/
structure AmRes (s : AmSt) : Prop where
  res : ∀ (i : Nat) (e : AmEv) (r : Nat) (w p : Bool), s.tr[i]? = some e → e.op = .acc (.res r) w p → r < s.nr ∧
    ((e.line = 99 ∧ Knows s.tr (s.own r) i ∧ ∀ j ∈ s.kids r, Knows s.tr j i) ∨
     (s.ret r = false ∧ (s.job e.g = some (r, .put) ∨ s.job e.g = some (r, .unlocked) ∨ (s.job e.g = some (r, .done) ∧ KnowsO s.tr (.wg r) i)) ∧
       (s.lock r = none → KnowsO s.tr (.mu r) i) ∧ ∀ j, s.lock r = some j → Knows s.tr j i) ∨
     (s.ret r = true ∧ Knows s.tr (s.own r) i))

theorem AmRes.step {s s' : AmSt} {a : AmAct} (c : AmCtl s) (h : AmRes s) (hs : amStep s a = some s') : AmRes s' := by
  obtain ⟨h1⟩ := h
  obtain ⟨-, -, -, -, c1, c2, c3, c4, c5, c6, c7, c8⟩ := c
  cases a <;> am_cases hs <;> constructor <;> simp only [AmSt.ev]
  all_goals
    intro i e r w p he ho
    rcases getElem?_snoc he with he | ⟨hi, rfl⟩
    · obtain ⟨k0, k1⟩ := h1 i e r w p he ho
      have k9 := am_old he
      clear h1
      refine ⟨by omega, ?_⟩
      rcases k1 with ⟨k1, k2, k3⟩ | ⟨k1, k2, k3, k4⟩ | ⟨k1, k2⟩
      · left
        refine ⟨k1, ?_, fun j hj => ?_⟩ <;> grind [setC, ← am_mono, ← am_go]
      · grind [setC, ← am_mono, ← am_monoO, ← am_acq, ← am_rel]
      · right; right
        grind [setC, ← am_mono]
    · first
        | (cases ho; done)
        | (cases ho; clear h1; subst hi; grind [setC, ← am_own])

structure AmInv (s : AmSt) : Prop where
  ctl : AmCtl s
  ini : AmIni s
  conn : AmConn s
  res : AmRes s
  free : ∀ x, RaceFree s.tr x

theorem AmInv.init : AmInv AmSt.init := by
  have hm : ∀ (i : Nat) (e : AmEv), AmSt.init.tr[i]? = some e → e.g = 0 ∧ e.line = 48 ∧ (∀ c w p, e.op ≠ .acc (.conn c) w p) ∧ ∀ r w p, e.op ≠ .acc (.res r) w p := by
    intro i e he
    have := List.mem_of_getElem? he
    simp only [AmSt.init] at this
    simp at this
    rcases this with rfl | rfl <;> simp
  refine ⟨.init, ⟨fun i e he _ => ⟨fun g hg => ?_, fun k hk => (by cases hk)⟩, fun i e w p he _ => .inl (hm i e he).2.1, fun i e w p he _ => .inl (hm i e he).2.1⟩,
    ⟨fun i e c w p he ho => absurd ho ((hm i e he).2.2.1 c w p)⟩, ⟨fun i e r w p he ho => absurd ho ((hm i e he).2.2.2 r w p)⟩, ?_⟩
  · have : g = 0 := by simpa [AmSt.init] using hg
    exact Knows.own' he ((hm i e he).1.trans this.symm)
  · rintro x i j ⟨hij, ⟨a, b, ha, hb, -⟩, hn⟩
    exact hn (.program hij ha hb ((hm i a ha).1.trans (hm j b hb).1.symm))

theorem AmInv.step {s s' : AmSt} {a : AmAct} (h : AmInv s) (hs : amStep s a = some s') : AmInv s' := by
  refine ⟨h.ctl.step hs, h.ini.step h.ctl hs, h.conn.step h.ctl hs, h.res.step h.ctl hs, ?_⟩
  obtain ⟨ctl, ⟨i1, i2, i3⟩, ⟨c1⟩, ⟨r1⟩, free⟩ := h
  have k1 := ctl.has
  have k2 := ctl.lock1
  have k3 := ctl.kids
  have k4 := ctl.ret
  cases a <;> am_cases hs <;> simp only [AmSt.ev]
  all_goals
    refine emits_ok (g := _) [_] s.tr free (by rintro e he; cases List.mem_singleton.1 he; rfl) ?_
    rintro e he i a x ha ⟨w, v, p, q, o1, o2, hw, hq⟩
    cases List.mem_singleton.1 he
    first
      | (cases o2; done)
      | (cases o2
         have a1 := i1 i a ha
         have a2 := i2 i a w p ha
         have a3 := i3 i a w p ha
         have a4 := c1 i a _ w p ha o1
         grind)
      | (cases o2
         have a1 := i1 i a ha
         have a4 := r1 i a _ w p ha o1
         grind)
      | (cases o2
         have a1 := i1 i a ha
         have a2 := i2 i a w p ha
         have a3 := i3 i a w p ha
         grind)

/-- **C139.** Whatever goroutines call Call, CallOne, CallAll and Close, the fields of the API, what NewConnection set up in its connections, and the maps
returned by CallAll are used without races. -/
theorem C139 {acts : List AmAct} {s : AmSt} (h : amRun acts = some s) : ∀ x, RaceFree s.tr x :=
  (runActs_inv (P := AmInv) (fun _ _ _ h hs => h.step hs) .init h).free

/-- When CallAll has returned, the goroutines it started are done: none of them uses the map any more. -/
theorem C139_done {acts : List AmAct} {s : AmSt} (h : amRun acts = some s) {r j : Nat} {st : AmJob} (hr : s.ret r = true) (hj : s.job j = some (r, st)) :
    st = .done ∧ ∀ s', amStep s (.put j) ≠ some s' := by
  have c := (runActs_inv (P := AmInv) (fun _ _ _ h hs => h.step hs) .init h).ctl
  have := (c.ret r hr).2 j ((c.kids r j).2 ⟨st, hj⟩)
  rw [hj] at this
  obtain rfl : st = .done := by simpa using this
  exact ⟨rfl, fun s' hs => by simp [amStep, hj] at hs⟩

/-- Two goroutines with one API: 0 makes a connection, 1 finds and uses it while 0 calls all, with two goroutines that take turns with the map; then 1 closes. -/
example : (amRun [.dial 0, .store 0, .hand 0 3, .take 1 3, .all 0, .spawn 0 0 5, .spawn 0 0 6, .load 1 0, .use 1 0, .look 6, .chk 6, .dial 6, .store 6, .use 6 1,
    .load 5 0, .use 5 0, .lock 6, .put 6, .unlock 6, .lock 5, .shut 1, .load 1 1, .use 1 1, .put 5, .fin 6, .unlock 5, .fin 5, .wait 0 0, .touch 0 0 true]).map
      (fun s => (s.tr.length, s.ret 0, s.kids 0, s.nc)) = some (31, true, [6, 5], 2) := by decide +kernel

end Qrpc
