import Verif.Lemmas.StreamMem
/-! # C137: streams and frames are used without data races -/
namespace Qrpc
open Spec

/-- g can use stream r. -/
def YmSt.uses1 (s : YmSt) (g r : Nat) : Prop := (s.pc g).str = some r ∨ ∃ f, s.has g f = true ∧ s.strOf f = some r

def YmSt.okAcc (s s' : YmSt) (g : Nat) (w a : Bool) : YmX → Prop
  | .str r F => (r = s.ns ∧ w = true ∧ a = false ∧ (s'.pc g).str = some r) ∨
      (s.uses1 g r ∧ F ≠ .binded ∧ ((F = .fixed ∧ w = false) ∨ (F ≠ .fixed ∧ a = true))) ∨ (F = .binded ∧ g = 0 ∧ (s.pc 0).str = some r)
  | .frame f | .fstream f => (f = s.nf ∧ g = 0) ∨ ((s.pc 0).frm = some f ∧ g = 0 ∧ (w = true → s'.given f = none)) ∨ (s.has g f = true ∧ w = false)

/-- What a step does. -/
structure YmTr (s s' : YmSt) (g : Nat) (L : List YmEv) : Prop where
  tr : s'.tr = s.tr ++ L
  by' : ∀ e ∈ L, e.g = g
  str : ∀ j r, (s'.pc j).str = some r → (s.pc j).str = some r ∨ (r = s.ns ∧ j = g) ∨ (j = g ∧ (∃ k, s.tbl k = some r) ∧ (MemOp.acq (.entry r) : MemOp Nat YmO YmX) ∈ L.map MemEv.op)
  tbl : ∀ k r, s'.tbl k = some r → s.tbl k = some r ∨ ((s.pc g).str = some r ∧ (MemOp.rel (.entry r) : MemOp Nat YmO YmX) ∈ L.map MemEv.op)
  sof : ∀ f r, s'.strOf f = some r → s.strOf f = some r ∨ ((s.pc 0).str = some r ∧ (s'.pc 0).frm = some f)
  frm : ∀ f, (s'.pc 0).frm = some f → (s.pc 0).frm = some f ∨ f = s.nf
  has : ∀ j f, s'.has j f = true → s.has j f = true ∨ (j = 0 ∧ (s.pc 0).frm = some f) ∨ (j = g ∧ s.given f ≠ none ∧ (MemOp.acq (.frame f) : MemOp Nat YmO YmX) ∈ L.map MemEv.op)
  giv : ∀ f, s'.given f ≠ none → s.given f ≠ none ∨ (g = 0 ∧ (s.pc 0).frm = some f ∧ (MemOp.rel (.frame f) : MemOp Nat YmO YmX) ∈ L.map MemEv.op)
  giv1 : ∀ f, s.given f ≠ none → s'.given f ≠ none
  acc : ∀ e ∈ L, ∀ x w a, e.op = .acc x w a → s.okAcc s' g w a x
  ns : s.ns ≤ s'.ns
  nf : s.nf ≤ s'.nf
  fresh : ∀ e ∈ L, ∀ x w a, e.op = .acc x w a → (∀ r F, x = .str r F → r < s'.ns) ∧ (∀ f, x = .frame f ∨ x = .fstream f → f < s'.nf)

/-- The goroutine that takes the step. -/
def YmAct.who : YmAct → Nat
  | .make g _ | .store g | .load g _ _ | .acc g _ | .del g | .fin g | .take g _ | .share g _ | .use g _ => g
  | _ => 0

theorem accs_ok (m : YmM) : ∀ q ∈ m.accs, q.1 ≠ .binded ∧ ((q.1 = .fixed ∧ q.2.1 = false) ∨ (q.1 ≠ .fixed ∧ q.2.2.1 = true)) := by
  cases m <;> decide

theorem meth_str {p : YmPc} {r : Nat} {m : YmM} (h : p.meth = some (r, m)) : p.str = some r := by
  cases p <;> simp_all [YmPc.meth, YmPc.str]

macro "ym_tac" : tactic => `(tactic| (
  (try simp only [YmAct.who, YmSt.emit, YmSt.to, ymSet, YmSt.gets, YmSt.okAcc, YmSt.uses, YmSt.uses1, ymNew])
  (try simp only [List.map_cons, List.map_nil, List.append_eq, List.cons_append, List.nil_append, List.forall_mem_cons, List.mem_cons,
    List.not_mem_nil, MemOp.acc.injEq, MemOp.acq.injEq, MemOp.rel.injEq, YmO.entry.injEq, YmO.frame.injEq, reduceCtorEq, false_imp_iff,
    imp_true_iff, and_true, or_false])
  all_goals grind [YmPc.frm, YmPc.str, YmPc.meth]))

set_option maxHeartbeats 2000000 in
theorem ymStep_tr {s s' : YmSt} {a : YmAct} (c : YmCtl s) (hs : ymStep s a = some s') : ∃ L, YmTr s s' a.who L := by
  obtain ⟨frm0, sent0, strLt, tblLt, sofLt, frmLt, givLt, frmG, hasG, -, -, -, -, -, -, -, -⟩ := c
  have hm : ∀ (g r i l : Nat) (m : YmM) (x : YmF) (w b : Bool), (s.pc g).meth = some (r, m) → m.accs[i]? = some (x, w, b, l) →
      (s.pc g).str = some r ∧ r < s.ns ∧ x ≠ .binded ∧ ((x = .fixed ∧ w = false) ∨ (x ≠ .fixed ∧ b = true)) := by
    intro g r i l m x w b h1 h2
    exact ⟨meth_str h1, strLt g r (meth_str h1), accs_ok m _ (List.mem_of_getElem? h2)⟩
  cases a <;> ym_cases hs
  all_goals first
    | exact ⟨_, rfl, (by clear frm0 sent0 strLt tblLt sofLt frmLt givLt frmG hasG hm; ym_tac),
      (by clear frm0 sent0 strLt tblLt sofLt frmLt givLt frmG hasG hm; ym_tac),
      (by clear frm0 sent0 strLt tblLt sofLt frmLt givLt frmG hasG hm; ym_tac),
      (by clear frm0 sent0 strLt tblLt sofLt frmLt givLt frmG hasG hm; ym_tac),
      (by clear sent0 strLt tblLt sofLt frmLt givLt frmG hasG hm; ym_tac),
      (by clear frm0 sent0 strLt tblLt sofLt frmLt givLt frmG hasG hm; ym_tac),
      (by clear frm0 sent0 strLt tblLt sofLt frmLt givLt frmG hasG hm; ym_tac),
      (by clear frm0 sent0 strLt tblLt sofLt frmLt givLt frmG hasG hm; ym_tac),
      (by clear frm0 sent0 strLt tblLt sofLt frmLt givLt hasG; ym_tac),
      (by clear frm0 sent0 strLt tblLt sofLt frmLt givLt frmG hasG hm; ym_tac),
      (by clear frm0 sent0 strLt tblLt sofLt frmLt givLt frmG hasG hm; ym_tac),
      (by clear frm0 sent0 frmG; ym_tac)⟩
    | exact ⟨[], (List.append_nil _).symm, (by clear frm0 sent0 strLt tblLt sofLt frmLt givLt frmG hasG hm; ym_tac),
      (by clear frm0 sent0 strLt tblLt sofLt frmLt givLt frmG hasG hm; ym_tac),
      (by clear frm0 sent0 strLt tblLt sofLt frmLt givLt frmG hasG hm; ym_tac),
      (by clear frm0 sent0 strLt tblLt sofLt frmLt givLt frmG hasG hm; ym_tac),
      (by clear sent0 strLt tblLt sofLt frmLt givLt frmG hasG hm; ym_tac),
      (by clear frm0 sent0 strLt tblLt sofLt frmLt givLt frmG hasG hm; ym_tac),
      (by clear frm0 sent0 strLt tblLt sofLt frmLt givLt frmG hasG hm; ym_tac),
      (by clear frm0 sent0 strLt tblLt sofLt frmLt givLt frmG hasG hm; ym_tac),
      (by clear frm0 sent0 strLt tblLt sofLt frmLt givLt hasG; ym_tac),
      (by clear frm0 sent0 strLt tblLt sofLt frmLt givLt frmG hasG hm; ym_tac),
      (by clear frm0 sent0 strLt tblLt sofLt frmLt givLt frmG hasG hm; ym_tac),
      (by clear frm0 sent0 frmG; ym_tac)⟩

theorem acqs {s s' : YmSt} {g : Nat} {L : List YmEv} (t : YmTr s s' g L) {o : YmO} {i : Nat} (h : KnowsO s.tr o i)
    (hm : (MemOp.acq o : MemOp Nat YmO YmX) ∈ L.map MemEv.op) : Knows s'.tr g i := by
  obtain ⟨e, he, ho⟩ := List.mem_map.1 hm
  have := KnowsO.acq_in h ho he
  rw [t.by' e he] at this
  rw [t.tr]; exact this

theorem rels {s s' : YmSt} {g : Nat} {L : List YmEv} (t : YmTr s s' g L) {o : YmO} {i : Nat} (h : Knows s.tr g i)
    (hm : (MemOp.rel o : MemOp Nat YmO YmX) ∈ L.map MemEv.op) : KnowsO s'.tr o i := by
  obtain ⟨e, he, ho⟩ := List.mem_map.1 hm
  rw [t.tr]
  exact Knows.rel_in (by rw [t.by' e he]; exact h) ho he

theorem KnowF.step {s s' : YmSt} {g f i : Nat} {L : List YmEv} (t : YmTr s s' g L) (h : s.KnowF f i) (hf : f < s.nf) : s'.KnowF f i := by
  obtain ⟨h1, h2, h3⟩ := h
  refine ⟨?_, ?_, ?_⟩
  · intro h
    rcases t.frm f h with h | h
    · rw [t.tr]; exact (h1 h).mono _
    · omega
  · intro j h
    rcases t.has j f h with h | ⟨rfl, h'⟩ | ⟨rfl, h, hm⟩
    · rw [t.tr]; exact (h2 j h).mono _
    · rw [t.tr]; exact (h1 h').mono _
    · exact acqs t (h3 h) hm
  · intro h
    rcases t.giv f h with h | ⟨rfl, h, hm⟩
    · rw [t.tr]; exact (h3 h).mono _
    · exact rels t (h1 h) hm

theorem YmCtl.sofLt' {s : YmSt} (c : YmCtl s) {f : Nat} (h : s.strOf f ≠ none) : f < s.nf := by
  rcases c.sofN f h with h | h
  · exact c.frmLt f (by rw [h]; rfl)
  · exact c.givLt f (by rw [h]; simp)

theorem YmCtl.alone {s : YmSt} (c : YmCtl s) {f : Nat} (h : (s.pc 0).frm = some f) (g : Nat) : s.has g f ≠ true :=
  fun hg => c.hasG g f hg (c.frmG f h)

theorem KnowS.step {s s' : YmSt} {g r i : Nat} {L : List YmEv} (c : YmCtl s) (c' : YmCtl s') (t : YmTr s s' g L) (h : s.KnowS r i) (hr : r < s.ns) :
    s'.KnowS r i := by
  obtain ⟨h1, h2, h3⟩ := h
  refine ⟨?_, ?_, ?_⟩
  · intro j h
    rcases t.str j r h with h | ⟨h, _⟩ | ⟨rfl, ⟨k, hk⟩, hm⟩
    · rw [t.tr]; exact (h1 j h).mono _
    · omega
    · exact acqs t (h2 k hk) hm
  · intro k h
    rcases t.tbl k r h with h | ⟨h, hm⟩
    · rw [t.tr]; exact (h2 k h).mono _
    · exact rels t (h1 g h) hm
  · intro f h
    rcases t.sof f r h with h | ⟨h, hf⟩
    · exact KnowF.step t (h3 f h) (c.sofLt' (by rw [h]; simp))
    · exact ⟨fun _ => by rw [t.tr]; exact (h1 0 h).mono _, fun j hj => absurd hj (c'.alone hf j), fun hg => absurd (c'.frmG f hf) hg⟩

def YmSt.accInv (s : YmSt) (i g : Nat) (w a : Bool) : YmX → Prop
  | .str r F => r < s.ns ∧ (F = .fixed → w = true → s.KnowS r i) ∧ (F ≠ .binded → F ≠ .fixed → a = false → s.KnowS r i) ∧
      (F = .binded → g = 0 ∨ s.KnowS r i)
  | .frame f | .fstream f => f < s.nf ∧ (w = true → s.KnowF f i) ∧ (s.given f = none → g = 0)

/-- The invariant: no races, and the accesses that could conflict with later ones are known wherever those can come from. -/
structure YmKn (s : YmSt) : Prop where
  free : ∀ x, RaceFree s.tr x
  acc : ∀ (i : Nat) (e : YmEv) (x : YmX) (w a : Bool), s.tr[i]? = some e → e.op = .acc x w a → s.accInv i e.g w a x

theorem YmKn.init : YmKn YmSt.init :=
  ⟨fun x i j h => by obtain ⟨_, ⟨a, b, ha, _⟩, _⟩ := h; simp [YmSt.init] at ha, fun i e x w a h => by simp [YmSt.init] at h⟩

theorem YmSt.KnowS.use {s : YmSt} {g r i : Nat} (h : s.KnowS r i) (hu : s.uses1 g r) : Knows s.tr g i := by
  rcases hu with hu | ⟨f, h1, h2⟩
  · exact h.1 g hu
  · exact (h.2.2 f h2).2.1 g h1

theorem YmKn.step {s s' : YmSt} {a : YmAct} (c : YmCtl s) (h : YmKn s) (hs : ymStep s a = some s') : YmKn s' := by
  have c' := c.step hs
  obtain ⟨L, t⟩ := ymStep_tr c hs
  generalize a.who = g at t
  constructor
  · rw [t.tr]
    refine emits_ok (g := g) L s.tr h.free t.by' ?_
    intro e he i b x hb hc
    obtain ⟨w, v, p, q, h1, h2, h3, h4⟩ := hc
    have hi := h.acc i b x w p hb h1
    have ho := t.acc e he x v q h2
    cases x with
    | str r F =>
      obtain ⟨i1, i2, i3, i4⟩ := hi
      rcases ho with ⟨o1, -⟩ | ⟨o1, o2, o3⟩ | ⟨o1, rfl, o3⟩
      · omega
      · rcases o3 with ⟨o3, rfl⟩ | ⟨o3, rfl⟩
        · exact (i2 o3 (by simpa using h3)).use o1
        · exact (i3 o2 o3 (by simpa using h4)).use o1
      · rcases i4 o1 with i4 | i4
        · exact Knows.own' hb i4
        · exact i4.1 0 o3
    | frame f =>
      obtain ⟨i1, i2, i3⟩ := hi
      rcases ho with ⟨o1, -⟩ | ⟨o1, rfl, -⟩ | ⟨o1, rfl⟩
      · omega
      · exact Knows.own' hb (i3 (c.frmG f o1))
      · exact (i2 (by simpa using h3)).2.1 g o1
    | fstream f =>
      obtain ⟨i1, i2, i3⟩ := hi
      rcases ho with ⟨o1, -⟩ | ⟨o1, rfl, -⟩ | ⟨o1, rfl⟩
      · omega
      · exact Knows.own' hb (i3 (c.frmG f o1))
      · exact (i2 (by simpa using h3)).2.1 g o1
  · intro i e x w p hi he
    have hi' := hi
    rw [t.tr] at hi'
    rcases snocs hi' with hi' | hL
    · have ho := h.acc i e x w p hi' he
      have hgiv : ∀ f, s'.given f = none → s.given f = none := by
        intro f h1
        cases hq : s.given f with
        | none => rfl
        | some b => exact absurd h1 (t.giv1 f (by rw [hq]; simp))
      cases x with
      | str r F =>
        obtain ⟨i1, i2, i3, i4⟩ := ho
        exact ⟨by have := t.ns; omega, fun a b => KnowS.step c c' t (i2 a b) i1, fun a b d => KnowS.step c c' t (i3 a b d) i1,
          fun a => (i4 a).imp id fun b => KnowS.step c c' t b i1⟩
      | frame f =>
        obtain ⟨i1, i2, i3⟩ := ho
        exact ⟨by have := t.nf; omega, fun a => KnowF.step t (i2 a) i1, fun a => i3 (hgiv f a)⟩
      | fstream f =>
        obtain ⟨i1, i2, i3⟩ := ho
        exact ⟨by have := t.nf; omega, fun a => KnowF.step t (i2 a) i1, fun a => i3 (hgiv f a)⟩
    · have ho := t.acc e hL x w p he
      have hf := t.fresh e hL x w p he
      have hg := t.by' e hL
      have hown : Knows s'.tr g i := Knows.own' hi hg
      have hnew : ∀ f, (f = s.nf ∧ g = 0) ∨ ((s.pc 0).frm = some f ∧ g = 0 ∧ (w = true → s'.given f = none)) ∨ (s.has g f = true ∧ w = false) →
          (w = true → s'.KnowF f i) ∧ (s'.given f = none → e.g = 0) := by
        intro f ho
        rw [hg]
        rcases ho with ⟨rfl, rfl⟩ | ⟨o1, rfl, o3⟩ | ⟨o1, rfl⟩
        · have hn : s'.given s.nf = none := by
            cases hq : s'.given s.nf with
            | none => rfl
            | some b =>
              rcases t.giv _ (by rw [hq]; simp) with hn | ⟨_, hn, _⟩
              · have := c.givLt _ hn; omega
              · have := c.frmLt _ hn; omega
          exact ⟨fun _ => ⟨fun _ => hown, fun j hj => absurd hn (c'.hasG j _ hj), fun hj => absurd hn hj⟩, fun _ => rfl⟩
        · exact ⟨fun hw => ⟨fun _ => hown, fun j hj => absurd (o3 hw) (c'.hasG j _ hj), fun hj => absurd (o3 hw) hj⟩, fun _ => rfl⟩
        · refine ⟨fun hw => absurd hw (by simp), fun hn => absurd hn (t.giv1 f (c.hasG g f o1))⟩
      cases x with
      | str r F =>
        refine ⟨hf.1 r F rfl, ?_⟩
        rcases ho with ⟨rfl, rfl, rfl, o4⟩ | ⟨o1, o2, o3⟩ | ⟨rfl, rfl, o3⟩
        · have hk : s'.KnowS s.ns i := by
            refine ⟨?_, ?_, ?_⟩
            · intro j hj
              rcases t.str j _ hj with hj | ⟨_, rfl⟩ | ⟨_, ⟨k, hk⟩, _⟩
              · have := c.strLt _ _ hj; omega
              · exact hown
              · have := c.tblLt _ _ hk; omega
            · intro k hk
              rcases t.tbl k _ hk with hk | ⟨hk, _⟩
              · have := c.tblLt _ _ hk; omega
              · have := c.strLt _ _ hk; omega
            · intro f hk
              rcases t.sof f _ hk with hk | ⟨hk, _⟩
              · have := c.sofLt _ _ hk; omega
              · have := c.strLt _ _ hk; omega
          exact ⟨fun _ _ => hk, fun _ _ _ => hk, fun _ => .inr hk⟩
        · refine ⟨fun h1 h2 => ?_, fun h1 h2 h3 => ?_, fun h1 => absurd h1 o2⟩
          · rcases o3 with ⟨_, o3⟩ | ⟨o3, _⟩
            · rw [h2] at o3; cases o3
            · exact absurd h1 o3
          · rcases o3 with ⟨o3, _⟩ | ⟨_, o3⟩
            · exact absurd o3 h2
            · rw [h3] at o3; cases o3
        · exact ⟨fun h1 => (by cases h1), fun h1 => absurd rfl h1, fun _ => .inl hg⟩
      | frame f => exact ⟨hf.2 f (.inl rfl), hnew f ho⟩
      | fstream f => exact ⟨hf.2 f (.inr rfl), hnew f ho⟩

theorem ym_inv {acts : List YmAct} {s : YmSt} (hr : ymRun acts = some s) : YmCtl s ∧ YmKn s :=
  runActs_inv (P := fun s => YmCtl s ∧ YmKn s) (fun _ _ _ h hs => ⟨h.1.step hs, h.2.step h.1 hs⟩) ⟨YmCtl.init, YmKn.init⟩ hr

/-- **C137.** However reading, writing, releasing and the use of frames interleave, the fields of streams and frames are used without data races. -/
theorem C137 {acts : List YmAct} {s : YmSt} (hr : ymRun acts = some s) (x : YmX) : RaceFree s.tr x := (ym_inv hr).2.free x

/-- **C137, the first frame.** A frame that ReadFrame returned has its stream, the one of its own request id: FrameCh, Context and the others can be called, by
whoever has got the frame. -/
theorem C137_first {acts : List YmAct} {s : YmSt} (hr : ymRun acts = some s) (f : Nat) (hg : s.given f = some true) :
    ∃ r, s.strOf f = some r ∧ s.key r = s.fkey f := by
  have c := (ym_inv hr).1
  cases h : s.strOf f with
  | none => exact absurd h (c.givT f hg)
  | some r => exact ⟨r, rfl, c.keyF f r h⟩

/-- **C137, the other frames.** A frame that came from the channel of a stream has no stream: each of those methods panics. -/
theorem C137_next {acts : List YmAct} {s : YmSt} (hr : ymRun acts = some s) (f : Nat) (hg : s.given f = some false) : s.strOf f = none := by
  have c := (ym_inv hr).1
  cases h : s.strOf f with
  | none => rfl
  | some r =>
    rcases c.sofN f (by rw [h]; simp) with h' | h'
    · have := c.frmG f (by rw [h']; rfl); rw [hg] at this; cases this
    · rw [hg] at h'; cases h'

/-- A stream has one first frame. -/
structure YmOne (s : YmSt) : Prop where
  b : ∀ f r, s.strOf f = some r → s.bound r = true
  n : ∀ f r, s.pc 0 = .bind2 f r → s.bound r = true ∧ ∀ f', s.strOf f' ≠ some r
  u : ∀ f f' r, s.strOf f = some r → s.strOf f' = some r → f = f'

theorem YmOne.step {s s' : YmSt} {a : YmAct} (h : YmOne s) (hs : ymStep s a = some s') : YmOne s' := by
  obtain ⟨b, n, u⟩ := h
  constructor
  all_goals (cases a <;> ym_cases hs <;> (try simp only [YmSt.emit, YmSt.to, ymSet]) <;> grind)

/-- **C137, one first frame.** No two frames are the first of one stream. -/
theorem C137_one {acts : List YmAct} {s : YmSt} (hr : ymRun acts = some s) (f f' r : Nat) (h : s.strOf f = some r) (h' : s.strOf f' = some r) : f = f' :=
  (runActs_inv (P := YmOne) (fun _ _ _ h hs => h.step hs)
    ⟨fun f r h => by simp [YmSt.init] at h, fun f r h => by simp [YmSt.init] at h, fun f f' r h => by simp [YmSt.init] at h⟩ hr).u f f' r h h'

/-- Goroutine 1 opens stream 5; the reader reads its first two frames; goroutine 2, a handler, gets both and uses them, and answers; the stream is released. -/
def ymDemo : List YmAct :=
  [.make 1 5, .store 1, .acc 1 2, .fin 1, .read 5 false, .make 0 5, .store 0, .tryBind, .acc 0 1, .setStream, .hand, .take 2 0, .use 2 0, .share 2 0, .take 3 0, .use 3 0,
   .load 2 5 .addOut, .acc 2 3, .fin 2, .read 5 false, .make 0 5, .store 0, .tryBind, .acc 0 1, .send, .acc 0 1, .take 2 1, .use 2 1, .fin 0, .load 4 5 .release, .acc 4 3, .del 4, .fin 4]

example : ((ymRun ymDemo).map fun s => [s.strOf 0, s.strOf 1, s.tbl 5, some s.ns, some s.tr.length]) = some [some 0, none, none, some 3, some 53] ∧
    ((ymRun ymDemo).map fun s => [s.given 0, s.given 1]) = some [some true, some false] := by decide +kernel

end Qrpc
