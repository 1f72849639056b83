import Verif.Lemmas.Broadcast
import Verif.Props.Channel
/-! # Property C132: a message pushed to all connections

The handler of README.md:283-304, in `Model/Broadcast.lean`. -/
namespace Qrpc
open Spec

theorem pushBytes_layout (cmd : Cmd) (payload : Bytes) (id : UInt64) : pushBytes cmd payload id = layout id cmd PushFlag payload := by
  have hl : 16 ≤ DFW.new.fromPool.wbuf.length := by decide
  obtain ⟨h1, h2⟩ := (DFW.startWrite_holds DFW.new.fromPool id cmd PushFlag hl).writeBytes payload
  rw [DFW.startWrite_payload _ _ _ _ hl, show DFW.new.fromPool.payload = [] from rfl, List.nil_append] at h2
  obtain ⟨sub, e1, e2, -⟩ := endWrite_ok h1 none (fun _ => (none : Option Unit)) (sentAs_noCodec none _ _ (by decide))
  rw [h2] at e2
  simp only [pushBytes, e1]
  exact e2

theorem pushBytes_inj {cmd : Cmd} {payload : Bytes} {p p' : UInt64} (h : pushBytes cmd payload p = pushBytes cmd payload p') : p = p' := by
  rw [pushBytes_layout, pushBytes_layout] at h
  have h := congrArg (fun b => getUint64 (List.drop 4 b)) h
  have e : ∀ q : UInt64, getUint64 ((layout q cmd PushFlag payload).drop 4) = q := by
    intro q
    rw [layout, List.drop_append_of_le_length (by rw [be_length]; omega), List.drop_of_length_le (by rw [be_length]; omega), List.nil_append,
      getUint64_be]
    simp
  simpa only [e] using h

/-- The connections that handler `i` has started goroutines for. -/
def conns (l : List Gor) (i : Nat) : List Nat := l.filterMap fun x => if x.i = i then some x.c else none

theorem filterMap_set_same {α β : Type} {f : α → Option β} {l : List α} {n : Nat} {x y : α} (h : l[n]? = some x) (he : f y = f x) :
    (l.set n y).filterMap f = l.filterMap f := by
  induction l generalizing n with
  | nil => simp at h
  | cons a l ih =>
    cases n with
    | zero =>
      simp only [List.getElem?_cons_zero, Option.some.injEq] at h
      subst h
      simp [List.filterMap_cons, he]
    | succ n =>
      simp only [List.getElem?_cons_succ] at h
      simp [List.filterMap_cons, ih h]

theorem filterMap_nodup_inj {α β : Type} {f : α → Option β} {l : List α} (h : (l.filterMap f).Nodup) {x y : α} {b : β} (hx : x ∈ l) (hy : y ∈ l)
    (ex : f x = some b) (ey : f y = some b) : x = y := by
  induction l with
  | nil => cases hx
  | cons a l ih =>
    rw [List.filterMap_cons] at h
    have hno : ∀ z ∈ l, f a = some b → f z = some b → False := by
      intro z hz ea ez
      rw [ea] at h
      exact (List.nodup_cons.1 h).1 (List.mem_filterMap.2 ⟨z, hz, ez⟩)
    have hl : (l.filterMap f).Nodup := by
      split at h
      · exact h
      · exact (List.nodup_cons.1 h).2
    rcases List.mem_cons.1 hx with hxa | hxl <;> rcases List.mem_cons.1 hy with hya | hyl
    · rw [hxa, hya]
    · exact (hno y hyl (hxa ▸ ex) ey).elim
    · exact (hno x hxl (hya ▸ ey) ex).elim
    · exact ih hl hxl hyl

theorem conns_set {l : List Gor} {n i : Nat} {x : Gor} (h : l[n]? = some x) (p : GorPc) : conns (l.set n { x with pc := p }) i = conns l i :=
  filterMap_set_same h rfl

theorem conns_append (l : List Gor) (i : Nat) (x : Gor) : conns (l ++ [x]) i = conns l i ++ if x.i = i then [x.c] else [] := by
  simp only [conns, List.filterMap_append, List.filterMap_cons, List.filterMap_nil]
  split <;> simp_all

theorem conns_mem {l : List Gor} {i c : Nat} : c ∈ conns l i ↔ ∃ x ∈ l, x.i = i ∧ x.c = c := by
  simp [conns, List.mem_filterMap]

/-! ## What steps of others leave alone -/

theorem wk_log {s s' : WkSt} {a : WkAct} (hs : wkStep s a = some s') : (∃ l, s'.log = s.log ++ l) := by
  cases a <;> simp only [wkStep] at hs <;> (repeat' split at hs) <;>
    (try simp only [Option.some.injEq, reduceCtorEq] at hs) <;> (try contradiction) <;> (try subst hs) <;>
    first
    | exact ⟨_, rfl⟩
    | exact ⟨[], (List.append_nil _).symm⟩

theorem wk_ids {s s' : WkSt} {a : WkAct} (hs : wkStep s a = some s') : (pushIDs s.log).Sublist (pushIDs s'.log) := by
  obtain ⟨l, hl⟩ := wk_log hs
  rw [hl, pushIDs, pushIDs, List.filterMap_append]
  exact List.sublist_append_left _ _

/-- A walk goes on as it was while others act. -/
theorem wk_other {s s' : WkSt} {a : WkAct} (hs : wkStep s a = some s') {i : Nat} (ha : a.walker ≠ some i) {w : Walk} (hw : s.pc i = .walk w) :
    ∃ w', s'.pc i = .walk w' ∧ w'.visited = w.visited := by
  cases a <;> simp only [wkStep] at hs <;> (repeat' split at hs) <;>
    (try simp only [Option.some.injEq, reduceCtorEq] at hs) <;> (try contradiction) <;> (try subst hs) <;>
    simp only [WkAct.walker, ne_eq, Option.some.injEq, reduceCtorEq, not_false_eq_true] at ha <;>
    first
    | exact ⟨w, hw, rfl⟩
    | (refine ⟨w, ?_, rfl⟩; simp only [setAt_other _ _ (Ne.symm ha)]; exact hw)
    | (simp only [hw]; exact ⟨_, rfl, rfl⟩)

/-! ## The invariant -/

def BcPc.pid : BcPc → Option UInt64
  | .idle => none
  | .id p | .walk p | .wait p _ _ | .answer p _ _ => some p

structure BcInv (cap : Nat) (cmd : Cmd) (payload : Bytes) (s : BcSt) : Prop where
  wk : ∃ as, wkRun as = some s.wk
  g : ∀ c, ∃ as, g0Run cap as = some (s.g c)
  ids : (s.begun.map Prod.snd).Sublist (pushIDs s.wk.log)
  hand : (s.begun.map Prod.fst).Nodup
  pid : ∀ i p, (s.pc i).pid = some p ↔ (i, p) ∈ s.begun
  gor : ∀ x ∈ s.gors, (x.i, x.p) ∈ s.begun
  early : ∀ i p, s.pc i = .id p → conns s.gors i = []
  walking : ∀ i p, s.pc i = .walk p → ∃ w, s.wk.pc i = .walk w ∧ w.visited = conns s.gors i
  ended : ∀ i p w to1, s.pc i = .wait p w to1 ∨ s.pc i = .answer p w to1 →
    .walked w to1 false ∈ s.wk.log ∧ w.visited = conns s.gors i
  gorOk : ∀ x ∈ s.gors, GorOk (s.g x.c).g (pushFrame cmd payload x.p) x.pc
  apart : ∀ (n n' : Nat) (x x' : Gor) (c j : Nat), s.gors[n]? = some x → s.gors[n']? = some x' → x.writes c j = true →
    x'.writes c j = true → n = n'
  answered : ∀ i p w to1, s.pc i = .answer p w to1 → ∀ x ∈ s.gors, x.i = i → x.pc.finished = true

theorem BcInv.init (cap : Nat) (cmd : Cmd) (payload : Bytes) : BcInv cap cmd payload BcSt.init where
  wk := ⟨[], rfl⟩
  g := fun _ => ⟨[], rfl⟩
  ids := by simp [BcSt.init]
  hand := by simp [BcSt.init]
  pid := by simp [BcSt.init, BcPc.pid]
  gor := by simp [BcSt.init]
  early := by simp [BcSt.init]
  walking := by simp [BcSt.init]
  ended := by simp [BcSt.init]
  gorOk := by simp [BcSt.init]
  apart := by simp [BcSt.init]
  answered := by simp [BcSt.init]

theorem wkRun_snoc {as : List WkAct} {s s' : WkSt} {a : WkAct} (h : wkRun as = some s) (hs : wkStep s a = some s') :
    wkRun (as ++ [a]) = some s' := by
  rw [wkRun, runActs_append, show runActs Qrpc.wkStep WkSt.init as = some s from h]
  simp [runActs, hs]

theorem g0Run_snoc {cap : Nat} {as : List G0Act} {s s' : G0St} {a : G0Act} (h : g0Run cap as = some s) (hs : g0Step cap s a = some s') :
    g0Run cap (as ++ [a]) = some s' := by
  rw [g0Run, runActs_append, show runActs (g0Step cap) G0St.init as = some s from h]
  simp [runActs, hs]

/-- A step of the registry or of a walk that is no handler's. -/
theorem BcInv.wkStep {cap : Nat} {cmd : Cmd} {payload : Bytes} {s : BcSt} (h : BcInv cap cmd payload s) {a : WkAct} {wk : WkSt}
    (hs : wkStep s.wk a = some wk) (ha : ∀ i p, s.pc i = .walk p → a.walker ≠ some i) : BcInv cap cmd payload { s with wk := wk } where
  wk := by
    obtain ⟨as, h1⟩ := h.wk
    exact ⟨_, wkRun_snoc h1 hs⟩
  g := h.g
  ids := h.ids.trans (wk_ids hs)
  hand := h.hand
  pid := h.pid
  gor := h.gor
  early := h.early
  walking := fun i p hi => by
    obtain ⟨w, h1, h2⟩ := h.walking i p hi
    obtain ⟨w', h3, h4⟩ := wk_other hs (ha i p hi) h1
    exact ⟨w', h3, h4.trans h2⟩
  ended := fun i p w to1 hi => by
    obtain ⟨h1, h2⟩ := h.ended i p w to1 hi
    obtain ⟨l, hl⟩ := wk_log hs
    exact ⟨by simp only [hl]; exact List.mem_append_left _ h1, h2⟩
  gorOk := h.gorOk
  apart := h.apart
  answered := h.answered

/-- A step on a connection; the goroutines' phases may change with it. -/
theorem BcInv.gStep {cap : Nat} {cmd : Cmd} {payload : Bytes} {s : BcSt} (h : BcInv cap cmd payload s) {c : Nat} {a : G0Act} {g : G0St}
    (hs : g0Step cap (s.g c) a = some g) (ha : s.owns c a = false) : BcInv cap cmd payload { s with g := setAt s.g c g } where
  wk := h.wk
  g := fun c' => by
    by_cases hc : c' = c
    · subst hc
      obtain ⟨as, h1⟩ := h.g c'
      exact ⟨_, by simp only [setAt_same]; exact g0Run_snoc h1 hs⟩
    · simp only [setAt_other _ _ hc]; exact h.g c'
  ids := h.ids
  hand := h.hand
  pid := h.pid
  gor := h.gor
  early := h.early
  walking := h.walking
  ended := h.ended
  gorOk := fun x hx => by
    have h1 := h.gorOk x hx
    by_cases hc : x.c = c
    · simp only [hc, setAt_same]
      rw [hc] at h1
      obtain ⟨as, h2⟩ := h.g c
      refine h1.step0 (ctx_closing h2) hs fun j hj => ⟨?_, ?_⟩
      · rintro rfl
        have := List.any_eq_false.1 ha x hx
        simp [Gor.enters, hc, hj] at this
      · rintro f' rfl
        have := List.any_eq_false.1 ha x hx
        simp [Gor.writes, hc, hj] at this
    · simp only [setAt_other _ _ hc]; exact h1
  apart := h.apart
  answered := h.answered

/-- A goroutine goes on to its next phase. -/
theorem BcInv.phase {cap : Nat} {cmd : Cmd} {payload : Bytes} {s : BcSt} (h : BcInv cap cmd payload s) {n : Nat} {x : Gor}
    (hx : s.gors[n]? = some x) {p : GorPc} (hok : GorOk (s.g x.c).g (pushFrame cmd payload x.p) p) (hf : x.pc.finished = false)
    (hw : ∀ c j, ({ x with pc := p } : Gor).writes c j = true → x.writes c j = true ∨ ∀ y ∈ s.gors, y.writes c j = false) :
    BcInv cap cmd payload { s with gors := s.gors.set n { x with pc := p } } := by
  have hm : ∀ y ∈ s.gors.set n { x with pc := p }, y ∈ s.gors ∨ y = { x with pc := p } := fun y hy => List.mem_or_eq_of_mem_set hy
  have hx' := List.mem_of_getElem? hx
  refine ⟨h.wk, h.g, h.ids, h.hand, h.pid, ?_, ?_, ?_, ?_, ?_, ?_, ?_⟩
  · intro y hy
    rcases hm y hy with hy | rfl
    · exact h.gor y hy
    · exact h.gor x hx'
  · intro i q hi
    exact (conns_set hx p).trans (h.early i q hi)
  · intro i q hi
    obtain ⟨w, h1, h2⟩ := h.walking i q hi
    exact ⟨w, h1, h2.trans (conns_set hx p).symm⟩
  · intro i q w to1 hi
    obtain ⟨h1, h2⟩ := h.ended i q w to1 hi
    exact ⟨h1, h2.trans (conns_set hx p).symm⟩
  · intro y hy
    rcases hm y hy with hy | rfl
    · exact h.gorOk y hy
    · exact hok
  · intro m m' y y' c j hy hy' h1 h2
    simp only [List.getElem?_set] at hy hy'
    have hn : n < s.gors.length := (List.getElem?_eq_some_iff.1 hx).1
    by_cases e : n = m <;> by_cases e' : n = m'
    · omega
    · subst e
      simp only [if_true, hn, Option.some.injEq] at hy
      simp only [e', if_false] at hy'
      subst hy
      rcases hw c j h1 with h3 | h3
      · exact h.apart n m' x y' c j hx hy' h3 h2
      · rw [h3 y' (List.mem_of_getElem? hy')] at h2; cases h2
    · subst e'
      simp only [if_true, hn, Option.some.injEq] at hy'
      simp only [e, if_false] at hy
      subst hy'
      rcases hw c j h2 with h3 | h3
      · exact h.apart m n y x c j hy hx h1 h3
      · rw [h3 y (List.mem_of_getElem? hy)] at h1; cases h1
    · simp only [e, e', if_false] at hy hy'
      exact h.apart m m' y y' c j hy hy' h1 h2
  · intro i q w to1 hi y hy hyi
    rcases hm y hy with hy | rfl
    · exact h.answered i q w to1 hi y hy hyi
    · have := h.answered i q w to1 hi x hx' hyi
      rw [hf] at this; cases this

theorem writes_called {x : Gor} {k c j : Nat} (h : ({ x with pc := .called k } : Gor).writes c j = true) : c = x.c ∧ j = k := by
  simp only [Gor.writes, Bool.and_eq_true, beq_iff_eq] at h
  exact ⟨h.1.symm, h.2.symm⟩

theorem writes_queued {x : Gor} {k t c j : Nat} (h : ({ x with pc := .queued k t } : Gor).writes c j = true) : c = x.c ∧ j = k := by
  simp only [Gor.writes, Bool.and_eq_true, beq_iff_eq] at h
  exact ⟨h.1.symm, h.2.symm⟩

theorem g0_call {cap : Nat} {g g' : G0St} {j : Nat} {f : SFrame} (h : g0Step cap g (.g (.call j f)) = some g') : g'.g.pc j = .enq f := by
  simp only [g0Step, GAct.ofReader, Bool.false_eq_true, false_and, if_false] at h
  split at h
  · next g1 hg =>
    simp only [Option.some.injEq] at h; subst h
    simp only [Qrpc.gStep] at hg
    split at hg
    · split at hg
      · cases hg
      · simp only [Option.some.injEq] at hg; subst hg; simp
    · cases hg
  · cases h

theorem g0_enq {cap : Nat} {g g' : G0St} {j : Nat} (h : g0Step cap g (.g (.enq j)) = some g') :
    ∃ f, g.g.pc j = .enq f ∧ g'.g.pc j = .wait g.g.frames.length ∧ g'.g.frames = g.g.frames ++ [f] := by
  simp only [g0Step, GAct.ofReader, Bool.false_eq_true, false_and, if_false] at h
  split at h
  · next g1 hg =>
    simp only [Option.some.injEq] at h; subst h
    simp only [Qrpc.gStep] at hg
    split at hg
    · next f hf =>
      split at hg
      · simp only [Option.some.injEq] at hg; subst hg; exact ⟨f, hf, by simp, rfl⟩
      · cases hg
    · cases hg
  · cases h

theorem BcInv.call {cap : Nat} {cmd : Cmd} {payload : Bytes} {s s' : BcSt} {n j : Nat} (h : BcInv cap cmd payload s)
    (hs : bcStep cap cmd payload s (.call n j) = some s') : BcInv cap cmd payload s' := by
  simp only [bcStep] at hs
  split at hs
  · next x hx =>
    split at hs
    · next hp =>
      split at hs
      · cases hs
      · next hw =>
        simp only [Option.map_eq_some_iff] at hs
        obtain ⟨g, hg, rfl⟩ := hs
        have hw' := Bool.eq_false_iff.2 hw
        have h1 := h.gStep hg hw'
        refine h1.phase hx (p := .called j) ?_ (by rw [hp]; rfl) ?_
        · exact .inl (by simp only [setAt_same]; exact g0_call hg)
        · intro c k hk
          obtain ⟨rfl, rfl⟩ := writes_called hk
          exact .inr fun y hy => Bool.eq_false_iff.2 (List.any_eq_false.1 hw' y hy)
    · cases hs
  · cases hs

theorem BcInv.enq {cap : Nat} {cmd : Cmd} {payload : Bytes} {s s' : BcSt} {n : Nat} (h : BcInv cap cmd payload s)
    (hs : bcStep cap cmd payload s (.enq n) = some s') : BcInv cap cmd payload s' := by
  simp only [bcStep] at hs
  split at hs
  · next x hx =>
    split at hs
    · next j hp =>
      simp only [Option.map_eq_some_iff] at hs
      obtain ⟨g, hg, rfl⟩ := hs
      obtain ⟨f, e1, e2, e3⟩ := g0_enq hg
      have hok := h.gorOk x (List.mem_of_getElem? hx)
      rw [hp] at hok
      have hf : f = pushFrame cmd payload x.p := by
        rcases hok with hok | ⟨hok, -⟩
        · rw [hok] at e1; injection e1 with e1; exact e1.symm
        · rw [hok] at e1; cases e1
      have hx1 : x.writes x.c j = true := by simp [Gor.writes, hp]
      -- the goroutine out of the way
      have h1 := h.phase hx (p := .new) trivial (by rw [hp]; rfl) (fun c k hk => by simp [Gor.writes] at hk)
      have hno : ∀ y ∈ s.gors.set n { x with pc := .new }, y.writes x.c j = false := by
        intro y hy
        obtain ⟨m, hm⟩ := List.getElem?_of_mem hy
        rw [List.getElem?_set] at hm
        by_cases e : n = m
        · subst e
          simp only [if_true, (List.getElem?_eq_some_iff.1 hx).1, Option.some.injEq] at hm
          subst hm
          simp [Gor.writes]
        · simp only [e, if_false] at hm
          apply Bool.eq_false_iff.2
          intro hy'
          exact e (h.apart n m x y x.c j hx hm hx1 hy')
      have ho : BcSt.owns { s with gors := s.gors.set n { x with pc := .new } } x.c (.g (.enq j)) = false := by
        simp only [BcSt.owns, List.any_eq_false]
        intro y hy hc
        have := hno y hy
        simp only [Gor.enters, Bool.and_eq_true, beq_iff_eq] at hc
        simp [Gor.writes, hc.1, hc.2] at this
      have h2 := h1.gStep hg ho
      have hx2 : (s.gors.set n { x with pc := .new })[n]? = some { x with pc := .new } := by
        rw [List.getElem?_set]; simp [(List.getElem?_eq_some_iff.1 hx).1]
      have h3 := h2.phase hx2 (p := .queued j (s.g x.c).g.frames.length) ?_ rfl ?_
      · simpa only [List.set_set] using h3
      · refine ⟨?_, .inl (.inl ?_)⟩
        · simp only [setAt_same]; rw [e3, hf]; simp
        · simp only [setAt_same]; rw [e2]; rfl
      · intro c k hk
        obtain ⟨rfl, rfl⟩ := writes_queued hk
        exact .inr hno
    · cases hs
  · cases hs

theorem BcInv.ret {cap : Nat} {cmd : Cmd} {payload : Bytes} {s s' : BcSt} {n : Nat} (h : BcInv cap cmd payload s)
    (hs : bcStep cap cmd payload s (.ret n) = some s') : BcInv cap cmd payload s' := by
  simp only [bcStep] at hs
  split at hs
  · next x hx =>
    have hok := h.gorOk x (List.mem_of_getElem? hx)
    split at hs
    · next j hp =>
      rw [hp] at hok
      split at hs
      · next hi =>
        simp only [Option.some.injEq] at hs; subst hs
        refine h.phase hx (p := .done none) ?_ (by rw [hp]; rfl) (fun c k hk => by simp [Gor.writes] at hk)
        rcases hok with hok | hok
        · rw [hi] at hok; cases hok
        · exact hok.2
      · cases hs
    · next j t hp =>
      rw [hp] at hok
      split at hs
      · next hi =>
        simp only [Option.some.injEq] at hs; subst hs
        refine h.phase hx (p := .done (some t)) ⟨hok.1, ?_⟩ (by rw [hp]; rfl) (fun c k hk => by simp [Gor.writes] at hk)
        rcases hok.2 with hok | hok
        · unfold Works at hok
          rw [hi] at hok
          simp [TPc.tk, TPc.res] at hok
        · exact hok
      · cases hs
    · cases hs
  · cases hs

theorem BcInv.begin {cap : Nat} {cmd : Cmd} {payload : Bytes} {s s' : BcSt} {i : Nat} (h : BcInv cap cmd payload s)
    (hs : bcStep cap cmd payload s (.begin i) = some s') : BcInv cap cmd payload s' := by
  simp only [bcStep] at hs
  split at hs
  · next hi _ =>
    simp only [Option.map_eq_some_iff] at hs
    obtain ⟨wk, hw, rfl⟩ := hs
    have h1 := h.wkStep hw (by simp [WkAct.walker])
    simp only [Qrpc.wkStep, Option.some.injEq] at hw
    have hnb : ∀ p, (i, p) ∉ s.begun := by
      intro p hp
      have := (h.pid i p).2 hp
      rw [hi] at this; cases this
    have hng : ∀ x ∈ s.gors, x.i ≠ i := fun x hx hxi => hnb x.p (hxi ▸ h.gor x hx)
    have hpc : ∀ k, setAt s.pc i (.id wk.push) k = s.pc k ∨ (k = i ∧ setAt s.pc i (.id wk.push) k = .id wk.push) := by
      intro k
      by_cases hk : k = i
      · exact .inr ⟨hk, by rw [hk, setAt_same]⟩
      · exact .inl (setAt_other _ _ hk)
    refine ⟨h1.wk, h1.g, ?_, ?_, ?_, fun x hx => List.mem_append_left _ (h.gor x hx), ?_, ?_, ?_, h1.gorOk, h1.apart, ?_⟩
    · subst hw
      simp only [List.map_append, List.map_cons, List.map_nil, pushIDs_append]
      exact h.ids.append (List.Sublist.refl _)
    · simp only [List.map_append, List.map_cons, List.map_nil]
      refine List.nodup_append.2 ⟨h.hand, by simp, ?_⟩
      intro a ha b hb e
      simp only [List.mem_singleton] at hb
      subst hb; subst e
      obtain ⟨⟨k, p⟩, hp, hk⟩ := List.mem_map.1 ha
      simp only at hk
      subst hk
      exact hnb p hp
    · intro k p
      simp only [List.mem_append, List.mem_singleton]
      rw [← h.pid]
      rcases hpc k with e | ⟨hk, e⟩
      · have hk : k = i → False := by
          rintro rfl
          rw [setAt_same, hi] at e; cases e
        rw [e]
        simp only [Prod.mk.injEq]
        exact ⟨.inl, fun h => h.elim id fun h => (hk h.1).elim⟩
      · rw [e, hk, hi]
        simp only [BcPc.pid, Option.some.injEq, Prod.mk.injEq, true_and, reduceCtorEq, false_or]
        exact eq_comm
    · intro k p hk
      rcases hpc k with e | ⟨rfl, e⟩
      · simp only [e] at hk; exact h.early k p hk
      · cases hc : conns s.gors k with
        | nil => rfl
        | cons c l =>
          obtain ⟨x, hx, hxi, -⟩ := conns_mem.1 (hc ▸ List.mem_cons_self : c ∈ conns s.gors k)
          exact absurd hxi (hng x hx)
    · intro k p hk
      rcases hpc k with e | ⟨rfl, e⟩
      · simp only [e] at hk; exact h1.walking k p hk
      · simp only [e] at hk; cases hk
    · intro k p w to1 hk
      rcases hpc k with e | ⟨rfl, e⟩
      · simp only [e] at hk; exact h1.ended k p w to1 hk
      · simp only [e] at hk
        rcases hk with hk | hk <;> cases hk
    · intro k p w to1 hk
      rcases hpc k with e | ⟨rfl, e⟩
      · simp only [e] at hk; exact h1.answered k p w to1 hk
      · simp only [e] at hk; cases hk
  · cases hs

/-- A handler goes on, without a new push id. -/
theorem BcInv.pcStep {cap : Nat} {cmd : Cmd} {payload : Bytes} {s : BcSt} (h : BcInv cap cmd payload s) {i : Nat} {q : BcPc}
    (hq : q.pid = (s.pc i).pid) (he : ∀ p, q ≠ .id p)
    (hwalk : ∀ p, q = .walk p → ∃ w, s.wk.pc i = .walk w ∧ w.visited = conns s.gors i)
    (hend : ∀ p w to1, q = .wait p w to1 ∨ q = .answer p w to1 → .walked w to1 false ∈ s.wk.log ∧ w.visited = conns s.gors i)
    (hans : ∀ p w to1, q = .answer p w to1 → ∀ x ∈ s.gors, x.i = i → x.pc.finished = true) :
    BcInv cap cmd payload { s with pc := setAt s.pc i q } := by
  have hpc : ∀ k, setAt s.pc i q k = s.pc k ∨ (k = i ∧ setAt s.pc i q k = q) := by
    intro k
    by_cases hk : k = i
    · exact .inr ⟨hk, by rw [hk, setAt_same]⟩
    · exact .inl (setAt_other _ _ hk)
  refine ⟨h.wk, h.g, h.ids, h.hand, ?_, h.gor, ?_, ?_, ?_, h.gorOk, h.apart, ?_⟩
  · intro k p
    rw [← h.pid]
    simp only []
    rcases hpc k with e | ⟨rfl, e⟩
    · rw [e]
    · rw [e, hq]
  · intro k p hk
    rcases hpc k with e | ⟨rfl, e⟩
    · simp only [e] at hk; exact h.early k p hk
    · simp only [e] at hk; exact absurd hk (he p)
  · intro k p hk
    rcases hpc k with e | ⟨rfl, e⟩
    · simp only [e] at hk; exact h.walking k p hk
    · simp only [e] at hk; exact hwalk p hk
  · intro k p w to1 hk
    rcases hpc k with e | ⟨rfl, e⟩
    · simp only [e] at hk; exact h.ended k p w to1 hk
    · simp only [e] at hk; exact hend p w to1 hk
  · intro k p w to1 hk
    rcases hpc k with e | ⟨rfl, e⟩
    · simp only [e] at hk; exact h.answered k p w to1 hk
    · simp only [e] at hk; exact hans p w to1 hk

theorem BcInv.walk {cap : Nat} {cmd : Cmd} {payload : Bytes} {s s' : BcSt} {i : Nat} (h : BcInv cap cmd payload s)
    (hs : bcStep cap cmd payload s (.walk i) = some s') : BcInv cap cmd payload s' := by
  simp only [bcStep] at hs
  split at hs
  · next p hi =>
    simp only [Option.map_eq_some_iff] at hs
    obtain ⟨wk, hw, rfl⟩ := hs
    have h1 := h.wkStep hw (fun k q hk => by
      simp only [WkAct.walker, ne_eq, Option.some.injEq]
      rintro rfl
      rw [hi] at hk; cases hk)
    refine h1.pcStep (by simp only [hi]; rfl) (by simp) ?_ (by simp) (by simp)
    intro q _
    simp only [Qrpc.wkStep] at hw
    split at hw
    · simp only [Option.some.injEq] at hw; subst hw
      exact ⟨_, setAt_same _ _ _, (h.early i p hi).symm⟩
    · cases hw
  · cases hs

theorem BcInv.visit {cap : Nat} {cmd : Cmd} {payload : Bytes} {s s' : BcSt} {i c : Nat} (h : BcInv cap cmd payload s)
    (hs : bcStep cap cmd payload s (.visit i c) = some s') : BcInv cap cmd payload s' := by
  simp only [bcStep] at hs
  split at hs
  · next p hi =>
    simp only [Option.map_eq_some_iff] at hs
    obtain ⟨wk, hw, rfl⟩ := hs
    obtain ⟨w0, hw0, hv0⟩ := h.walking i p hi
    have hlog : wk.log = s.wk.log ∧ wk.pc i = .walk { w0 with visited := w0.visited ++ [c] } ∧ ∀ k, k ≠ i → wk.pc k = s.wk.pc k := by
      simp only [Qrpc.wkStep, hw0, Bool.false_eq_true, if_false] at hw
      split at hw
      · simp only [Option.some.injEq] at hw; subst hw
        exact ⟨rfl, setAt_same _ _ _, fun k hk => setAt_other _ _ hk⟩
      · cases hw
    have hm : ∀ x ∈ s.gors ++ [⟨i, c, p, .new⟩], x ∈ s.gors ∨ x = ⟨i, c, p, .new⟩ := by simp
    have hne : ∀ k, k ≠ i → conns (s.gors ++ [⟨i, c, p, .new⟩]) k = conns s.gors k := by
      intro k hk
      rw [conns_append, if_neg (Ne.symm hk), List.append_nil]
    refine ⟨?_, h.g, ?_, h.hand, h.pid, ?_, ?_, ?_, ?_, ?_, ?_, ?_⟩
    · obtain ⟨as, ha⟩ := h.wk
      exact ⟨_, wkRun_snoc ha hw⟩
    · simp only [hlog.1]; exact h.ids
    · intro x hx
      rcases hm x hx with hx | rfl
      · exact h.gor x hx
      · exact (h.pid i p).1 (by rw [hi]; rfl)
    · intro k q hk
      have : k ≠ i := by rintro rfl; rw [hi] at hk; cases hk
      simp only [hne k this]; exact h.early k q hk
    · intro k q hk
      by_cases hki : k = i
      · subst hki
        refine ⟨_, hlog.2.1, ?_⟩
        simp only [conns_append, if_true, hv0]
      · obtain ⟨w, h1, h2⟩ := h.walking k q hk
        exact ⟨w, (hlog.2.2 k hki).trans h1, by simp only [hne k hki]; exact h2⟩
    · intro k q w to1 hk
      have : k ≠ i := by rintro rfl; rw [hi] at hk; rcases hk with hk | hk <;> cases hk
      simp only [hlog.1, hne k this]
      exact h.ended k q w to1 hk
    · intro x hx
      rcases hm x hx with hx | rfl
      · exact h.gorOk x hx
      · trivial
    · intro n n' x x' d j hx hx' h1 h2
      have hold : ∀ (m : Nat) (y : Gor), (s.gors ++ [⟨i, c, p, .new⟩])[m]? = some y → y.writes d j = true → s.gors[m]? = some y := by
        intro m y hy hyw
        by_cases hl : m < s.gors.length
        · rwa [List.getElem?_append_left hl] at hy
        · rw [List.getElem?_append_right (Nat.not_lt.1 hl)] at hy
          have := List.mem_of_getElem? hy
          simp only [List.mem_singleton] at this
          subst this
          simp [Gor.writes] at hyw
      exact h.apart n n' x x' d j (hold n x hx h1) (hold n' x' hx' h2) h1 h2
    · intro k q w to1 hk x hx hxi
      rcases hm x hx with hx | rfl
      · exact h.answered k q w to1 hk x hx hxi
      · simp only at hxi; subst hxi
        rw [hi] at hk; cases hk
  · cases hs

theorem BcInv.walkEnd {cap : Nat} {cmd : Cmd} {payload : Bytes} {s s' : BcSt} {i : Nat} (h : BcInv cap cmd payload s)
    (hs : bcStep cap cmd payload s (.walkEnd i) = some s') : BcInv cap cmd payload s' := by
  simp only [bcStep] at hs
  split at hs
  · next p w hi hwi =>
    simp only [Option.map_eq_some_iff] at hs
    obtain ⟨wk, hw, rfl⟩ := hs
    obtain ⟨w0, hw0, hv0⟩ := h.walking i p hi
    rw [hwi] at hw0; injection hw0 with e; subst e
    have hlog : wk.log = s.wk.log ++ [.walked w s.wk.q false] ∧ ∀ k, k ≠ i → wk.pc k = s.wk.pc k := by
      simp only [Qrpc.wkStep, hwi] at hw
      split at hw
      · simp only [Option.some.injEq] at hw; subst hw
        exact ⟨rfl, fun k hk => setAt_other _ _ hk⟩
      · cases hw
    have hpc : ∀ k, setAt s.pc i (.wait p w s.wk.q) k = s.pc k ∧ k ≠ i ∨ (k = i ∧ setAt s.pc i (.wait p w s.wk.q) k = .wait p w s.wk.q) := by
      intro k
      by_cases hk : k = i
      · exact .inr ⟨hk, by rw [hk, setAt_same]⟩
      · exact .inl ⟨setAt_other _ _ hk, hk⟩
    refine ⟨?_, h.g, h.ids.trans (wk_ids hw), h.hand, ?_, h.gor, ?_, ?_, ?_, h.gorOk, h.apart, ?_⟩
    · obtain ⟨as, ha⟩ := h.wk
      exact ⟨_, wkRun_snoc ha hw⟩
    · intro k q
      rw [← h.pid]
      simp only []
      rcases hpc k with ⟨e, -⟩ | ⟨rfl, e⟩
      · rw [e]
      · rw [e, hi]; exact Iff.rfl
    · intro k q hk
      rcases hpc k with ⟨e, -⟩ | ⟨rfl, e⟩
      · simp only [e] at hk; exact h.early k q hk
      · simp only [e] at hk; cases hk
    · intro k q hk
      rcases hpc k with ⟨e, hki⟩ | ⟨rfl, e⟩
      · simp only [e] at hk
        obtain ⟨w', h1, h2⟩ := h.walking k q hk
        exact ⟨w', (hlog.2 k hki).trans h1, h2⟩
      · simp only [e] at hk; cases hk
    · intro k q w' to1 hk
      rcases hpc k with ⟨e, -⟩ | ⟨rfl, e⟩
      · simp only [e] at hk
        obtain ⟨h1, h2⟩ := h.ended k q w' to1 hk
        exact ⟨by simp only [hlog.1]; exact List.mem_append_left _ h1, h2⟩
      · simp only [e, reduceCtorEq, or_false, BcPc.wait.injEq] at hk
        obtain ⟨-, rfl, rfl⟩ := hk
        exact ⟨by simp only [hlog.1]; exact List.mem_append_right _ (by simp), hv0⟩
    · intro k q w' to1 hk
      rcases hpc k with ⟨e, -⟩ | ⟨rfl, e⟩
      · simp only [e] at hk; exact h.answered k q w' to1 hk
      · simp only [e] at hk; cases hk
  · cases hs

theorem BcInv.step {cap : Nat} {cmd : Cmd} {payload : Bytes} {s s' : BcSt} {a : BcAct} (h : BcInv cap cmd payload s)
    (hs : bcStep cap cmd payload s a = some s') : BcInv cap cmd payload s' := by
  cases a with
  | wk a =>
    simp only [bcStep] at hs
    split at hs
    · next i hi =>
      split at hs
      all_goals try cases hs
      all_goals
        next hpc =>
        obtain ⟨wk, hw, rfl⟩ := Option.map_eq_some_iff.1 hs
        refine h.wkStep hw fun k p hk e => ?_
        rw [hi] at e; injection e with e; subst e
        rw [hk] at hpc; cases hpc
    · next hi =>
      obtain ⟨wk, hw, rfl⟩ := Option.map_eq_some_iff.1 hs
      exact h.wkStep hw (by simp [hi])
  | g c a =>
    simp only [bcStep] at hs
    split at hs
    · cases hs
    · next ho =>
      obtain ⟨g, hg, rfl⟩ := Option.map_eq_some_iff.1 hs
      exact h.gStep hg (Bool.eq_false_iff.2 ho)
  | begin i => exact h.begin hs
  | walk i => exact h.walk hs
  | visit i c => exact h.visit hs
  | walkEnd i => exact h.walkEnd hs
  | call n j => exact h.call hs
  | enq n => exact h.enq hs
  | ret n => exact h.ret hs
  | answer i =>
    simp only [bcStep] at hs
    split at hs
    · next p w to1 hi =>
      split at hs
      · next hall =>
        simp only [Option.some.injEq] at hs; subst hs
        refine h.pcStep (by rw [hi]; rfl) (by simp) (by simp) ?_ (fun _ _ _ _ => hall)
        intro q w' to1' hq
        simp only [reduceCtorEq, false_or, BcPc.answer.injEq] at hq
        obtain ⟨-, rfl, rfl⟩ := hq
        exact h.ended i p w to1 (.inl hi)
      · cases hs
    · cases hs

theorem BcInv.reach {cap : Nat} {cmd : Cmd} {payload : Bytes} {acts : List BcAct} {s : BcSt} (h : bcRun cap cmd payload acts = some s) :
    BcInv cap cmd payload s :=
  runActs_inv (P := BcInv cap cmd payload) (fun _ _ _ hi hs => hi.step hs) (BcInv.init cap cmd payload) h

/-! ## Nobody else pushes the message -/

/-- Induction over runs of actions with a property. -/
theorem runActs_inv_mem {σ α : Type _} {step : σ → α → Option σ} {P : σ → Prop} {Q : α → Prop}
    (hstep : ∀ s a s', Q a → P s → step s a = some s' → P s') {s : σ} {as : List α} {s' : σ} (h0 : P s) (hQ : ∀ a ∈ as, Q a)
    (hr : runActs step s as = some s') : P s' := by
  induction as generalizing s with
  | nil => simp only [runActs, Option.some.injEq] at hr; exact hr ▸ h0
  | cons a as ih =>
    simp only [runActs] at hr
    split at hr
    · simp at hr
    · next hs => exact ih (hstep _ _ _ (hQ a (by simp)) h0 hs) (fun b hb => hQ b (by simp [hb])) hr

/-- The other writers of the connections do not write the very bytes of the push with id `p`. -/
def Spec.NotForged (cmd : Cmd) (payload : Bytes) (p : UInt64) (a : BcAct) : Prop :=
  ∀ c j f, a = .g c (.g (.call j f)) → f.bytes ≠ layout p cmd PushFlag payload

def GorPc.ticket : GorPc → Option Nat
  | .queued _ t => some t
  | .done t => t
  | _ => none

/-- Every frame with the bytes of the push was written by a goroutine that was started for it. -/
structure BcTick (cmd : Cmd) (payload : Bytes) (p : UInt64) (s : BcSt) : Prop where
  pend : ∀ c j f, (s.g c).g.pc j = .enq f → f.bytes = pushBytes cmd payload p → ∃ x ∈ s.gors, x.c = c ∧ x.p = p ∧ x.pc = .called j
  tick : ∀ c t f, (s.g c).g.frames[t]? = some f → f.bytes = pushBytes cmd payload p →
    ∃ x ∈ s.gors, x.c = c ∧ x.p = p ∧ x.pc.ticket = some t

theorem enq_from {cap : Nat} {g g' : GSt} {a : GAct} (hs : gStep cap g a = some g') {j : Nat} {f : SFrame} (h : g'.pc j = .enq f) :
    g.pc j = .enq f ∨ a = .call j f := by
  gstep_cases hs a
  all_goals simp only [] at h
  all_goals try first
    | exact .inl h
    | grind [setAt]

theorem frames_from {cap : Nat} {g g' : GSt} {a : GAct} (hs : gStep cap g a = some g') {t : Nat} {f : SFrame} (h : g'.frames[t]? = some f) :
    g.frames[t]? = some f ∨ ∃ j, a = .enq j ∧ g.pc j = .enq f ∧ t = g.frames.length := by
  gstep_cases hs a
  all_goals simp only [] at h
  all_goals try exact .inl h
  next i x f' hi hlt =>
    by_cases hl : t < g.frames.length
    · rw [List.getElem?_append_left hl] at h; exact .inl h
    · rw [List.getElem?_append_right (Nat.not_lt.1 hl)] at h
      have hz : t - g.frames.length < [f'].length := (List.getElem?_eq_some_iff.1 h).1
      simp only [List.length_cons, List.length_nil] at hz
      have ht : t = g.frames.length := by omega
      subst ht
      simp only [Nat.sub_self, List.getElem?_cons_zero, Option.some.injEq] at h
      subst h
      exact .inr ⟨i, rfl, hi, rfl⟩

theorem g0_from {cap : Nat} {g g' : G0St} {a : G0Act} (hs : g0Step cap g a = some g') :
    (∀ j f, g'.g.pc j = .enq f → g.g.pc j = .enq f ∨ a = .g (.call j f)) ∧
    ∀ t f, g'.g.frames[t]? = some f → g.g.frames[t]? = some f ∨ ∃ j, a = .g (.enq j) ∧ g.g.pc j = .enq f ∧ t = g.g.frames.length := by
  cases a with
  | start =>
    simp only [g0Step] at hs
    split at hs
    · cases hs
    · simp only [Option.some.injEq] at hs; subst hs
      exact ⟨fun _ _ h => .inl h, fun _ _ h => .inl h⟩
  | g a =>
    simp only [g0Step] at hs
    split at hs
    · cases hs
    · split at hs
      · next g1 hg =>
        simp only [Option.some.injEq] at hs; subst hs
        refine ⟨fun j f h => (enq_from hg h).imp_right fun e => by rw [e], fun t f h => ?_⟩
        rcases frames_from hg h with h | ⟨j, e, h⟩
        · exact .inl h
        · exact .inr ⟨j, by rw [e], h⟩
      · cases hs

/-- A goroutine that works for the push still does after its phase has changed. -/
theorem BcTick.phase {cmd : Cmd} {payload : Bytes} {p : UInt64} {s : BcSt} (h : BcTick cmd payload p s) {n : Nat} {x : Gor}
    (hx : s.gors[n]? = some x) {q : GorPc} (hc : ∀ j, x.pc = .called j → ∀ f, (s.g x.c).g.pc j ≠ .enq f)
    (ht : x.pc.ticket = none ∨ q.ticket = x.pc.ticket) : BcTick cmd payload p { s with gors := s.gors.set n { x with pc := q } } := by
  have hn := (List.getElem?_eq_some_iff.1 hx).1
  have hkeep : ∀ y ∈ s.gors, y ∈ s.gors.set n { x with pc := q } ∨ y = x := by
    intro y hy
    obtain ⟨m, hm⟩ := List.getElem?_of_mem hy
    by_cases e : n = m
    · subst e; rw [hx] at hm; injection hm with hm; exact .inr hm.symm
    · exact .inl (List.mem_of_getElem? (i := m) (by rw [List.getElem?_set, if_neg e]; exact hm))
  have hnew : { x with pc := q } ∈ s.gors.set n { x with pc := q } := by
    refine List.mem_of_getElem? (i := n) ?_
    rw [List.getElem?_set]; simp [hn]
  refine ⟨fun c j f h1 h2 => ?_, fun c t f h1 h2 => ?_⟩
  · obtain ⟨y, hy, e1, e2, e3⟩ := h.pend c j f h1 h2
    rcases hkeep y hy with hy | rfl
    · exact ⟨y, hy, e1, e2, e3⟩
    · subst e1
      exact absurd h1 (hc j e3 f)
  · obtain ⟨y, hy, e1, e2, e3⟩ := h.tick c t f h1 h2
    rcases hkeep y hy with hy | rfl
    · exact ⟨y, hy, e1, e2, e3⟩
    · rcases ht with ht | ht
      · rw [ht] at e3; cases e3
      · exact ⟨_, hnew, e1, e2, ht.trans e3⟩

theorem BcTick.call {cap : Nat} {cmd : Cmd} {payload : Bytes} {p : UInt64} {s s' : BcSt} {n j : Nat} (h : BcTick cmd payload p s)
    (hs : bcStep cap cmd payload s (.call n j) = some s') : BcTick cmd payload p s' := by
  simp only [bcStep] at hs
  split at hs
  · next x hx =>
    split at hs
    · next hp =>
      split at hs
      · cases hs
      · next hw =>
        obtain ⟨g, hg, rfl⟩ := Option.map_eq_some_iff.1 hs
        obtain ⟨f1, f2⟩ := g0_from hg
        have h1 := h.phase hx (q := .called j) (by rw [hp]; simp) (.inl (by rw [hp]; rfl))
        have hn := (List.getElem?_eq_some_iff.1 hx).1
        have hnew : { x with pc := .called j } ∈ s.gors.set n { x with pc := .called j } := by
          refine List.mem_of_getElem? (i := n) ?_
          rw [List.getElem?_set]; simp [hn]
        refine ⟨fun c k f e1 e2 => ?_, fun c t f e1 e2 => ?_⟩
        · simp only at e1
          by_cases hc : c = x.c
          · subst hc
            rw [setAt_same] at e1
            rcases f1 k f e1 with e1 | e1
            · exact h1.pend _ k f e1 e2
            · injection e1 with e1
              injection e1 with e1 e3
              subst e1; subst e3
              exact ⟨_, hnew, rfl, pushBytes_inj e2, rfl⟩
          · rw [setAt_other _ _ hc] at e1
            exact h1.pend c k f e1 e2
        · simp only at e1
          by_cases hc : c = x.c
          · subst hc
            rw [setAt_same] at e1
            rcases f2 t f e1 with e1 | ⟨k, e1, -⟩
            · exact h1.tick _ t f e1 e2
            · injection e1 with e1; cases e1
          · rw [setAt_other _ _ hc] at e1
            exact h1.tick c t f e1 e2
    · cases hs
  · cases hs

theorem BcTick.enq {cap : Nat} {cmd : Cmd} {payload : Bytes} {p : UInt64} {s s' : BcSt} {n : Nat} (hI : BcInv cap cmd payload s)
    (h : BcTick cmd payload p s) (hs : bcStep cap cmd payload s (.enq n) = some s') : BcTick cmd payload p s' := by
  simp only [bcStep] at hs
  split at hs
  · next x hx =>
    split at hs
    · next j hp =>
      obtain ⟨g, hg, rfl⟩ := Option.map_eq_some_iff.1 hs
      obtain ⟨f1, f2⟩ := g0_from hg
      obtain ⟨f0, g1, g2, g3⟩ := g0_enq hg
      have hf0 : f0 = pushFrame cmd payload x.p := by
        have hok := hI.gorOk x (List.mem_of_getElem? hx)
        rw [hp] at hok
        rcases hok with hok | ⟨hok, -⟩
        · rw [hok] at g1; injection g1 with g1; exact g1.symm
        · rw [hok] at g1; cases g1
      have hn := (List.getElem?_eq_some_iff.1 hx).1
      have hkeep : ∀ y ∈ s.gors, y ∈ s.gors.set n { x with pc := .queued j (s.g x.c).g.frames.length } ∨ y = x := by
        intro y hy
        obtain ⟨m, hm⟩ := List.getElem?_of_mem hy
        by_cases e : n = m
        · subst e; rw [hx] at hm; injection hm with hm; exact .inr hm.symm
        · exact .inl (List.mem_of_getElem? (i := m) (by rw [List.getElem?_set, if_neg e]; exact hm))
      have hnew : { x with pc := .queued j (s.g x.c).g.frames.length } ∈
          s.gors.set n { x with pc := .queued j (s.g x.c).g.frames.length } := by
        refine List.mem_of_getElem? (i := n) ?_
        rw [List.getElem?_set]; simp [hn]
      have hpend : ∀ c k f, (s.g c).g.pc k = .enq f → (c = x.c → k ≠ j) → f.bytes = pushBytes cmd payload p →
          ∃ y ∈ s.gors.set n { x with pc := .queued j (s.g x.c).g.frames.length }, y.c = c ∧ y.p = p ∧ y.pc = .called k := by
        intro c k f e1 e4 e2
        obtain ⟨y, hy, k1, k2, k3⟩ := h.pend c k f e1 e2
        rcases hkeep y hy with hy | rfl
        · exact ⟨y, hy, k1, k2, k3⟩
        · rw [hp] at k3; injection k3 with k3
          exact absurd k3.symm (e4 k1.symm)
      have htick : ∀ c t f, (s.g c).g.frames[t]? = some f → f.bytes = pushBytes cmd payload p →
          ∃ y ∈ s.gors.set n { x with pc := .queued j (s.g x.c).g.frames.length }, y.c = c ∧ y.p = p ∧ y.pc.ticket = some t := by
        intro c t f e1 e2
        obtain ⟨y, hy, k1, k2, k3⟩ := h.tick c t f e1 e2
        rcases hkeep y hy with hy | rfl
        · exact ⟨y, hy, k1, k2, k3⟩
        · rw [hp] at k3; cases k3
      refine ⟨fun c k f e1 e2 => ?_, fun c t f e1 e2 => ?_⟩
      · simp only at e1
        by_cases hc : c = x.c
        · subst hc
          rw [setAt_same] at e1
          rcases f1 k f e1 with e3 | e3
          · refine hpend _ k f e3 (fun _ hk => ?_) e2
            subst hk
            rw [g2] at e1; cases e1
          · injection e3 with e3; cases e3
        · rw [setAt_other _ _ hc] at e1
          exact hpend c k f e1 (fun e => absurd e hc) e2
      · simp only at e1
        by_cases hc : c = x.c
        · subst hc
          rw [setAt_same] at e1
          rcases f2 t f e1 with e3 | ⟨k, e3, e4, e5⟩
          · exact htick _ t f e3 e2
          · injection e3 with e3; injection e3 with e3; subst e3
            rw [g1] at e4; injection e4 with e4; subst e4
            rw [hf0] at e2
            exact ⟨_, hnew, rfl, pushBytes_inj e2, by rw [e5]; rfl⟩
        · rw [setAt_other _ _ hc] at e1
          exact htick c t f e1 e2
    · cases hs
  · cases hs

theorem BcTick.step {cap : Nat} {cmd : Cmd} {payload : Bytes} {p : UInt64} {s s' : BcSt} {a : BcAct} (hI : BcInv cap cmd payload s)
    (h : BcTick cmd payload p s) (ha : NotForged cmd payload p a) (hs : bcStep cap cmd payload s a = some s') : BcTick cmd payload p s' := by
  have hsame : ∀ wk pc b, BcTick cmd payload p ⟨wk, s.g, pc, s.gors, b⟩ := fun _ _ _ => ⟨h.pend, h.tick⟩
  cases a with
  | wk a =>
    simp only [bcStep] at hs
    repeat' split at hs
    all_goals first
      | cases hs; done
      | (obtain ⟨wk, -, rfl⟩ := Option.map_eq_some_iff.1 hs; exact hsame _ _ _)
  | g c a =>
    simp only [bcStep] at hs
    split at hs
    · cases hs
    · next ho =>
      obtain ⟨g, hg, rfl⟩ := Option.map_eq_some_iff.1 hs
      have ho := Bool.eq_false_iff.2 ho
      obtain ⟨f1, f2⟩ := g0_from hg
      refine ⟨fun d k f e1 e2 => ?_, fun d t f e1 e2 => ?_⟩
      · simp only at e1
        by_cases hc : d = c
        · subst hc
          rw [setAt_same] at e1
          rcases f1 k f e1 with e1 | rfl
          · exact h.pend _ k f e1 e2
          · exact absurd (e2.trans (pushBytes_layout _ _ _)) (ha d k f rfl)
        · rw [setAt_other _ _ hc] at e1
          exact h.pend d k f e1 e2
      · simp only at e1
        by_cases hc : d = c
        · subst hc
          rw [setAt_same] at e1
          rcases f2 t f e1 with e1 | ⟨k, rfl, e3, e4⟩
          · exact h.tick _ t f e1 e2
          · obtain ⟨x, hx, k1, -, k3⟩ := h.pend d k f e3 e2
            have := List.any_eq_false.1 ho x hx
            simp [Gor.enters, k1, k3] at this
        · rw [setAt_other _ _ hc] at e1
          exact h.tick d t f e1 e2
  | begin i =>
    simp only [bcStep] at hs
    split at hs
    · obtain ⟨wk, -, rfl⟩ := Option.map_eq_some_iff.1 hs; exact hsame _ _ _
    · cases hs
  | walk i =>
    simp only [bcStep] at hs
    split at hs
    · obtain ⟨wk, -, rfl⟩ := Option.map_eq_some_iff.1 hs; exact hsame _ _ _
    · cases hs
  | visit i c =>
    simp only [bcStep] at hs
    split at hs
    · obtain ⟨wk, -, rfl⟩ := Option.map_eq_some_iff.1 hs
      refine ⟨fun c k f e1 e2 => ?_, fun c t f e1 e2 => ?_⟩
      · obtain ⟨x, hx, hr⟩ := h.pend c k f e1 e2
        exact ⟨x, List.mem_append_left _ hx, hr⟩
      · obtain ⟨x, hx, hr⟩ := h.tick c t f e1 e2
        exact ⟨x, List.mem_append_left _ hx, hr⟩
    · cases hs
  | walkEnd i =>
    simp only [bcStep] at hs
    split at hs
    · obtain ⟨wk, -, rfl⟩ := Option.map_eq_some_iff.1 hs; exact hsame _ _ _
    · cases hs
  | call n j => exact h.call hs
  | enq n => exact h.enq hI hs
  | ret n =>
    simp only [bcStep] at hs
    split at hs
    · next x hx =>
      split at hs
      · next j hp =>
        split at hs
        · next hi =>
          simp only [Option.some.injEq] at hs; subst hs
          refine h.phase hx (fun k hk f hf => ?_) (.inl (by rw [hp]; rfl))
          rw [hp] at hk; injection hk with hk; subst hk
          rw [hi] at hf; cases hf
        · cases hs
      · next j t hp =>
        split at hs
        · simp only [Option.some.injEq] at hs; subst hs
          exact h.phase hx (fun k hk => by rw [hp] at hk; cases hk) (.inr (by rw [hp]; rfl))
        · cases hs
      · cases hs
    · cases hs
  | answer i =>
    simp only [bcStep] at hs
    split at hs
    · split at hs
      · simp only [Option.some.injEq] at hs; subst hs; exact hsame _ _ _
      · cases hs
    · cases hs

theorem BcTick.reach {cap : Nat} {cmd : Cmd} {payload : Bytes} {p : UInt64} {acts : List BcAct} {s : BcSt}
    (h : bcRun cap cmd payload acts = some s) (ha : ∀ a ∈ acts, NotForged cmd payload p a) : BcTick cmd payload p s := by
  refine (runActs_inv_mem (P := fun s => BcInv cap cmd payload s ∧ BcTick cmd payload p s) (Q := NotForged cmd payload p) ?_
    ⟨BcInv.init cap cmd payload, ⟨by simp [BcSt.init, G0St.init, GSt.init], by simp [BcSt.init, G0St.init, GSt.init]⟩⟩ ha h).2
  intro s a s' hq ⟨h1, h2⟩ hs
  exact ⟨h1.step hs, h2.step h1 hq hs⟩

/-! ## C132 -/

/-- **C132, written.** When the handler that pushes to all connections answers, its walk has returned and its goroutines have: on every
connection that was there when the walk began, that nobody had begun to close when the walk ended, and whose write path has not
begun to be closed, the push has been written: it is in the queue's history, with its id, command and payload and the push flag, and
its write has returned nil for "written". This stays so. -/
theorem C132_written {cap : Nat} {cmd : Cmd} {payload : Bytes} {acts : List BcAct} {s : BcSt} (hrun : bcRun cap cmd payload acts = some s)
    {i : Nat} {p : UInt64} {w : Walk} {to1 : QSt} (hi : s.pc i = .answer p w to1) :
    .walked w to1 false ∈ s.wk.log ∧ p ∈ pushIDs s.wk.log ∧
    ∀ c, c < w.from0.n → to1.untrack c = false → (s.g c).g.closing = false →
      ∃ t, (s.g c).g.frames[t]? = some ⟨layout p cmd PushFlag payload, false, false, true, false⟩ ∧ (t, SRes.ok) ∈ (s.g c).g.rets := by
  have hI := BcInv.reach hrun
  obtain ⟨h1, h2⟩ := hI.ended i p w to1 (.inr hi)
  have hp : (i, p) ∈ s.begun := (hI.pid i p).1 (by rw [hi]; rfl)
  refine ⟨h1, hI.ids.subset (List.mem_map.2 ⟨_, hp, rfl⟩), fun c hc hu hcl => ?_⟩
  obtain ⟨as, hw⟩ := hI.wk
  have hv := (C87_walk hw h1).2.2 rfl c hc hu
  rw [h2] at hv
  obtain ⟨x, hx, hxi, rfl⟩ := conns_mem.1 hv
  have hfin := hI.answered i p w to1 hi x hx hxi
  have hok := hI.gorOk x hx
  have hxp : x.p = p := by
    have := (hI.pid i x.p).2 (hxi ▸ hI.gor x hx)
    rw [hi] at this
    injection this with e
    exact e.symm
  rw [hxp] at hok
  rw [← pushBytes_layout]
  match hpc : x.pc with
  | .new => rw [hpc] at hfin; cases hfin
  | .called j => rw [hpc] at hfin; cases hfin
  | .queued j t => rw [hpc] at hfin; cases hfin
  | .done none =>
    rw [hpc] at hok
    simp only [GorOk] at hok
    rw [hcl] at hok; cases hok
  | .done (some t) =>
    rw [hpc] at hok
    obtain ⟨k1, ⟨r, k2⟩ | k2⟩ := hok
    · obtain ⟨as', hg⟩ := hI.g x.c
      obtain ⟨rfl, -⟩ := push_written hg hcl k2 k1 rfl rfl
      exact ⟨t, k1, k2⟩
    · rw [hcl] at k2; cases k2

/-- **C132, once.** If no other writer writes the very bytes of the push: whatever the handler has done so far, the push is in the
queue's history of a connection at most once, and of those connections only that its walk has visited - so of none whose Close had
returned before the walk, and of none twice. -/
theorem C132_once {cap : Nat} {cmd : Cmd} {payload : Bytes} {acts : List BcAct} {s : BcSt} (hrun : bcRun cap cmd payload acts = some s)
    (hn : (pushIDs s.wk.log).length ≤ 2 ^ 64) {i : Nat} {p : UInt64} (hi : (s.pc i).pid = some p) (ha : ∀ a ∈ acts, NotForged cmd payload p a)
    {c t : Nat} {f : SFrame} (hf : (s.g c).g.frames[t]? = some f) (hb : f.bytes = layout p cmd PushFlag payload) :
    (∀ t' f', (s.g c).g.frames[t']? = some f' → f'.bytes = layout p cmd PushFlag payload → t' = t) ∧
    ∀ w to1, s.pc i = .wait p w to1 ∨ s.pc i = .answer p w to1 → c ∈ w.visited ∧ c < to1.n ∧ .closeRet c ∉ w.from0.log := by
  have hI := BcInv.reach hrun
  have hT := BcTick.reach hrun ha
  have hpi : (i, p) ∈ s.begun := (hI.pid i p).1 hi
  obtain ⟨as, hw⟩ := hI.wk
  have hnd := (C87_push hw hn).sublist hI.ids
  -- whoever has this push id is handler `i`
  have huniq : ∀ k, (k, p) ∈ s.begun → k = i := by
    intro k hk
    obtain ⟨m, hm⟩ := List.getElem?_of_mem hk
    obtain ⟨m', hm'⟩ := List.getElem?_of_mem hpi
    have e1 : (s.begun.map Prod.snd)[m]? = some p := by rw [List.getElem?_map, hm]; rfl
    have e2 : (s.begun.map Prod.snd)[m']? = some p := by rw [List.getElem?_map, hm']; rfl
    have := (List.getElem?_inj (List.getElem?_eq_some_iff.1 e1).1 hnd).1 (e1.trans e2.symm)
    subst this
    rw [hm] at hm'
    injection hm' with h
    exact (Prod.mk.inj h).1
  have hnodup : (conns s.gors i).Nodup := by
    cases hpc : s.pc i with
    | idle => rw [hpc] at hi; cases hi
    | id q => rw [hI.early i q hpc]; exact List.nodup_nil
    | walk q =>
      obtain ⟨w, h1, h2⟩ := hI.walking i q hpc
      rw [← h2]
      have := (WkInv.reach hw).pcs i
      rw [h1] at this
      exact this.nodup
    | wait q w to1 =>
      obtain ⟨h1, h2⟩ := hI.ended i q w to1 (.inl hpc)
      rw [← h2]; exact (C87_walk hw h1).1
    | answer q w to1 =>
      obtain ⟨h1, h2⟩ := hI.ended i q w to1 (.inr hpc)
      rw [← h2]; exact (C87_walk hw h1).1
  have hown : ∀ t f, (s.g c).g.frames[t]? = some f → f.bytes = layout p cmd PushFlag payload →
      ∃ x ∈ s.gors, x.i = i ∧ x.c = c ∧ x.pc.ticket = some t := by
    intro t f hf hb
    obtain ⟨x, hx, h1, h2, h3⟩ := hT.tick c t f hf (hb.trans (pushBytes_layout _ _ _).symm)
    exact ⟨x, hx, huniq _ (h2 ▸ hI.gor x hx), h1, h3⟩
  obtain ⟨x, hx, x1, x2, x3⟩ := hown t f hf hb
  refine ⟨fun t' f' hf' hb' => ?_, fun w to1 hpc => ?_⟩
  · obtain ⟨y, hy, y1, y2, y3⟩ := hown t' f' hf' hb'
    have : x = y := filterMap_nodup_inj hnodup hx hy (by rw [if_pos x1, x2]) (by rw [if_pos y1, y2])
    subst this
    rw [x3] at y3
    injection y3 with h
    exact h.symm
  · obtain ⟨h1, h2⟩ := hI.ended i p w to1 hpc
    have hv : c ∈ w.visited := by rw [h2]; exact conns_mem.2 ⟨x, hx, x1, x2⟩
    exact ⟨hv, (C87_walk hw h1).2.1 c hv⟩

theorem be3_mod {v w : Nat} (h : v % 2 ^ 24 = w % 2 ^ 24) : be 3 v = be 3 w := by
  simp only [be, List.cons.injEq]
  refine ⟨?_, ?_, ?_, trivial⟩ <;> (apply UInt8.toNat_inj.mp; simp only [UInt8.toNat_ofNat']; omega)

/-- A frame that is read as the push has its bytes. -/
theorem encodes_push {cfg : FrameReaderCfg} {b : Bytes} {cmd : Cmd} {payload : Bytes} {p : UInt64}
    (h : Encodes cfg b ⟨p, PushFlag, UInt32.ofNat (cmd.toNat % 2 ^ 24), payload⟩) : b = layout p cmd PushFlag payload := by
  obtain ⟨c, q, rfl, h1, -, -, h2⟩ := h
  have hq : q = payload := by
    unfold decodePayload at h2
    split at h2
    · next hp => injection h2 with h2; rw [hp, h2]
    · rw [if_neg (show ¬ FrameFlag.isCodec PushFlag = true by decide)] at h2
      injection h2
  subst hq
  have h1 := congrArg UInt32.toNat h1
  simp only [UInt32.toNat_ofNat'] at h1
  have : c.toNat % 2 ^ 24 = cmd.toNat % 2 ^ 24 := by omega
  simp only [layout, be3_mod this]

theorem count_of_inj {α β : Type} [BEq β] [LawfulBEq β] {l : List α} (h : l.Nodup) {f : α → β} {a : α} (ha : a ∈ l)
    (hu : ∀ b ∈ l, f b = f a → b = a) : (l.map f).count (f a) = 1 := by
  induction l with
  | nil => cases ha
  | cons b l ih =>
    obtain ⟨h1, h2⟩ := List.nodup_cons.1 h
    rw [List.map_cons, List.count_cons]
    rcases List.mem_cons.1 ha with rfl | ha
    · have : (l.map f).count (f a) = 0 := by
        rw [List.count_eq_zero]
        intro hm
        obtain ⟨z, hz, ez⟩ := List.mem_map.1 hm
        exact h1 (hu z (List.mem_cons_of_mem _ hz) ez ▸ hz)
      simp [this]
    · have hne : ¬ (f b == f a) = true := by
        intro e
        exact h1 (hu b List.mem_cons_self (eq_of_beq e) ▸ ha)
      rw [ih h2 ha (fun z hz => hu z (List.mem_cons_of_mem _ hz))]
      simp [hne]

/-- **C132.** A handler has taken a push id, walked over the connections with a goroutine for each that pushes the message, waited and
answered. Consider a connection that was there when the walk began, that nobody had begun to close when the walk ended, and that is
not being closed; all that was written on it has arrived, in whatever pieces, and its client has read until there was nothing more.
If no other writer writes the same bytes, pushes on this connection are not streamed and the client does not reset push streams itself
(see C92): the client has got the message from `ReadFrame` exactly once - and so has its subscriber, by C92_subscriber. -/
theorem C132 {cap : Nat} {cmd : Cmd} {payload : Bytes} {acts : List BcAct} {s : BcSt} (hrun : bcRun cap cmd payload acts = some s)
    (hn : (pushIDs s.wk.log).length ≤ 2 ^ 64) {i : Nat} {p : UInt64} {w : Walk} {to1 : QSt} (hi : s.pc i = .answer p w to1)
    (ha : ∀ a ∈ acts, NotForged cmd payload p a)
    {c : Nat} (hc : c < w.from0.n) (hu : to1.untrack c = false) (hcl : (s.g c).g.closing = false)
    {cfg : FrameReaderCfg} {fr : Nat → Frame} (henc : ∀ (t : Nat) (f : SFrame), (s.g c).g.frames[t]? = some f → Encodes cfg f.bytes (fr t))
    {src : Src} (hsrc : srcBytes src = (s.g c).g.wire) {n : Nat} {got : List Frame} {err : FrameErr} (hread : (readN cfg n src).1 = .ok got)
    (hend : (readN cfg (n + 1) src).1 = .error err) {sacts : List SAct} {t : SSt} (hs : sRun SSt.init sacts = some t)
    (hrecv : t.recv = got) (hheld : held t = []) (hplain : ∀ a ∈ sacts, a.plain = true) :
    (returned t.log).count ⟨p, PushFlag, UInt32.ofNat (cmd.toNat % 2 ^ 24), payload⟩ = 1 := by
  obtain ⟨-, -, hwr⟩ := C132_written hrun hi
  obtain ⟨k, hk1, hk2⟩ := hwr c hc hu hcl
  obtain ⟨as, hg⟩ := (BcInv.reach hrun).g c
  obtain ⟨-, gacts, hgr⟩ := push_written hg hcl hk2 hk1 rfl rfl
  have hfk := encodes_layout_flags (by decide) (henc k _ hk1)
  obtain ⟨us, h1, hl, h2, h3⟩ := C92_all_partial hgr henc hsrc hread hend hs hrecv hheld hplain
  have hpush : FrameFlag.isPush (fr k).flags = true := by rw [hfk]; exact (by decide : FrameFlag.isPush PushFlag = true)
  have hin := h3 k hk2 hpush
  have h4 := List.count_filter (p := fun f : Frame => FrameFlag.isPush f.flags) (l := returned t.log) hpush
  rw [← hfk, ← h4, h2]
  refine count_of_inj (h1.imp (Nat.ne_of_lt)) hin fun u hu' he => ?_
  have hul := hl u hu'
  have hfu := henc u _ (List.getElem?_eq_getElem hul)
  rw [he, hfk] at hfu
  exact (C132_once hrun hn (by rw [hi]; rfl) ha hk1 rfl).1 u _ (List.getElem?_eq_getElem hul) (encodes_push hfu)

/-! ## Example -/

/-- The steps of writer `j` on connection `c` from the lock to the end of its write of `n` bytes. -/
def exWrite (c j n : Nat) : List BcAct :=
  ([.lock j, .go j, .go j, .deq j true true, .go j, .go j, .write j n true, .go j, .go j, .go j, .go j, .go j] : List GAct).map fun a => .g c (.g a)

/-- Handler 5 pushes to the connections 0 and 1, and to connection 2, which comes while it walks; another goroutine (7) pushes something
else on connection 0; connection 3 comes later and gets nothing. Connection 2 is being closed, its push returns an error. -/
def exBroadcast : List BcAct :=
  [.wk (.reg .newConn), .wk (.reg .newConn), .g 0 .start, .g 1 .start, .begin 5, .walk 5, .visit 5 1, .wk (.reg .newConn), .visit 5 2,
   .g 0 (.g (.call 7 ⟨layout 9 2 PushFlag [8, 9], false, false, true, false⟩)), .g 0 (.g (.enq 7)),
   .call 0 3, .enq 0] ++ exWrite 1 3 18 ++
  [.ret 0, .visit 5 0, .call 2 7] -- refused: writer 7 is at work

def exBroadcast1 : List BcAct :=
  exBroadcast.take 26 ++ [.visit 5 0, .call 2 1] ++ exWrite 0 7 18 ++ [.enq 2] ++ exWrite 0 1 18 ++
  [.walkEnd 5, .wk (.reg .newConn), .g 2 (.g .close), .g 2 (.g .cancel), .call 1 0, .g 2 (.g (.enqCtx 0)), .ret 1, .ret 2, .answer 5]

def exBroadcastOf (s : BcSt) : Option (UInt64 × List Nat × Nat × Bool × Bool) := match s.pc 5 with
  | .answer p w to1 => some (p, w.visited, w.from0.n, to1.untrack 0, to1.untrack 1)
  | _ => none

example : (bcRun 4 1 [7, 8] exBroadcast).isSome = false ∧ (bcRun 4 1 [7, 8] exBroadcast.dropLast).isSome = true := by decide +kernel

def exBroadcastSrc : Src :=
  ⟨[], [.data ((layout 9 2 PushFlag [8, 9]).take 5), .data ((layout 9 2 PushFlag [8, 9]).drop 5 ++ layout 1 1 PushFlag [7, 8])]⟩

def exBroadcastStreams : List SAct :=
  [.recv ⟨9, PushFlag, 2, [8, 9]⟩, .rstep, .rstep, .rstep, .rstep, .rstep, .rstep, .rstep, .rstep, .rstep,
   .recv ⟨1, PushFlag, 1, [7, 8]⟩, .rstep, .rstep]

/-- The handler answers; connection 0, which was there when the walk began, has the push after the other one, connection 1 has it
alone, and the hypotheses of C132 hold for connection 0. -/
example : (bcRun 4 1 [7, 8] exBroadcast1).map exBroadcastOf = some (some (1, [1, 2, 0], 2, false, false)) ∧
    (bcRun 4 1 [7, 8] exBroadcast1).map (fun s => ((s.g 0).g.closing, (s.g 0).g.rets, (s.g 1).g.rets)) =
      some (false, [(0, .ok), (1, .ok)], [(0, .ok)]) ∧
    (bcRun 4 1 [7, 8] exBroadcast1).map (fun s => ((s.g 0).g.wire, (s.g 0).g.frames.map (·.bytes), (pushIDs s.wk.log).length)) =
      some (srcBytes exBroadcastSrc, [layout 9 2 PushFlag [8, 9], layout 1 1 PushFlag [7, 8]], 1) ∧
    okFrames (readN ⟨0, none⟩ 2 exBroadcastSrc).1 = some [⟨9, PushFlag, 2, [8, 9]⟩, ⟨1, PushFlag, 1, [7, 8]⟩] ∧
    okFrames (readN ⟨0, none⟩ 3 exBroadcastSrc).1 = none ∧
    (sRun SSt.init exBroadcastStreams).map (fun t => (t.recv, held t, returned t.log)) =
      some ([⟨9, PushFlag, 2, [8, 9]⟩, ⟨1, PushFlag, 1, [7, 8]⟩], [], [⟨9, PushFlag, 2, [8, 9]⟩, ⟨1, PushFlag, 1, [7, 8]⟩]) ∧
    exBroadcastStreams.all (·.plain) = true ∧
    Encodes ⟨0, none⟩ (layout 9 2 PushFlag [8, 9]) ⟨9, PushFlag, 2, [8, 9]⟩ ∧
    Encodes ⟨0, none⟩ (layout 1 1 PushFlag [7, 8]) ⟨1, PushFlag, 1, [7, 8]⟩ := by
  refine ⟨by decide +kernel, by decide +kernel, by decide +kernel, by decide +kernel, by decide +kernel, by decide +kernel, by decide +kernel, ?_, ?_⟩
  · exact ⟨2, [8, 9], rfl, by decide, by decide, .inl (by decide), rfl⟩
  · exact ⟨1, [7, 8], rfl, by decide, by decide, .inl (by decide), rfl⟩

example : ∀ a ∈ exBroadcast1, NotForged 1 [7, 8] 1 a := by
  intro a ha c j f e
  subst e
  have h : exBroadcast1.filterMap (fun a => match a with | .g _ (.g (.call _ f)) => some f.bytes | _ => none) =
    [layout 9 2 PushFlag [8, 9]] := by decide +kernel
  have hm : f.bytes ∈ exBroadcast1.filterMap (fun a => match a with | .g _ (.g (.call _ f)) => some f.bytes | _ => none) :=
    List.mem_filterMap.2 ⟨_, ha, rfl⟩
  rw [h, List.mem_singleton] at hm
  rw [hm]
  decide +kernel

/-- The push to a connection that can be found and is not served yet can be its last step (C95): the goroutine is stuck, and the handler
does not get past its `wg.Wait()`. -/
example : (bcRun 4 1 [7, 8] ([.wk (.reg .newConn), .begin 5, .walk 5, .visit 5 0, .walkEnd 5, .call 0 3, .enq 0,
      .g 0 (.g (.lock 3)), .g 0 (.g (.go 3)), .g 0 (.g (.go 3)), .g 0 .start, .g 0 (.g (.go 3))])).map
      (fun s => ((s.g 0).g.pc 3, (s.g 0).g.closing)) = some (.stuck, false) ∧
    (bcRun 4 1 [7, 8] ([.wk (.reg .newConn), .begin 5, .walk 5, .visit 5 0, .walkEnd 5, .call 0 3, .enq 0,
      .g 0 (.g (.lock 3)), .g 0 (.g (.go 3)), .g 0 (.g (.go 3)), .g 0 .start, .g 0 (.g (.go 3)), .answer 5])).isSome = false := by
  decide +kernel

end Qrpc
