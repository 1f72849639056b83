import Verif.Props.Broadcast
import Verif.Props.ServeWriteEnd
/-! # C134: a handler that pushes to all connections comes to its end -/
namespace Qrpc
open Spec

/-- The server's own steps: those of the handlers and their goroutines (as one of the first `N` writers of a connection), and those of
anybody inside `writeFrameBytes`. Nobody begins anything new. -/
def BcAct.inner (N : Nat) : BcAct → Bool
  | .walk _ | .visit _ _ | .walkEnd _ | .enq _ | .ret _ | .answer _ => true
  | .call _ j => decide (j < N)
  | .g _ (.g a) => a.inner.isSome
  | _ => false

/-- Nobody can take such a step. -/
def BcRest (cap : Nat) (cmd : Cmd) (payload : Bytes) (N : Nat) (s : BcSt) : Prop :=
  ∀ a, a.inner N = true → bcStep cap cmd payload s a = none

/-- Has the handler nothing left to do? -/
def BcPc.over : BcPc → Bool
  | .idle | .answer _ _ _ => true
  | _ => false

theorem q_n_mono {s s' : QSt} {a : QAct} (hs : qStep s a = some s') : s.n ≤ s'.n := by
  qstep_cases hs a
  all_goals simp only []
  all_goals omega

theorem wk_n_mono {s s' : WkSt} {a : WkAct} (hs : wkStep s a = some s') : s.q.n ≤ s'.q.n := by
  cases a with
  | reg a =>
    simp only [wkStep] at hs
    split at hs
    · next q hq => simp only [Option.some.injEq] at hs; subst hs; exact q_n_mono hq
    · cases hs
  | _ =>
    simp only [wkStep] at hs
    repeat' split at hs
    all_goals simp only [Option.some.injEq, reduceCtorEq] at hs
    all_goals subst hs
    all_goals exact Nat.le_refl _

theorem wk_stays_idle {s s' : WkSt} {a : WkAct} (hs : wkStep s a = some s') {i : Nat} (ha : a.walker ≠ some i) (hi : s.pc i = .idle) :
    s'.pc i = .idle := by
  cases a with
  | reg a =>
    simp only [wkStep] at hs
    split at hs
    · next q hq => simp only [Option.some.injEq] at hs; subst hs; simp only [hi, WkPc.observe]
    · cases hs
  | _ =>
    simp only [wkStep] at hs
    repeat' split at hs
    all_goals simp only [Option.some.injEq, reduceCtorEq] at hs
    all_goals subst hs
    all_goals first
      | exact hi
      | (simp only []; rw [setAt_other _ _ (by rintro rfl; exact ha rfl)]; exact hi)

/-- A handler that has its push id has not begun its walk, and goroutines are started for connections. -/
structure BcWhere (s : BcSt) : Prop where
  idle : ∀ i p, s.pc i = .id p → s.wk.pc i = .idle
  conn : ∀ x ∈ s.gors, x.c < s.wk.q.n

theorem mem_set_c {l : List Gor} {n : Nat} {x : Gor} {p : GorPc} {N : Nat} (h : ∀ x ∈ l, x.c < N) (hx : l[n]? = some x) :
    ∀ y ∈ l.set n { x with pc := p }, y.c < N := by
  intro y hy
  rcases List.mem_or_eq_of_mem_set hy with hy | rfl
  · exact h y hy
  · exact h x (List.mem_of_getElem? hx)

theorem BcWhere.reach {cap : Nat} {cmd : Cmd} {payload : Bytes} {acts : List BcAct} {s : BcSt} (h : bcRun cap cmd payload acts = some s) :
    BcWhere s := by
  have key : BcInv cap cmd payload s ∧ BcWhere s := by
    refine runActs_inv (P := fun s => BcInv cap cmd payload s ∧ BcWhere s) ?_ ⟨BcInv.init _ _ _, by simp [BcSt.init], by simp [BcSt.init]⟩ h
    rintro s a s' ⟨hI, h1, h2⟩ hs
    refine ⟨hI.step hs, ?_⟩
    cases a with
    | wk a =>
      simp only [bcStep] at hs
      split at hs
      · next i hi =>
        split at hs
        all_goals try cases hs
        all_goals
          next hpc =>
          obtain ⟨wk, hw, rfl⟩ := Option.map_eq_some_iff.1 hs
          refine ⟨fun k p hk => wk_stays_idle hw ?_ (h1 k p hk), fun x hx => Nat.lt_of_lt_of_le (h2 x hx) (wk_n_mono hw)⟩
          rw [hi]; intro e; injection e with e; subst e
          rw [hk] at hpc; cases hpc
      · next hi =>
        obtain ⟨wk, hw, rfl⟩ := Option.map_eq_some_iff.1 hs
        exact ⟨fun k p hk => wk_stays_idle hw (by simp [hi]) (h1 k p hk), fun x hx => Nat.lt_of_lt_of_le (h2 x hx) (wk_n_mono hw)⟩
    | g c a =>
      simp only [bcStep] at hs
      split at hs
      · cases hs
      · obtain ⟨g, hg, rfl⟩ := Option.map_eq_some_iff.1 hs
        exact ⟨h1, h2⟩
    | begin i =>
      simp only [bcStep] at hs
      split at hs
      · next hi hw0 =>
        obtain ⟨wk, hw, rfl⟩ := Option.map_eq_some_iff.1 hs
        refine ⟨fun k p hk => wk_stays_idle hw (by simp [WkAct.walker]) ?_, fun x hx => Nat.lt_of_lt_of_le (h2 x hx) (wk_n_mono hw)⟩
        by_cases hki : k = i
        · rw [hki]; exact hw0
        · simp only [] at hk; rw [setAt_other _ _ hki] at hk; exact h1 k p hk
      · cases hs
    | walk i =>
      simp only [bcStep] at hs
      split at hs
      · obtain ⟨wk, hw, rfl⟩ := Option.map_eq_some_iff.1 hs
        refine ⟨fun k p hk => ?_, fun x hx => Nat.lt_of_lt_of_le (h2 x hx) (wk_n_mono hw)⟩
        by_cases hki : k = i
        · subst hki; simp only [setAt_same] at hk; cases hk
        · simp only [] at hk; rw [setAt_other _ _ hki] at hk
          exact wk_stays_idle hw (by simp only [WkAct.walker]; intro e; injection e with e; exact hki e.symm) (h1 k p hk)
      · cases hs
    | visit i c =>
      simp only [bcStep] at hs
      split at hs
      · next p hp =>
        obtain ⟨wk, hw, rfl⟩ := Option.map_eq_some_iff.1 hs
        refine ⟨fun k p' hk => ?_, fun x hx => ?_⟩
        · have hki : k ≠ i := by rintro rfl; simp only [hp] at hk; cases hk
          exact wk_stays_idle hw (by simp only [WkAct.walker]; intro e; injection e with e; exact hki e.symm) (h1 k p' hk)
        · refine Nat.lt_of_lt_of_le ?_ (wk_n_mono hw)
          rcases List.mem_append.1 hx with hx | hx
          · exact h2 x hx
          · rw [List.mem_singleton.1 hx]
            obtain ⟨w, hw1, -⟩ := hI.walking i p hp
            obtain ⟨as, hwk⟩ := hI.wk
            have hok := (WkInv.reach hwk).pcs i
            rw [hw1] at hok
            simp only [Qrpc.wkStep, hw1] at hw
            split at hw
            · next hc => exact ((show WalkOk w s.wk.q from hok).seen c hc.1).1
            · cases hw
      · cases hs
    | walkEnd i =>
      simp only [bcStep] at hs
      split at hs
      · obtain ⟨wk, hw, rfl⟩ := Option.map_eq_some_iff.1 hs
        refine ⟨fun k p hk => ?_, fun x hx => Nat.lt_of_lt_of_le (h2 x hx) (wk_n_mono hw)⟩
        by_cases hki : k = i
        · subst hki; simp only [setAt_same] at hk; cases hk
        · simp only [] at hk; rw [setAt_other _ _ hki] at hk
          exact wk_stays_idle hw (by simp only [WkAct.walker]; intro e; injection e with e; exact hki e.symm) (h1 k p hk)
      · cases hs
    | call n j =>
      simp only [bcStep] at hs
      repeat' split at hs
      all_goals try cases hs
      next x hx _ _ _ =>
      obtain ⟨g, hg, rfl⟩ := Option.map_eq_some_iff.1 hs
      exact ⟨h1, mem_set_c h2 hx⟩
    | enq n =>
      simp only [bcStep] at hs
      repeat' split at hs
      all_goals try cases hs
      next x hx _ _ _ =>
      obtain ⟨g, hg, rfl⟩ := Option.map_eq_some_iff.1 hs
      exact ⟨h1, mem_set_c h2 hx⟩
    | ret n =>
      simp only [bcStep] at hs
      split at hs
      · next x hx =>
        repeat' split at hs
        all_goals try cases hs
        all_goals exact ⟨h1, mem_set_c h2 hx⟩
      · cases hs
    | answer i =>
      simp only [bcStep] at hs
      repeat' split at hs
      all_goals try cases hs
      refine ⟨fun k p hk => ?_, h2⟩
      by_cases hki : k = i
      · subst hki; simp only [setAt_same] at hk; cases hk
      · simp only [] at hk; rw [setAt_other _ _ hki] at hk; exact h1 k p hk
  exact key.2

/-! ## How many steps there are -/

def gorRank (cap : Nat) : GorPc → Nat
  | .new => 2 * cap + 15
  | .called _ => 2
  | .queued _ _ => 1
  | .done _ => 0

def handRank (cap n : Nat) (wk : WkPc) : BcPc → Nat
  | .id _ => n * (2 * cap + 16) + 3
  | .walk _ => (match wk with | .walk w => (n - w.visited.length) * (2 * cap + 16) | _ => 0) + 2
  | .wait _ _ _ => 1
  | _ => 0

/-- How many steps of its own the server takes at most. -/
def BcSt.rank (cap N : Nat) (s : BcSt) : Nat :=
  sumTo N (fun i => handRank cap s.wk.q.n (s.wk.pc i) (s.pc i)) + (s.gors.map fun x => gorRank cap x.pc).sum +
    sumTo s.wk.q.n fun c => sumTo N ((s.g c).g.rank cap)

theorem gorRank_new (cap : Nat) : gorRank cap .new = 2 * cap + 15 := rfl
theorem gorRank_called (cap j : Nat) : gorRank cap (.called j) = 2 := rfl
theorem gorRank_queued (cap j t : Nat) : gorRank cap (.queued j t) = 1 := rfl
theorem gorRank_done (cap : Nat) (t : Option Nat) : gorRank cap (.done t) = 0 := rfl
theorem handRank_id (cap n : Nat) (wk : WkPc) (p : UInt64) : handRank cap n wk (.id p) = n * (2 * cap + 16) + 3 := rfl
theorem handRank_walk (cap n : Nat) (w : Walk) (p : UInt64) :
    handRank cap n (.walk w) (.walk p) = (n - w.visited.length) * (2 * cap + 16) + 2 := rfl
theorem handRank_wait (cap n : Nat) (wk : WkPc) (p : UInt64) (w : Walk) (to1 : QSt) : handRank cap n wk (.wait p w to1) = 1 := rfl
theorem handRank_answer (cap n : Nat) (wk : WkPc) (p : UInt64) (w : Walk) (to1 : QSt) : handRank cap n wk (.answer p w to1) = 0 := rfl

theorem sum_set {α : Type} (f : α → Nat) : ∀ {l : List α} {n : Nat} {x : α} (y : α), l[n]? = some x →
    ((l.set n y).map f).sum + f x = (l.map f).sum + f y
  | [], n, x, y, h => by simp at h
  | a :: l, 0, x, y, h => by
    simp only [List.getElem?_cons_zero, Option.some.injEq] at h; subst h
    simp only [List.set_cons_zero, List.map_cons, List.sum_cons]; omega
  | a :: l, n + 1, x, y, h => by
    simp only [List.getElem?_cons_succ] at h
    have := sum_set f y h
    simp only [List.set_cons_succ, List.map_cons, List.sum_cons]; omega

theorem connRank_change {cap N n c j : Nat} {g : Nat → G0St} {g1 : G0St} (hc : c < n) (hj : j < N)
    (h : ∀ k, k ≠ j → g1.g.rank cap k = (g c).g.rank cap k) :
    sumTo n (fun d => sumTo N ((setAt g c g1 d).g.rank cap)) + (g c).g.rank cap j =
      sumTo n (fun d => sumTo N ((g d).g.rank cap)) + g1.g.rank cap j := by
  have h1 := sumTo_change (f := fun d => sumTo N ((g d).g.rank cap)) (g := fun d => sumTo N ((setAt g c g1 d).g.rank cap)) hc
    fun d hd => by rw [setAt_other _ _ hd]
  have h2 := sumTo_change (f := (g c).g.rank cap) (g := g1.g.rank cap) hj h
  simp only [setAt_same] at h1
  omega

theorem g0_inner {cap : Nat} {g g' : G0St} {a : GAct} (h : g0Step cap g (.g a) = some g') : gStep cap g.g a = some g'.g := by
  simp only [g0Step] at h
  split at h
  · cases h
  · split at h
    · next x hx => simp only [Option.some.injEq] at h; subst h; exact hx
    · cases h

/-- Between a moment after which nothing new begins and the end: there are `n` connections, and all of them were served before anybody
wrote to them; the goroutines at work are among the first `N` of their kinds. -/
structure BcCalm (cap : Nat) (cmd : Cmd) (payload : Bytes) (N n : Nat) (s : BcSt) : Prop where
  run : ∃ acts, bcRun cap cmd payload acts = some s
  count : s.wk.q.n = n
  served : ∀ c, c < n → ∃ as, gRun cap as = some (s.g c).g
  out : ∀ c j, n ≤ c ∨ N ≤ j → (s.g c).g.pc j = .idle
  hands : ∀ i, N ≤ i → (s.pc i).over = true

/-- A step on a connection keeps what is known of the connections. -/
theorem BcCalm.conn {cap : Nat} {cmd : Cmd} {payload : Bytes} {N n : Nat} {s : BcSt} (h : BcCalm cap cmd payload N n s) {c : Nat} {a : GAct}
    {g : G0St} {j : Nat} (hg : gStep cap (s.g c).g a = some g.g) (hc : c < n) (hj : j < N)
    (hk : ∀ k, k ≠ j → g.g.pc k = (s.g c).g.pc k) :
    (∀ d, d < n → ∃ as, gRun cap as = some (setAt s.g c g d).g) ∧ ∀ d k, n ≤ d ∨ N ≤ k → (setAt s.g c g d).g.pc k = .idle := by
  constructor
  · intro d hd
    by_cases e : d = c
    · subst e
      obtain ⟨as, h1⟩ := h.served d hd
      rw [setAt_same]
      exact ⟨_, gRun_snoc h1 hg⟩
    · rw [setAt_other _ _ e]; exact h.served d hd
  · intro d k hdk
    by_cases e : d = c
    · subst e
      rw [setAt_same, hk k (by omega)]
      exact h.out d k hdk
    · rw [setAt_other _ _ e]; exact h.out d k hdk

theorem bcRun_snoc {cap : Nat} {cmd : Cmd} {payload : Bytes} {as : List BcAct} {s s' : BcSt} {a : BcAct}
    (h : bcRun cap cmd payload as = some s) (hs : bcStep cap cmd payload s a = some s') : bcRun cap cmd payload (as ++ [a]) = some s' := by
  rw [bcRun, runActs_append, show runActs (bcStep cap cmd payload) BcSt.init as = some s from h]; simp [runActs, hs]

/-- The rank of the handlers when handler `i` goes on. -/
theorem handRank_change {cap N n i : Nat} {wk wk' : Nat → WkPc} {pc pc' : Nat → BcPc} (hi : i < N) (h1 : ∀ k, k ≠ i → wk' k = wk k)
    (h2 : ∀ k, k ≠ i → pc' k = pc k) :
    sumTo N (fun k => handRank cap n (wk' k) (pc' k)) + handRank cap n (wk i) (pc i) =
      sumTo N (fun k => handRank cap n (wk k) (pc k)) + handRank cap n (wk' i) (pc' i) :=
  sumTo_change (f := fun k => handRank cap n (wk k) (pc k)) (g := fun k => handRank cap n (wk' k) (pc' k)) hi
    fun k hk => by simp only [h1 k hk, h2 k hk]

/-- A connection that was there all the time has been there. -/
theorem whole_seen {acts : List WkAct} {s : WkSt} (hrun : wkRun acts = some s) {i : Nat} {w : Walk} (hw : s.pc i = .walk w) {c : Nat}
    (hc : w.whole c = true) : w.seen c = true := by
  have key : ∀ i w, s.pc i = .walk w → ∀ c, w.whole c = true → w.seen c = true := by
    refine runActs_inv (P := fun s => ∀ i w, s.pc i = .walk w → ∀ c, w.whole c = true → w.seen c = true) ?_ (by simp [WkSt.init]) hrun
    intro s a s' h hs
    cases a with
    | reg a =>
      simp only [wkStep] at hs
      split at hs
      · next q hq =>
        simp only [Option.some.injEq] at hs; subst hs
        intro i w hw c hc
        cases hp : s.pc i with
        | walk w0 =>
          simp only [hp, WkPc.observe, WkPc.walk.injEq] at hw
          subst hw
          simp only [Bool.and_eq_true, Bool.or_eq_true] at hc ⊢
          exact .inr hc.2
        | idle => simp only [hp, WkPc.observe] at hw; cases hw
        | byID w0 => simp only [hp, WkPc.observe] at hw; cases hw
      · cases hs
    | _ =>
      simp only [wkStep] at hs
      repeat' split at hs
      all_goals simp only [Option.some.injEq, reduceCtorEq] at hs
      all_goals subst hs
      all_goals intro k w hw c hc
      all_goals first
        | exact h k w hw c hc
        | (simp only [setAt] at hw
           split at hw
           · first
               | cases hw; done
               | (simp only [WkPc.walk.injEq] at hw; subst hw; clear hrun; first | exact hc | (rename_i w0 hw0 _ _ _; exact h _ w0 hw0 c hc) | (rename_i w0 hw0 _ _ _ _; exact h _ w0 hw0 c hc))
           · exact h k w hw c hc)
  exact key i w hw c hc

set_option linter.unusedSimpArgs false in
theorem BcCalm.step {cap : Nat} {cmd : Cmd} {payload : Bytes} {N n : Nat} {s s' : BcSt} {a : BcAct} (h : BcCalm cap cmd payload N n s)
    (ha : a.inner N = true) (hs : bcStep cap cmd payload s a = some s') :
    BcCalm cap cmd payload N n s' ∧ s'.rank cap N < s.rank cap N := by
  obtain ⟨acts, hrun⟩ := h.run
  have hI := BcInv.reach hrun
  have hW := BcWhere.reach hrun
  have hr : ∃ acts, bcRun cap cmd payload acts = some s' := ⟨_, bcRun_snoc hrun hs⟩
  have hlt : ∀ i, (s.pc i).over = false → i < N := by
    intro i hi
    rcases Nat.lt_or_ge i N with h1 | h1
    · exact h1
    · rw [h.hands i h1] at hi; cases hi
  have hhands : ∀ i p, i < N → ∀ k, N ≤ k → (setAt s.pc i p k).over = true := by
    intro i p hi k hk
    rw [setAt_other _ _ (by omega)]; exact h.hands k hk
  unfold BcSt.rank
  cases a with
  | wk a => cases ha
  | begin i => cases ha
  | g c a =>
    cases a with
    | start => cases ha
    | g a =>
      simp only [bcStep] at hs
      split at hs
      · cases hs
      · obtain ⟨g, hg, rfl⟩ := Option.map_eq_some_iff.1 hs
        have hg := g0_inner hg
        obtain ⟨j, hj⟩ := Option.isSome_iff_exists.1 (show a.inner.isSome = true from ha)
        have hbusy := GAct.inner_busy hj hg
        have hc : c < n := by
          rcases Nat.lt_or_ge c n with h1 | h1
          · exact h1
          · exact absurd (h.out c j (.inl h1)) hbusy
        have hjN : j < N := by
          rcases Nat.lt_or_ge j N with h1 | h1
          · exact h1
          · exact absurd (h.out c j (.inr h1)) hbusy
        obtain ⟨as, hgr⟩ := h.served c hc
        obtain ⟨h1, h2⟩ := callRank_step (GInv.reach hgr) hj hg
        obtain ⟨h3, h4⟩ := h.conn hg hc hjN fun k hk => (h2 k hk).1
        refine ⟨⟨hr, h.count, h3, h4, h.hands⟩, ?_⟩
        have := connRank_change (g := s.g) hc hjN fun k hk => (h2 k hk).2
        simp only [h.count] at this ⊢
        omega
  | walk i =>
    simp only [bcStep] at hs
    split at hs
    · next p hp =>
      obtain ⟨wk, hw, rfl⟩ := Option.map_eq_some_iff.1 hs
      have hi := hlt i (by rw [hp]; rfl)
      simp only [wkStep, hW.idle i p hp, Option.some.injEq] at hw
      subst hw
      refine ⟨⟨hr, h.count, h.served, h.out, hhands i _ hi⟩, ?_⟩
      have := handRank_change (cap := cap) (n := s.wk.q.n) (wk := s.wk.pc) (wk' := setAt s.wk.pc i (.walk ⟨s.wk.q, s.wk.q.active, s.wk.q.active, []⟩))
        (pc := s.pc) (pc' := setAt s.pc i (.walk p)) hi (fun k hk => setAt_other _ _ hk) (fun k hk => setAt_other _ _ hk)
      simp only [setAt_same, hp, handRank_id, handRank_walk, handRank_wait, handRank_answer, List.length_nil, Nat.sub_zero] at this ⊢
      omega
    · cases hs
  | visit i c =>
    simp only [bcStep] at hs
    split at hs
    · next p hp =>
      obtain ⟨wk, hw, rfl⟩ := Option.map_eq_some_iff.1 hs
      have hi := hlt i (by rw [hp]; rfl)
      obtain ⟨w, hw1, -⟩ := hI.walking i p hp
      obtain ⟨as, hwk⟩ := hI.wk
      have hok := (WkInv.reach hwk).pcs i
      rw [hw1] at hok
      have hok : WalkOk w s.wk.q := hok
      simp only [wkStep, hw1] at hw
      split at hw
      · next hc =>
        simp only [Bool.false_eq_true, if_false, Option.some.injEq] at hw
        subst hw
        refine ⟨⟨hr, h.count, h.served, h.out, h.hands⟩, ?_⟩
        have hlen : (c :: w.visited).length ≤ (List.range s.wk.q.n).length := by
          refine List.Nodup.length_le_of_subset (List.nodup_cons.2 ⟨hc.2, hok.nodup⟩) fun d hd => ?_
          rw [List.mem_range]
          rcases List.mem_cons.1 hd with rfl | hd
          · exact (hok.seen d hc.1).1
          · exact (hok.seen d (hok.sub d hd)).1
        rw [List.length_range, List.length_cons] at hlen
        have := handRank_change (cap := cap) (n := s.wk.q.n) (wk := s.wk.pc) (wk' := setAt s.wk.pc i (.walk { w with visited := w.visited ++ [c] }))
          (pc := s.pc) (pc' := s.pc) hi (fun k hk => setAt_other _ _ hk) (fun k hk => rfl)
        simp only [setAt_same, hp, hw1, handRank_id, handRank_walk, handRank_wait, handRank_answer, List.length_append, List.length_cons, List.length_nil] at this
        obtain ⟨m, hm⟩ : ∃ m, s.wk.q.n - w.visited.length = m + 1 := ⟨s.wk.q.n - w.visited.length - 1, by omega⟩
        rw [hm, show s.wk.q.n - (w.visited.length + (0 + 1)) = m by omega, Nat.succ_mul] at this
        simp only [List.map_append, List.map_cons, List.map_nil, List.sum_append, List.sum_cons, List.sum_nil, gorRank_new, gorRank_called, gorRank_queued, gorRank_done]
        omega
      · cases hw
    · cases hs
  | walkEnd i =>
    simp only [bcStep] at hs
    split at hs
    · next p w hp hw1 =>
      obtain ⟨wk, hw, rfl⟩ := Option.map_eq_some_iff.1 hs
      have hi := hlt i (by rw [hp]; rfl)
      simp only [wkStep, hw1] at hw
      split at hw
      · simp only [Option.some.injEq] at hw
        subst hw
        refine ⟨⟨hr, h.count, h.served, h.out, hhands i _ hi⟩, ?_⟩
        have := handRank_change (cap := cap) (n := s.wk.q.n) (wk := s.wk.pc) (wk' := setAt s.wk.pc i .idle)
          (pc := s.pc) (pc' := setAt s.pc i (.wait p w s.wk.q)) hi (fun k hk => setAt_other _ _ hk) (fun k hk => setAt_other _ _ hk)
        simp only [setAt_same, hp, hw1, handRank_id, handRank_walk, handRank_wait, handRank_answer] at this ⊢
        omega
      · cases hw
    · cases hs
  | answer i =>
    simp only [bcStep] at hs
    split at hs
    · next p w to1 hp =>
      split at hs
      · simp only [Option.some.injEq] at hs
        subst hs
        have hi := hlt i (by rw [hp]; rfl)
        refine ⟨⟨hr, h.count, h.served, h.out, hhands i _ hi⟩, ?_⟩
        have := handRank_change (cap := cap) (n := s.wk.q.n) (wk := s.wk.pc) (wk' := s.wk.pc)
          (pc := s.pc) (pc' := setAt s.pc i (.answer p w to1)) hi (fun k hk => rfl) (fun k hk => setAt_other _ _ hk)
        simp only [setAt_same, hp, handRank_id, handRank_walk, handRank_wait, handRank_answer] at this ⊢
        omega
      · cases hs
    · cases hs
  | call m j =>
    have hjN : j < N := by simpa [BcAct.inner] using ha
    simp only [bcStep] at hs
    split at hs
    · next x hx =>
      split at hs
      · next hnew =>
        split at hs
        · cases hs
        · obtain ⟨g, hg, rfl⟩ := Option.map_eq_some_iff.1 hs
          have hg := g0_inner hg
          have hc : x.c < n := h.count ▸ hW.conn x (List.mem_of_getElem? hx)
          simp only [gStep] at hg
          split at hg
          · next hidle =>
            split at hg
            · cases hg
            · next hb =>
              simp only [Option.some.injEq] at hg
              have hk : ∀ k, k ≠ j → g.g.pc k = (s.g x.c).g.pc k := fun k hk => by rw [← hg]; exact setAt_other _ _ hk
              have hrk : ∀ k, k ≠ j → g.g.rank cap k = (s.g x.c).g.rank cap k := fun k hkj => by
                unfold GSt.rank; rw [hk k hkj, ← hg]
              obtain ⟨h3, h4⟩ := h.conn (a := .call j (pushFrame cmd payload x.p)) (g := g) (c := x.c) (by simp only [gStep, hidle, hb, if_false, hg]) hc hjN hk
              refine ⟨⟨hr, h.count, h3, h4, h.hands⟩, ?_⟩
              have e1 := connRank_change (g := s.g) hc hjN hrk
              have e2 := sum_set (fun x : Gor => gorRank cap x.pc) { x with pc := .called j } hx
              have e3 : (s.g x.c).g.rank cap j = 0 := by unfold GSt.rank; rw [hidle]; rfl
              have e4 : g.g.rank cap j = 12 + 2 * cap := by unfold GSt.rank; rw [← hg]; simp only [setAt_same]; rfl
              simp only [hnew, gorRank_new, gorRank_called, gorRank_queued, gorRank_done] at e2
              simp only [h.count] at e1 ⊢
              omega
          · cases hg
      · cases hs
    · cases hs
  | enq m =>
    simp only [bcStep] at hs
    split at hs
    · next x hx =>
      split at hs
      · next j hcall =>
        obtain ⟨g, hg, rfl⟩ := Option.map_eq_some_iff.1 hs
        have hg := g0_inner hg
        have hc : x.c < n := h.count ▸ hW.conn x (List.mem_of_getElem? hx)
        have hbusy := GAct.inner_busy (i := j) rfl hg
        have hjN : j < N := by
          rcases Nat.lt_or_ge j N with h1 | h1
          · exact h1
          · exact absurd (h.out x.c j (.inr h1)) hbusy
        obtain ⟨as, hgr⟩ := h.served x.c hc
        obtain ⟨h1, h2⟩ := callRank_step (i := j) (GInv.reach hgr) rfl hg
        obtain ⟨h3, h4⟩ := h.conn hg hc hjN fun k hk => (h2 k hk).1
        refine ⟨⟨hr, h.count, h3, h4, h.hands⟩, ?_⟩
        have e1 := connRank_change (g := s.g) hc hjN fun k hk => (h2 k hk).2
        have e2 := sum_set (fun x : Gor => gorRank cap x.pc) { x with pc := .queued j (s.g x.c).g.frames.length } hx
        simp only [hcall, gorRank_new, gorRank_called, gorRank_queued, gorRank_done] at e2
        simp only [h.count] at e1 ⊢
        omega
      · cases hs
    · cases hs
  | ret m =>
    simp only [bcStep] at hs
    split at hs
    · next x hx =>
      split at hs
      · next j hcall =>
        split at hs
        · simp only [Option.some.injEq] at hs
          subst hs
          refine ⟨⟨hr, h.count, h.served, h.out, h.hands⟩, ?_⟩
          have e2 := sum_set (fun x : Gor => gorRank cap x.pc) { x with pc := .done none } hx
          simp only [hcall, gorRank_new, gorRank_called, gorRank_queued, gorRank_done] at e2
          simp only []
          omega
        · cases hs
      · next j t hq =>
        split at hs
        · simp only [Option.some.injEq] at hs
          subst hs
          refine ⟨⟨hr, h.count, h.served, h.out, h.hands⟩, ?_⟩
          have e2 := sum_set (fun x : Gor => gorRank cap x.pc) { x with pc := .done (some t) } hx
          simp only [hq, gorRank_new, gorRank_called, gorRank_queued, gorRank_done] at e2
          simp only []
          omega
        · cases hs
      · cases hs
    · cases hs

/-- When nobody can take a step, every handler is through. -/
theorem BcCalm.over {cap : Nat} {cmd : Cmd} {payload : Bytes} {N n : Nat} {s : BcSt} (h : BcCalm cap cmd payload N n s) (hcap : 0 < cap)
    (hN : 0 < N) (hq : BcRest cap cmd payload N s) (hcl : ∀ c, c < n → (s.g c).g.closing = true → (s.g c).g.ctx = true) :
    (∀ c j, (s.g c).g.pc j = .idle) ∧ (∀ x ∈ s.gors, x.pc.finished = true) ∧ ∀ i, (s.pc i).over = true := by
  obtain ⟨acts, hrun⟩ := h.run
  have hI := BcInv.reach hrun
  have hW := BcWhere.reach hrun
  have hidle : ∀ c j, (s.g c).g.pc j = .idle := by
    intro c
    rcases Nat.lt_or_ge c n with hc | hc
    · obtain ⟨as, hg⟩ := h.served c hc
      refine quiet_idle hg hcap (hcl c hc) fun a ha => ?_
      cases hs : gStep cap (s.g c).g a with
      | none => rfl
      | some g =>
        exfalso
        have hrd : a.ofReader = false := by cases a <;> simp_all [GAct.inner, GAct.ofReader]
        have hg0 : g0Step cap (s.g c) (.g a) = some { s.g c with g := g } := by simp [g0Step, hrd, hs]
        cases ho : s.owns c (.g a) with
        | false =>
          have := hq (.g c (.g a)) (Option.isSome_iff_ne_none.2 ha)
          simp [bcStep, ho, hg0] at this
        | true =>
          cases a <;> simp only [GAct.inner, ne_eq, not_true_eq_false, reduceCtorEq, not_false_eq_true] at ha <;>
            simp only [BcSt.owns, Bool.false_eq_true] at ho
          rename_i j
          obtain ⟨x, hx, hxe⟩ := List.any_eq_true.1 ho
          simp only [Gor.enters, Bool.and_eq_true, beq_iff_eq] at hxe
          obtain ⟨m, hm⟩ := List.getElem?_of_mem hx
          have := hq (.enq m) rfl
          simp [bcStep, hm, hxe.2, hxe.1, hg0] at this
    · exact fun j => h.out c j (.inl hc)
  have hgor : ∀ x ∈ s.gors, x.pc = .new ∨ x.pc.finished = true := by
    intro x hx
    obtain ⟨m, hm⟩ := List.getElem?_of_mem hx
    have := hq (.ret m) rfl
    cases hp : x.pc with
    | new => exact .inl rfl
    | done t => exact .inr rfl
    | called j => simp [bcStep, hm, hp, hidle] at this
    | queued j t => simp [bcStep, hm, hp, hidle] at this
  have hnw : ∀ c, s.gors.any (·.writes c 0) = false := by
    intro c
    refine Bool.eq_false_iff.2 fun ho => ?_
    obtain ⟨x, hx, hxe⟩ := List.any_eq_true.1 ho
    rcases hgor x hx with hp | hp
    · simp [Gor.writes, hp] at hxe
    · cases hp1 : x.pc <;> simp [hp1, GorPc.finished] at hp
      simp [Gor.writes, hp1] at hxe
  have hfin : ∀ x ∈ s.gors, x.pc.finished = true := by
    intro x hx
    rcases hgor x hx with hp | hp
    · obtain ⟨m, hm⟩ := List.getElem?_of_mem hx
      have := hq (.call m 0) (by simp [BcAct.inner, hN])
      have hb : (pushFrame cmd payload x.p).bytes ≠ [] := by
        intro e
        have e1 : (pushFrame cmd payload x.p).bytes.length = 0 := by rw [e]; rfl
        simp only [pushFrame, pushBytes_layout, layout_length] at e1
        omega
      simp [bcStep, hm, hp, hnw, g0Step, GAct.ofReader, gStep, hidle, hb] at this
    · exact hp
  refine ⟨hidle, hfin, fun i => ?_⟩
  cases hp : s.pc i with
  | idle => rfl
  | answer p w to1 => rfl
  | id p =>
    have := hq (.walk i) rfl
    simp [bcStep, hp, wkStep, hW.idle i p hp] at this
  | walk p =>
    exfalso
    obtain ⟨w, hw, -⟩ := hI.walking i p hp
    by_cases hall : ∀ c < s.wk.q.n, w.whole c → c ∈ w.visited
    · have := hq (.walkEnd i) rfl
      simp [bcStep, hp, hw, wkStep] at this
      obtain ⟨c, h1, h2, h3⟩ := this
      exact h3 (hall c h1 h2)
    · simp only [Classical.not_forall] at hall
      obtain ⟨c, h1, h2, h3⟩ := hall
      have := hq (.visit i c) rfl
      simp [bcStep, hp, hw, wkStep, h3, whole_seen (hI.wk.choose_spec) hw h2] at this
  | wait p w to1 =>
    have := hq (.answer i) rfl
    simp [bcStep, hp] at this
    obtain ⟨x, h1, -, h3⟩ := this
    rw [hfin x h1] at h3; cases h3

/-- A handler keeps its push id. -/
theorem BcSt.keeps_pid {cap : Nat} {cmd : Cmd} {payload : Bytes} {s s' : BcSt} {a : BcAct} (hs : bcStep cap cmd payload s a = some s') {i : Nat}
    {p : UInt64} (hp : (s.pc i).pid = some p) : (s'.pc i).pid = some p := by
  cases a with
  | wk a =>
    simp only [bcStep] at hs
    repeat' split at hs
    all_goals try cases hs
    all_goals
      obtain ⟨wk, hw, rfl⟩ := Option.map_eq_some_iff.1 hs
      exact hp
  | g c a =>
    simp only [bcStep] at hs
    split at hs
    · cases hs
    · obtain ⟨g, hg, rfl⟩ := Option.map_eq_some_iff.1 hs
      exact hp
  | _ =>
    simp only [bcStep] at hs
    repeat' split at hs
    all_goals simp only [Option.map_eq_some_iff, Option.some.injEq, reduceCtorEq] at hs
    all_goals first | subst hs | (obtain ⟨g, -, rfl⟩ := hs)
    all_goals first
      | exact hp
      | (simp only [setAt]
         split
         · next e => subst e; simp_all [BcPc.pid]
         · exact hp)

/-- **C134.** Let handlers that push to all connections run as documented, in any number and with anything else going on, up to a state
`s`, in which the handlers under way and the goroutines inside `writeFrameBytes` are among the first `N` of their kinds and every connection
was served before anybody wrote to it. From there on let the server take its own steps only, in any order, with any results of the
writes: nobody begins anything new. Then it takes a bounded number of steps, so it does come to rest; and when it is at rest, with the
contexts of closing connections cancelled, every handler that had begun has come to its answer, and by then its push has been written
to each connection that was there when its walk began, was still registered when the walk ended, and is not being closed. -/
theorem C134 {cap : Nat} {cmd : Cmd} {payload : Bytes} {acts more : List BcAct} {s s' : BcSt} {N : Nat} (hcap : 0 < cap) (hN : 0 < N)
    (hrun : bcRun cap cmd payload acts = some s) (hhand : ∀ i, N ≤ i → (s.pc i).over = true)
    (hwr : ∀ c j, s.wk.q.n ≤ c ∨ N ≤ j → (s.g c).g.pc j = .idle) (hserved : ∀ c, c < s.wk.q.n → ∃ as, gRun cap as = some (s.g c).g)
    (hin : ∀ a ∈ more, a.inner N = true) (hm : runActs (bcStep cap cmd payload) s more = some s') :
    more.length ≤ N * (s.wk.q.n * (2 * cap + 16) + 3) + s.gors.length * (2 * cap + 15) +
      sumTo s.wk.q.n (fun c => N * (2 * cap + 12 + (s.g c).g.batch.length + (s.g c).g.toSend.length)) ∧
    (BcRest cap cmd payload N s' → (∀ c, c < s.wk.q.n → (s'.g c).g.closing = true → (s'.g c).g.ctx = true) →
      (∀ c j, (s'.g c).g.pc j = .idle) ∧
      ∀ i p, (s.pc i).pid = some p → ∃ w to1, s'.pc i = .answer p w to1 ∧ .walked w to1 false ∈ s'.wk.log ∧
        ∀ c, c < w.from0.n → to1.untrack c = false → (s'.g c).g.closing = false →
          ∃ t, (s'.g c).g.frames[t]? = some ⟨layout p cmd PushFlag payload, false, false, true, false⟩ ∧ (t, SRes.ok) ∈ (s'.g c).g.rets) := by
  have hb := run_bounded (BcCalm cap cmd payload N s.wk.q.n) (fun s => s.rank cap N) (fun a => a.inner N = true)
    (step := bcStep cap cmd payload) (fun _ _ _ h ha hs => h.step ha hs) more s s' ⟨⟨acts, hrun⟩, rfl, hserved, hwr, hhand⟩ hin hm
  constructor
  · have h1 := sumTo_bound (n := N) (f := fun i => handRank cap s.wk.q.n (s.wk.pc i) (s.pc i)) (b := s.wk.q.n * (2 * cap + 16) + 3) fun i _ => by
      cases hp : s.pc i with
      | walk p =>
        cases hw : s.wk.pc i with
        | walk w =>
          simp only [handRank_walk]
          have := Nat.mul_le_mul_right (2 * cap + 16) (Nat.sub_le s.wk.q.n w.visited.length)
          omega
        | idle => simp only [handRank]; omega
        | byID w => simp only [handRank]; omega
      | _ => simp only [handRank]; omega
    have h2 : (s.gors.map fun x => gorRank cap x.pc).sum ≤ s.gors.length * (2 * cap + 15) := by
      generalize s.gors = l
      induction l with
      | nil => simp
      | cons x l ih =>
        simp only [List.map_cons, List.sum_cons, List.length_cons]
        rw [Nat.add_mul, Nat.one_mul]
        have : gorRank cap x.pc ≤ 2 * cap + 15 := by cases x.pc <;> simp only [gorRank] <;> omega
        omega
    have h3 : sumTo s.wk.q.n (fun c => sumTo N ((s.g c).g.rank cap)) ≤
        sumTo s.wk.q.n (fun c => N * (2 * cap + 12 + (s.g c).g.batch.length + (s.g c).g.toSend.length)) := by
      refine sumTo_le fun c hc => sumTo_bound fun j _ => ?_
      obtain ⟨as, hg⟩ := hserved c hc
      exact callRank_le hg j
    have h4 := hb.2
    unfold BcSt.rank at h4
    omega
  · intro hq hcl
    obtain ⟨hidle, -, hover⟩ := hb.1.over hcap hN hq hcl
    refine ⟨hidle, fun i p hp => ?_⟩
    have hp' : (s'.pc i).pid = some p :=
      runActs_inv (P := fun s => (s.pc i).pid = some p) (fun _ _ _ h hs => BcSt.keeps_pid hs h) hp hm
    obtain ⟨acts', hrun'⟩ := hb.1.run
    have ho := hover i
    cases ha : s'.pc i with
    | answer p' w to1 =>
      rw [ha] at hp'
      simp only [BcPc.pid, Option.some.injEq] at hp'
      subst hp'
      obtain ⟨h1, -, h2⟩ := C132_written hrun' ha
      exact ⟨w, to1, rfl, h1, h2⟩
    | idle => rw [ha] at hp'; cases hp'
    | id _ => rw [ha] at ho; cases ho
    | walk _ => rw [ha] at ho; cases ho
    | wait _ _ _ => rw [ha] at ho; cases ho

/-! ## An example -/

/-- Two connections, served; a handler that has got its push id. -/
def exEndBefore : List BcAct := [.wk (.reg .newConn), .g 0 .start, .wk (.reg .newConn), .g 1 .start, .begin 0]

/-- Its walk, the writes of its two goroutines, and its answer. -/
def exEndAfter : List BcAct :=
  [.walk 0, .visit 0 1, .call 0 0, .visit 0 0, .enq 0, .call 1 1, .walkEnd 0] ++ exWrite 1 0 18 ++ [.ret 0, .enq 1] ++ exWrite 0 1 18 ++
  [.ret 1, .answer 0]

def exEndS : BcSt := (bcRun 4 1 [7, 8] exEndBefore).get (by decide +kernel)

theorem rest_of_over {cap : Nat} {cmd : Cmd} {payload : Bytes} {N : Nat} {s : BcSt} (h1 : ∀ c j, (s.g c).g.pc j = .idle)
    (h2 : ∀ x ∈ s.gors, x.pc.finished = true) (h3 : ∀ i, (s.pc i).over = true) : BcRest cap cmd payload N s := by
  have hg : ∀ (n : Nat) (x : Gor), s.gors[n]? = some x → x.pc.finished = true := fun n x hx => h2 x (List.mem_of_getElem? hx)
  have hq : ∀ c a, a.inner.isSome = true → g0Step cap (s.g c) (.g a) = none := by
    intro c a ha
    cases hs : g0Step cap (s.g c) (.g a) with
    | none => rfl
    | some g =>
      obtain ⟨j, hj⟩ := Option.isSome_iff_exists.1 ha
      exact absurd (h1 c j) (GAct.inner_busy hj (g0_inner hs))
  intro a ha
  cases a with
  | wk a => cases ha
  | begin i => cases ha
  | g c a =>
    cases a with
    | start => cases ha
    | g a => simp only [bcStep, hq c a ha]; split <;> rfl
  | walk i => have := h3 i; simp only [bcStep]; split <;> simp_all [BcPc.over]
  | visit i c => have := h3 i; simp only [bcStep]; split <;> simp_all [BcPc.over]
  | walkEnd i => have := h3 i; simp only [bcStep]; split <;> simp_all [BcPc.over]
  | answer i => have := h3 i; simp only [bcStep]; split <;> simp_all [BcPc.over]
  | call n j =>
    simp only [bcStep]
    split
    · next x hx => have := hg n x hx; split <;> simp_all [GorPc.finished]
    · rfl
  | enq n =>
    simp only [bcStep]
    split
    · next x hx => have := hg n x hx; split <;> simp_all [GorPc.finished]
    · rfl
  | ret n =>
    simp only [bcStep]
    split
    · next x hx => have := hg n x hx; split <;> simp_all [GorPc.finished]
    · rfl

/-- The hypotheses of C134 before … -/
theorem exEnd_before : bcRun 4 1 [7, 8] exEndBefore = some exEndS ∧ (∀ i, 2 ≤ i → (exEndS.pc i).over = true) ∧
    (∀ c j, exEndS.wk.q.n ≤ c ∨ 2 ≤ j → (exEndS.g c).g.pc j = .idle) ∧
    (∀ c, c < exEndS.wk.q.n → ∃ as, gRun 4 as = some (exEndS.g c).g) ∧ (exEndS.pc 0).pid = some 1 := by
  have hn : exEndS.wk.q.n = 2 := by decide +kernel
  have hpc : ∀ i, exEndS.pc i = setAt (fun _ => .idle) 0 (.id 1) i := fun _ => rfl
  have hg : ∀ c, exEndS.g c = setAt (setAt (fun _ => G0St.init) 0 ⟨GSt.init, true⟩) 1 ⟨GSt.init, true⟩ c := fun _ => rfl
  refine ⟨by simp [exEndS], fun i hi => ?_, fun c j _ => ?_, fun c hc => ⟨[], ?_⟩, rfl⟩
  · rw [hpc, setAt_other _ _ (by omega)]; rfl
  · rw [hg]
    simp only [setAt]
    repeat' split
    all_goals rfl
  · rw [hg]
    have : c = 0 ∨ c = 1 := by omega
    rcases this with rfl | rfl <;> rfl

def exEndT : BcSt := (runActs (bcStep 4 1 [7, 8]) exEndS exEndAfter).get (by decide +kernel)

/-- … and at the end: the server is at rest, nothing is being closed, and the connections have the push. -/
example : runActs (bcStep 4 1 [7, 8]) exEndS exEndAfter = some exEndT ∧ exEndAfter.all (·.inner 2) = true ∧ BcRest 4 1 [7, 8] 2 exEndT ∧
    (∀ c, c < exEndS.wk.q.n → (exEndT.g c).g.closing = true → (exEndT.g c).g.ctx = true) ∧
    (exEndT.g 0).g.wire = layout 1 1 PushFlag [7, 8] ∧ (exEndT.g 1).g.wire = layout 1 1 PushFlag [7, 8] := by
  have hrun : runActs (bcStep 4 1 [7, 8]) exEndS exEndAfter = some exEndT := by simp [exEndT]
  have hin : exEndAfter.all (·.inner 2) = true := by decide +kernel
  obtain ⟨h1, h2, h3, h4, -⟩ := exEnd_before
  have hc := (run_bounded (BcCalm 4 1 [7, 8] 2 exEndS.wk.q.n) (fun s => s.rank 4 2) (fun a => a.inner 2 = true) (step := bcStep 4 1 [7, 8])
    (fun _ _ _ h ha hs => h.step ha hs) exEndAfter exEndS exEndT ⟨⟨_, h1⟩, rfl, h4, h3, h2⟩ (List.all_eq_true.1 hin) hrun).1
  have hn : exEndS.wk.q.n = 2 := by decide +kernel
  rw [hn] at hc ⊢
  refine ⟨hrun, hin, rest_of_over (fun c j => ?_) (by decide +kernel) (fun i => ?_), fun c hc => ?_, by decide +kernel, by decide +kernel⟩
  · by_cases h : 2 ≤ c ∨ 2 ≤ j
    · exact hc.out c j h
    · have : ∀ c < 2, ∀ j < 2, (exEndT.g c).g.pc j = .idle := by decide +kernel
      exact this c (by omega) j (by omega)
  · by_cases h : 2 ≤ i
    · exact hc.hands i h
    · have : ∀ i < 2, (exEndT.pc i).over = true := by decide +kernel
      exact this i (by omega)
  · have : ∀ c < 2, (exEndT.g c).g.closing = true → (exEndT.g c).g.ctx = true := by decide +kernel
    exact this c hc

end Qrpc
