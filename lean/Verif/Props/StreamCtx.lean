import Verif.Model.StreamCtx
import Verif.Lemmas.StreamF
/-!
# C133: the contexts of streams do not pile up
-/
namespace Qrpc
open Spec

namespace Spec

/-- The context of the stream a goroutine has made and neither stored nor thrown away yet. -/
def _root_.Qrpc.CgPc.holds : CgPc → List Nat
  | .out => []
  | .made c | .loaded c => [c]

/-- The streams in the tables. -/
def inTables (s : SSt) : List Nat := (List.range s.next).filter fun r => s.tbl (s.str r).key = some r

/-- Those of them whose own context has not been cancelled. -/
def liveStreams (s : SSt) : List Nat := (inTables s).filter fun r => !(s.str r).cancelled

end Spec

def SSt.grows (s : SSt) (a : SAct) : Bool :=
  match a.stores with
  | some k => s.tbl k == none
  | none => false

set_option maxHeartbeats 1000000 in
theorem sStep_ctx {s s' : SSt} {a : SAct} (hs : sStep s a = some s') :
    s'.next = (if s.grows a then s.next + 1 else s.next) ∧
    (∀ r, r < s.next → (s'.str r).cancelled = ((s.str r).cancelled || (s.cancels a).contains r)) ∧
    (s.grows a = true → (s'.str s.next).cancelled = false) ∧
    s'.connCancelled = (s.connCancelled || a == .cancelConn) ∧ s'.released = (s.released || a == .release) ∧
    (a.stores ≠ none → s.released = false) := by
  sstep_cases hs a
  all_goals simp_all [SSt.grows, SAct.stores, SSt.cancels, Frame.key]
  all_goals try grind [releaseStream]

structure XcInv (x : XcSt) : Prop where
  a : SInvA x.s
  dead : x.s.released = true → (∀ r, r < x.s.next → (x.s.str r).cancelled = true) ∧ x.rc = .out ∧ x.wc = .out
  nd : x.kids.Nodup
  lt : ∀ c ∈ x.kids, c < x.n
  own : ∀ r, r < x.s.next → x.ctxOf r < x.n
  inj : ∀ r r', r < x.s.next → r' < x.s.next → x.ctxOf r = x.ctxOf r' → r = r'
  hr : ∀ c ∈ x.rc.holds, c < x.n ∧ c ∉ x.wc.holds ∧ ∀ r, r < x.s.next → x.ctxOf r ≠ c
  hw : ∀ c ∈ x.wc.holds, c < x.n ∧ c ∉ x.rc.holds ∧ ∀ r, r < x.s.next → x.ctxOf r ≠ c
  mem : x.s.connCancelled = false → ∀ c, c ∈ x.kids ↔
    (∃ r, r < x.s.next ∧ (x.s.str r).cancelled = false ∧ x.ctxOf r = c) ∨ c ∈ x.rc.holds ∨ c ∈ x.wc.holds
  cc : x.s.connCancelled = true → x.kids = []

theorem XcInv.init : XcInv .init := by
  constructor <;> simp [XcSt.init, CgPc.holds, SSt.init]
  exact .init

/-- Not cancelled, so in the table. -/
theorem uncancelled_in_table {s : SSt} (hA : SInvA s) {r : Nat} (hr : r < s.next) (hn : s.released = false)
    (hc : (s.str r).cancelled = false) : s.tbl (s.str r).key = some r := by
  refine hA.tbl2 hn r hr ?_
  obtain ⟨-, h1, h2, h3, h4, h5⟩ := hA.ph r
  cases hf : (s.str r).fullClosed with
  | false => exact (h1 hf).2.2.1
  | true =>
    cases ha : s.r.adPc r with
    | none =>
      cases hb : s.w.adPc r with
      | none => simp [(h2 hf ha hb).2.2] at hc
      | some p => cases p with
        | cas => revert hb; cases s.w <;> simp [WPc.adPc]; rename_i pc _ _; cases pc <;> simp
        | cancel => exact (h3 (.inr hb)).1
        | notify => simp [(h4 (.inr hb)).2.2] at hc
        | done => simp [(h5 (.inr hb)).2.2] at hc
    | some p => cases p with
      | cas => revert ha; cases s.r <;> simp [RPc.adPc]; rename_i pc; cases pc <;> simp
      | cancel => exact (h3 (.inl ha)).1
      | notify => simp [(h4 (.inl ha)).2.2] at hc
      | done => simp [(h5 (.inl ha)).2.2] at hc

theorem before_spec {x y : XcSt} {a : SAct} (h : x.before a = some y) :
    y.s = x.s ∧ y.kids = x.kids ∧ y.n = x.n ∧ (a = .release → y.rc = .out ∧ y.wc = .out) ∧
    (x.s.grows a = false → y.ctxOf = x.ctxOf ∧ y.rc.holds = x.rc.holds ∧ y.wc.holds = x.wc.holds) ∧
    (x.s.grows a = true → ∃ c, (x.rc = .made c ∧ y.rc = .out ∧ y.wc = x.wc ∨ x.wc = .made c ∧ y.wc = .out ∧ y.rc = x.rc) ∧
      y.ctxOf = fun r => if r = x.s.next then c else x.ctxOf r) := by
  simp only [XcSt.before, XcSt.store] at h
  split at h
  · rename_i k hk
    have hr : a ≠ .release := by rintro rfl; simp [SAct.stores] at hk
    split at h
    all_goals
      split at h
      · split at h
        all_goals
          simp only [Option.some.injEq] at h
          subst h
          simp_all [SSt.grows, CgPc.holds]
      · simp at h
  · rename_i hk
    split at h
    · simp at h
    · simp only [Option.some.injEq] at h
      subst h
      simp_all [SSt.grows]

theorem cancels_lt {s : SSt} (hA : SInvA s) {a : SAct} {r : Nat} (h : r ∈ s.cancels a) : r < s.next := by
  have h1 := hA.rok
  have h2 := hA.wok
  cases a <;> simp only [SSt.cancels, List.not_mem_nil, List.mem_filter, List.mem_range] at h
  · split at h <;> simp_all [RPc.ok]
  · split at h <;> simp_all [WPc.ok]
  · exact h.1

theorem cancels_grow {s : SSt} {a : SAct} (h : s.grows a = true) : s.cancels a = [] ∧ a ≠ .cancelConn ∧ a ≠ .release := by
  cases a <;> simp_all [SSt.cancels, SSt.grows, SAct.stores]

/-- Everything that is not cancelled yet is cancelled by `Release`. -/
theorem release_all {s : SSt} (hA : SInvA s) (hn : s.released = false) {r : Nat} (hr : r < s.next) :
    (s.str r).cancelled = true ∨ r ∈ s.cancels .release := by
  cases hc : (s.str r).cancelled with
  | true => exact .inl rfl
  | false => exact .inr (List.mem_filter.2 ⟨List.mem_range.2 hr, by simpa using uncancelled_in_table hA hr hn hc⟩)

theorem XcInv.step {x x' : XcSt} {a : XcAct} (h : XcInv x) (hs : xcStep x a = some x') : XcInv x' := by
  obtain ⟨h1, h2, h3, h4, h5, h6, h7, h8, h9, h10⟩ := h
  cases a with
  | newR =>
    simp only [xcStep, XcSt.derive] at hs
    split at hs <;> simp at hs
    subst hs
    rename_i hc
    constructor <;> simp only []
    all_goals grind [CgPc.holds]
  | newW =>
    simp only [xcStep, XcSt.derive] at hs
    split at hs <;> simp at hs
    subst hs
    constructor <;> simp only []
    all_goals grind [CgPc.holds]
  | dropR =>
    simp only [xcStep] at hs
    split at hs <;> simp at hs
    subst hs
    have : ∀ a b, a ∈ x.kids.erase b ↔ a ≠ b ∧ a ∈ x.kids := fun a b => h3.mem_erase_iff
    constructor <;> simp only []
    all_goals grind [CgPc.holds, List.Nodup.erase]
  | dropW =>
    simp only [xcStep] at hs
    split at hs <;> simp at hs
    subst hs
    have : ∀ a b, a ∈ x.kids.erase b ↔ a ≠ b ∧ a ∈ x.kids := fun a b => h3.mem_erase_iff
    constructor <;> simp only []
    all_goals grind [CgPc.holds, List.Nodup.erase]
  | act a =>
    simp only [xcStep] at hs
    split at hs
    case h_2 => simp at hs
    rename_i s' hss
    cases hb : x.before a with
    | none => simp [hb] at hs
    | some y =>
      simp only [hb, Option.map_some, Option.some.injEq] at hs
      subst hs
      have h1' := h1.step hss
      obtain ⟨e1, e2, e3, e4, e5, e6⟩ := sStep_ctx hss
      obtain ⟨b1, b2, b3, b4, b5, b6⟩ := before_spec hb
      have hrel : x.s.released = true → x.s.grows a = false := by
        intro hr
        cases hg : x.s.grows a with
        | false => rfl
        | true =>
          exfalso
          have : a.stores ≠ none := by
            intro h0; simp [SSt.grows, h0] at hg
          simp [e6 this] at hr
      have hK : ∀ c, c ∈ (if a = .cancelConn then [] else y.kids.filter fun c => !((x.s.cancels a).map x.ctxOf).contains c) ↔
          a ≠ .cancelConn ∧ c ∈ x.kids ∧ ∀ r ∈ x.s.cancels a, x.ctxOf r ≠ c := by
        intro c
        rw [b2]
        by_cases hc : a = .cancelConn
        · simp [hc]
        · simp [hc]
      have hKn : (if a = .cancelConn then [] else y.kids.filter fun c => !((x.s.cancels a).map x.ctxOf).contains c).Nodup := by
        split
        · exact List.nodup_nil
        · rw [b2]; exact h3.filter _
      have hcc : s'.connCancelled = true →
          (if a = .cancelConn then [] else y.kids.filter fun c => !((x.s.cancels a).map x.ctxOf).contains c) = [] := by
        intro hc
        split
        · rfl
        · rename_i hne
          rw [e4] at hc
          have : x.s.connCancelled = true := by simpa [hne] using hc
          rw [b2, h10 this]; rfl
      generalize hKe : (if a = .cancelConn then [] else y.kids.filter fun c => !((x.s.cancels a).map x.ctxOf).contains c) = K at *
      have hlt := fun r => cancels_lt h1 (a := a) (r := r)
      cases hg : x.s.grows a with
      | false =>
        obtain ⟨c1, c2, c3⟩ := b5 hg
        rw [hg] at e1
        simp only [Bool.false_eq_true, if_false] at e1
        constructor
        · exact h1'
        · intro hr
          simp only [] at hr ⊢
          by_cases ha : a = .release
          · refine ⟨fun r hr' => ?_, b4 ha⟩
            rw [e1] at hr'
            rw [e2 r hr']
            have hn : x.s.released = false := by
              subst ha
              simp only [sStep] at hss
              split at hss
              · rename_i h; exact h.2.2
              · simp at hss
            rcases release_all h1 hn hr' with h | h
            · simp [h]
            · simp [ha, h]
          · rw [e5] at hr
            have hr : x.s.released = true := by simpa [ha] using hr
            obtain ⟨d1, d2, d3⟩ := h2 hr
            refine ⟨fun r hr' => ?_, ?_, ?_⟩
            · rw [e1] at hr'
              rw [e2 r hr', d1 r hr']; rfl
            · have : y.rc.holds = [] := by rw [c2, d2]; rfl
              cases hy : y.rc <;> simp_all [CgPc.holds]
            · have : y.wc.holds = [] := by rw [c3, d3]; rfl
              cases hy : y.wc <;> simp_all [CgPc.holds]
        · exact hKn
        · intro c hc; rw [b3]; exact h4 c ((hK c).1 hc).2.1
        · simp only [e1, c1, b3]; exact h5
        · simp only [e1, c1]; exact h6
        · simp only [e1, c1, c2, c3, b3]; exact h7
        · simp only [e1, c1, c2, c3, b3]; exact h8
        · intro hc c
          simp only [] at hc
          rw [e4] at hc
          simp only [Bool.or_eq_false_iff, beq_eq_false_iff_ne] at hc
          simp only [c1, c2, c3, e1]
          rw [hK, h9 hc.1]
          constructor
          · rintro ⟨-, ⟨r, r1, r2, r3⟩ | h, hn⟩
            · refine .inl ⟨r, r1, ?_, r3⟩
              rw [e2 r r1, r2]
              simpa using fun hm => hn r hm r3
            · exact .inr h
          · rintro (⟨r, r1, r2, r3⟩ | h)
            · rw [e2 r r1] at r2
              simp only [Bool.or_eq_false_iff, List.contains_eq_mem, decide_eq_false_iff_not] at r2
              refine ⟨hc.2, .inl ⟨r, r1, r2.1, r3⟩, fun r' hr' he => r2.2 ?_⟩
              rw [h6 r r' r1 (hlt r' hr') (by rw [r3, he])]
              exact hr'
            · refine ⟨hc.2, .inr h, fun r' hr' he => ?_⟩
              rcases h with h | h
              · exact (h7 c h).2.2 r' (hlt r' hr') he
              · exact (h8 c h).2.2 r' (hlt r' hr') he
        · exact hcc
      | true =>
        obtain ⟨c0, hc0, hctx⟩ := b6 hg
        obtain ⟨g1, g2, g3⟩ := cancels_grow hg
        have g4 := e3 hg
        rw [hg] at e1
        simp only [if_true] at e1
        simp only [g1, List.contains_nil, Bool.or_false] at e2
        have hK : ∀ c, c ∈ K ↔ c ∈ x.kids := fun c => by rw [hK c, g1]; simp [g2]
        have hnr : s'.released = false := by
          rw [e5]
          cases hr : x.s.released with
          | true => simp [hrel hr] at hg
          | false => simpa using g3
        have hcn : s'.connCancelled = x.s.connCancelled := by rw [e4]; simp [g2]
        have hold : c0 < x.n ∧ ∀ r, r < x.s.next → x.ctxOf r ≠ c0 := by
          rcases hc0 with ⟨h, -⟩ | ⟨h, -⟩
          · have := h7 c0 (by simp [h, CgPc.holds]); exact ⟨this.1, this.2.2⟩
          · have := h8 c0 (by simp [h, CgPc.holds]); exact ⟨this.1, this.2.2⟩
        constructor
        · exact h1'
        · intro hr; simp [hnr] at hr
        · exact hKn
        · intro c hc; rw [b3]; exact h4 c ((hK c).1 hc)
        · intro r hr
          simp only [e1, hctx, b3] at hr ⊢
          split
          · exact hold.1
          · exact h5 r (by omega)
        · intro r r' hr hr' he
          simp only [e1, hctx] at hr hr' he
          by_cases q1 : r = x.s.next <;> by_cases q2 : r' = x.s.next
          · rw [q1, q2]
          · rw [if_pos q1, if_neg q2] at he; exact absurd he.symm (hold.2 r' (by omega))
          · rw [if_neg q1, if_pos q2] at he; exact absurd he (hold.2 r (by omega))
          · rw [if_neg q1, if_neg q2] at he; exact h6 r r' (by omega) (by omega) he
        · simp only [e1, hctx, b3]
          rcases hc0 with ⟨x1, x2, x3⟩ | ⟨x1, x2, x3⟩
          · simp [x2, CgPc.holds]
          · intro c hc
            rw [x3] at hc
            have := h7 c hc
            have h0 : c ≠ c0 := by rintro rfl; exact this.2.1 (by simp [x1, CgPc.holds])
            refine ⟨this.1, by simp [x2, CgPc.holds], fun r hr => ?_⟩
            split
            · exact h0.symm
            · exact this.2.2 r (by omega)
        · simp only [e1, hctx, b3]
          rcases hc0 with ⟨x1, x2, x3⟩ | ⟨x1, x2, x3⟩
          · intro c hc
            rw [x3] at hc
            have := h8 c hc
            have h0 : c ≠ c0 := by rintro rfl; exact this.2.1 (by simp [x1, CgPc.holds])
            refine ⟨this.1, by simp [x2, CgPc.holds], fun r hr => ?_⟩
            split
            · exact h0.symm
            · exact this.2.2 r (by omega)
          · simp [x2, CgPc.holds]
        · intro hc c
          simp only [] at hc
          rw [hcn] at hc
          simp only [hctx, e1]
          rw [hK, h9 hc]
          constructor
          · rintro (⟨r, r1, r2, r3⟩ | h)
            · exact .inl ⟨r, by omega, by rw [e2 r r1, r2], by rw [if_neg (by omega)]; exact r3⟩
            · by_cases hcc0 : c = c0
              · exact .inl ⟨x.s.next, by omega, g4, by rw [if_pos rfl]; exact hcc0.symm⟩
              · right
                rcases hc0 with ⟨x1, x2, x3⟩ | ⟨x1, x2, x3⟩ <;> simp_all [CgPc.holds]
          · rintro (⟨r, r1, r2, r3⟩ | h)
            · by_cases hr : r = x.s.next
              · right
                rw [if_pos hr] at r3
                rcases hc0 with ⟨x1, x2, x3⟩ | ⟨x1, x2, x3⟩ <;> simp [x1, CgPc.holds, r3]
              · rw [if_neg hr] at r3
                have r1' : r < x.s.next := by omega
                exact .inl ⟨r, r1', by rw [← e2 r r1']; exact r2, r3⟩
            · right
              rcases hc0 with ⟨x1, x2, x3⟩ | ⟨x1, x2, x3⟩
              · simp_all [CgPc.holds]
              · simp_all [CgPc.holds]
        · exact hcc

theorem XcInv.reach {acts : List XcAct} {x : XcSt} (h : xcRun acts = some x) : XcInv x :=
  runActs_inv (P := XcInv) (fun _ _ _ h hs => h.step hs) .init h

theorem liveStreams_mem {x : XcSt} (h : XcInv x) (r : Nat) :
    r ∈ liveStreams x.s ↔ r < x.s.next ∧ (x.s.str r).cancelled = false := by
  simp only [liveStreams, inTables, List.mem_filter, List.mem_range, decide_eq_true_eq, Bool.not_eq_true']
  refine ⟨fun ⟨⟨h1, _⟩, h2⟩ => ⟨h1, h2⟩, fun ⟨h1, h2⟩ => ⟨⟨h1, ?_⟩, h2⟩⟩
  cases hr : x.s.released with
  | true => simp [(h.dead hr).1 r h1] at h2
  | false => exact uncancelled_in_table h.a h1 hr h2

/-- **C133.** The contexts registered with the context of a connection are, each once, those of the streams in its tables that have not been
cancelled, and one for each of the two goroutines that is in the middle of `CreateOrGetStream`; none are once the connection's context is
cancelled. -/
theorem C133 {acts : List XcAct} {x : XcSt} (hrun : xcRun acts = some x) :
    x.kids.Nodup ∧ (x.s.connCancelled = true → x.kids = []) ∧
    (x.s.connCancelled = false → x.kids.Perm ((liveStreams x.s).map x.ctxOf ++ (x.rc.holds ++ x.wc.holds))) := by
  have h := XcInv.reach hrun
  refine ⟨h.nd, h.cc, fun hc => ?_⟩
  have hnd : ((liveStreams x.s).map x.ctxOf ++ (x.rc.holds ++ x.wc.holds)).Nodup := by
    refine List.nodup_append.2 ⟨?_, List.nodup_append.2 ⟨?_, ?_, ?_⟩, ?_⟩
    · refine List.pairwise_map.2 (List.Pairwise.imp_of_mem (R := (· ≠ ·)) ?_
        (((List.nodup_range (n := x.s.next)).filter _).filter _))
      intro r r' hr hr' hne he
      exact hne (h.inj r r' ((liveStreams_mem h r).1 hr).1 ((liveStreams_mem h r').1 hr').1 he)
    · cases x.rc <;> simp [CgPc.holds]
    · cases x.wc <;> simp [CgPc.holds]
    · intro c c1 c' c2 e; subst e; exact (h.hr c c1).2.1 c2
    · intro c c1 c' c2 e
      subst e
      obtain ⟨r, hr, rfl⟩ := List.mem_map.1 c1
      have hlt := ((liveStreams_mem h r).1 hr).1
      rcases List.mem_append.1 c2 with c2 | c2
      · exact (h.hr _ c2).2.2 r hlt rfl
      · exact (h.hw _ c2).2.2 r hlt rfl
  refine (List.perm_ext_iff_of_nodup h.nd hnd).2 fun c => ?_
  rw [h.mem hc c]
  simp only [List.mem_append, List.mem_map, liveStreams_mem h]
  exact ⟨fun hh => hh.imp (fun ⟨r, r1, r2, r3⟩ => ⟨r, ⟨r1, r2⟩, r3⟩) id, fun hh => hh.imp (fun ⟨r, ⟨r1, r2⟩, r3⟩ => ⟨r, r1, r2, r3⟩) id⟩

/-- **C133.** So there are never more of them than streams in the tables, plus two; and none is left once the streams are released. -/
theorem C133_bound {acts : List XcAct} {x : XcSt} (hrun : xcRun acts = some x) :
    x.kids.length ≤ (inTables x.s).length + x.rc.holds.length + x.wc.holds.length ∧
    x.kids.length ≤ (inTables x.s).length + 2 ∧ (x.s.released = true → x.kids = []) := by
  have h := XcInv.reach hrun
  obtain ⟨-, h1, h2⟩ := C133 hrun
  have hh : ∀ p : CgPc, p.holds.length ≤ 1 := fun p => by cases p <;> simp [CgPc.holds]
  have hl : (liveStreams x.s).length ≤ (inTables x.s).length := List.length_filter_le _ _
  have hb : x.kids.length ≤ (inTables x.s).length + x.rc.holds.length + x.wc.holds.length := by
    cases hc : x.s.connCancelled with
    | true => simp [h1 hc]
    | false =>
      have := (h2 hc).length_eq
      simp only [List.length_append, List.length_map] at this
      omega
  have a1 := hh x.rc
  have a2 := hh x.wc
  refine ⟨hb, by omega, fun hr => ?_⟩
  obtain ⟨d1, d2, d3⟩ := h.dead hr
  cases hc : x.s.connCancelled with
  | true => exact h1 hc
  | false =>
    have hlv : liveStreams x.s = [] := by
      refine List.eq_nil_iff_forall_not_mem.2 fun r hm => ?_
      obtain ⟨m1, m2⟩ := (liveStreams_mem h r).1 hm
      simp [d1 r m1] at m2
    have := h2 hc
    rw [hlv, d2, d3] at this
    exact this.eq_nil

/-- The additional steps restrict nothing: whatever the streams of a connection can do, they can do here, ... -/
theorem C133_all {acts : List SAct} {s : SSt} (hrun : sRun SSt.init acts = some s) :
    ∃ xacts x, xcRun xacts = some x ∧ x.s = s ∧ x.rc = .out ∧ x.wc = .out := by
  refine runActs_inv (P := fun s => ∃ xacts x, xcRun xacts = some x ∧ x.s = s ∧ x.rc = .out ∧ x.wc = .out) ?_
    ⟨[], .init, rfl, rfl, rfl, rfl⟩ hrun
  rintro s a s' ⟨xacts, x, hx, rfl, hr, hw⟩ hs
  have add : ∀ (more : List XcAct), (∃ y, runActs xcStep x more = some y ∧ y.s = s' ∧ y.rc = .out ∧ y.wc = .out) →
      ∃ xacts x, xcRun xacts = some x ∧ x.s = s' ∧ x.rc = .out ∧ x.wc = .out := by
    rintro more ⟨y, hy, h⟩
    exact ⟨xacts ++ more, y, by rw [xcRun, runActs_append, show runActs xcStep XcSt.init xacts = some x from hx]; exact hy, h⟩
  cases hk : a.stores with
  | none =>
    exact add [.act a] (by simp [runActs, xcStep, hs, XcSt.before, hk, hr, hw])
  | some k =>
    cases a with
    | recv f =>
      have hg : x.s.r = .idle ∧ x.s.released = false := by
        simp only [sStep] at hs
        split at hs
        · assumption
        · simp at hs
      cases ht : x.s.tbl k with
      | none =>
        exact add [.newR, .act (.recv f)] (by
          simp [runActs, xcStep, hg, hr, hw, hs, XcSt.derive, XcSt.before, XcSt.store, hk, ht, SAct.byReader])
      | some r =>
        exact add [.newR, .act (.recv f), .dropR] (by
          simp [runActs, xcStep, hg, hr, hw, hs, XcSt.derive, XcSt.before, XcSt.store, hk, ht, SAct.byReader])
    | wstart id fl cr =>
      have hg : x.s.w = .idle ∧ x.s.released = false := by
        simp only [sStep] at hs
        split at hs
        · assumption
        · simp at hs
      cases ht : x.s.tbl k with
      | none =>
        exact add [.newW, .act (.wstart id fl cr)] (by
          simp [runActs, xcStep, hg, hr, hw, hs, XcSt.derive, XcSt.before, XcSt.store, hk, ht, SAct.byReader])
      | some r =>
        exact add [.newW, .act (.wstart id fl cr), .dropW] (by
          simp [runActs, xcStep, hg, hr, hw, hs, XcSt.derive, XcSt.before, XcSt.store, hk, ht, SAct.byReader])
    | rstep | consume | rctx | rdone | wstep | cancelConn | release => simp [SAct.stores] at hk

/-- ... and nothing else. -/
theorem C133_only {acts : List XcAct} {x : XcSt} (hrun : xcRun acts = some x) : ∃ sacts, sRun SSt.init sacts = some x.s := by
  refine runActs_inv (P := fun x : XcSt => ∃ sacts, sRun SSt.init sacts = some x.s) ?_ ⟨[], rfl⟩ hrun
  rintro x a x' ⟨sacts, h⟩ hs
  cases a with
  | act a =>
    simp only [xcStep] at hs
    split at hs
    · rename_i s' hss
      cases hb : x.before a with
      | none => simp [hb] at hs
      | some y =>
        simp only [hb, Option.map_some, Option.some.injEq] at hs
        subst hs
        exact ⟨sacts ++ [a], by rw [sRun, runActs_append, show runActs sStep SSt.init sacts = some x.s from h]; simp [runActs, hss]⟩
    · simp at hs
  | newR | newW | dropR | dropW =>
    simp only [xcStep, XcSt.derive] at hs
    split at hs <;> simp at hs
    subst hs
    exact ⟨sacts, h⟩

/-! ## Examples -/

/-- A frame of a new stream arrives while the answer to another one is written, which its handler has made already: four contexts are made and
two of them are thrown away; then the second stream is done and the connection still has the context of the first. -/
def exCtx : List XcAct :=
  [.newR, .act (.recv ⟨1, StreamFlag, 5, []⟩), .act .rstep, .act .rstep,                                    -- stream 1, open
   .newR, .newW, .act (.recv ⟨3, 0, 5, []⟩), .act .rstep, .act .rstep, .act .rstep, .act .rstep, .act .rstep, -- stream 3, the peer is done
   .act (.wstart 3 0 true)]

example : (xcRun exCtx).map (fun x => (x.kids, inTables x.s, x.wc)) = some ([2, 1, 0], [0, 1], .loaded 2) := by decide +kernel

example : (xcRun (exCtx ++ [.dropW, .act .wstep, .act .wstep, .act .wstep, .act .wstep, .act .wstep, .act .wstep])).map
    (fun x => (x.kids, inTables x.s, liveStreams x.s)) = some ([0], [0], [0]) := by decide +kernel

/-- Both sides make stream 7 at the same time; the reader is first. -/
example : (xcRun [.newW, .newR, .act (.recv ⟨7, StreamFlag, 5, []⟩), .act (.wstart 7 StreamFlag true)]).map
    (fun x => (x.kids, inTables x.s, x.rc, x.wc, x.ctxOf 0)) = some ([1, 0], [0], .out, .loaded 0, 1) := by decide +kernel

/-- A reset stream stays in the table until the local side is done (stream.go:198-205), but its context does not stay. -/
example : (xcRun [.newR, .act (.recv ⟨1, StreamFlag, 5, []⟩), .act .rstep, .act .rstep, .act (.recv ⟨1, StreamRstFlag, 0, []⟩), .act .rstep,
    .act .rstep, .act .rstep]).map (fun x => (x.kids, inTables x.s)) = some ([], [0]) := by decide +kernel

/-- Release. -/
example : (xcRun [.newR, .act (.recv ⟨1, StreamFlag, 5, []⟩), .act .rstep, .act .rstep, .act .release]).map
    (fun x => (x.kids, x.s.released)) = some ([], true) := by decide +kernel

end Qrpc
