import Verif.Lemmas.ServeRespC
import Verif.Model.ServerCall
/-! Invariants of a server connection that sends requests, with its client. -/
namespace Qrpc

theorem serverRid_inj {g g' : Nat} (h : g < 2 ^ 63) (h' : g' < 2 ^ 63) (he : serverRid g = serverRid g') : g = g' := by
  unfold serverRid at he
  have := congrArg UInt64.toNat he
  simp only [UInt64.toNat_ofNat'] at this
  omega

theorem serverRid_even (g : Nat) : serverRid g % 2 = 0 := by
  unfold serverRid
  apply UInt64.toNat_inj.1
  simp only [UInt64.toNat_mod, UInt64.toNat_ofNat']
  simp

def VRd.looking : VRd → Nat
  | .lookup _ => 1
  | _ => 0

/-- The frame `f` is the first answer to request `t` among those the server has read, and was written after `t` was read. -/
def UFirst (up : List (InFrame × Nat)) (got : List Nat) (read t : Nat) (f : InFrame) : Prop :=
  ∃ pre n post, up = pre ++ (f, n) :: post ∧ pre.length < read ∧ f.push = false ∧ f.rid = serverRid (t + 1) ∧ t ∈ got.take n ∧
    ∀ p ∈ pre, p.1.push = false → p.1.rid ≠ f.rid

/-- The number of frames the server's reader is done with, or is delivering. -/
def USt.done (u : USt) : Nat := u.read - u.v.rd.looking

structure UInv (u : USt) : Prop where
  gotRegd : ∀ t ∈ u.got, t ∈ u.v.regd
  sent : ∀ f n, (f, n) ∈ u.up → n ≤ u.got.length ∧ (f.push = true ∨ f.rid % 2 ≠ 0 ∨ ∃ t ∈ u.got.take n, f.rid = serverRid (t + 1))
  readLe : u.read ≤ u.up.length
  look : ∀ f, u.v.rd = .lookup f → ∃ k n, u.read = k + 1 ∧ u.up[k]? = some (f, n)
  hand : ∀ t f, u.v.rd = .deliver t f → UFirst u.up u.got u.done t f
  ans : ∀ t f, REv.frame f ∈ u.v.revs t → f.rst = false ∧ UFirst u.up u.got u.done t f
  clos : u.v.closed = false → ∀ t, REv.closed ∈ u.v.revs t → ∃ f, f.rst = true ∧ UFirst u.up u.got u.done t f
  lost : u.v.closed = false → ∀ p ∈ u.up.take u.done, p.1.push = false → ∀ t ∈ u.v.regd, p.1.rid = serverRid (t + 1) →
    u.v.revs t ≠ [] ∨ ∃ f, u.v.rd = .deliver t f
  passed : ∀ f ∈ u.v.passed, u.v.closed = true ∨
    ∃ pre n post, u.up = pre ++ (f, n) :: post ∧ ∃ q ∈ pre, q.1.push = false ∧ q.1.rid = f.rid

theorem UInv.init : UInv USt.init := by
  constructor <;> simp [USt.init, VSt.init]

theorem UFirst.grow {up up' : List (InFrame × Nat)} {got got' : List Nat} {r r' t : Nat} {f : InFrame} (hu : up <+: up')
    (hg : got <+: got') (hr : r ≤ r') (h : UFirst up got r t f) : UFirst up' got' r' t f := by
  obtain ⟨pre, n, post, h1, h2, h3, h4, h5, h6⟩ := h
  obtain ⟨x, rfl⟩ := hu
  obtain ⟨y, rfl⟩ := hg
  refine ⟨pre, n, post ++ x, by simp [h1], by omega, h3, h4, ?_, h6⟩
  rw [List.take_append]
  exact List.mem_append_left _ h5

/-- The frame the reader looks up, if it finds a response object: it is the first answer to that request. -/
theorem UInv.found {u : USt} (hV : VInv u.v) (h : UInv u) (hr : u.v.ridGen < 2 ^ 63) {f : InFrame} (hl : u.v.rd = .lookup f)
    {p : UInt64 × Nat} (hp : u.v.respes.find? (fun p => p.1 == f.rid) = some p) : UFirst u.up u.got u.read p.2 f := by
  have hm := List.mem_of_find?_eq_some hp
  have hid : p.1 = f.rid := by simpa using List.find?_some hp
  obtain ⟨hreg, hpid, hrev⟩ := hV.c.mem p hm
  have hlt : ∀ t ∈ u.v.regd, t < u.v.ridGen := fun t ht => hV.a.takenLt t (hV.a.regd t ht)
  have hrid : f.rid = serverRid (p.2 + 1) := by rw [← hid, hpid, hV.a.rid _ (hlt _ hreg)]
  obtain ⟨k, n, hk, hkf⟩ := h.look f hl
  obtain ⟨hpush, heven⟩ := hV.c.look f hl
  have hc : u.v.closed = false := by
    cases hcl : u.v.closed with
    | false => rfl
    | true => rw [hV.c.closed hcl] at hm; cases hm
  have hmem : (f, n) ∈ u.up := List.mem_of_getElem? hkf
  have hklt : k < u.up.length := (List.getElem?_eq_some_iff.1 hkf).1
  refine ⟨u.up.take k, n, u.up.drop (k + 1), ?_, ?_, hpush, hrid, ?_, ?_⟩
  · rw [List.getElem?_eq_getElem hklt, Option.some.injEq] at hkf
    rw [← hkf, ← List.drop_eq_getElem_cons hklt, List.take_append_drop]
  · simp; omega
  · rcases (h.sent f n hmem).2 with h1 | h1 | ⟨t, h1, h2⟩
    · rw [hpush] at h1; cases h1
    · exact absurd heven h1
    · have := serverRid_inj (g := t + 1) (g' := p.2 + 1) (by have := hlt t (h.gotRegd t (List.mem_of_mem_take h1)); omega)
        (by have := hlt _ hreg; omega) (by rw [← h2, hrid])
      have : t = p.2 := by omega
      exact this ▸ h1
  · intro q hq hqp hqr
    have hd : u.done = k := by simp [USt.done, hl, VRd.looking, hk]
    rcases h.lost hc q (by rw [hd]; exact hq) hqp p.2 hreg (by rw [hqr, hrid]) with h1 | ⟨f', h1⟩
    · exact h1 hrev
    · rw [hl] at h1; cases h1

theorem registerAll_regd {s : VSt} (ts : List Nat) : s.regd ⊆ s.regd ++ ts.filter fun t => !(registerAll s.reqs s.respes ts).2.contains t :=
  List.subset_append_left _ _

set_option maxHeartbeats 1000000 in
theorem UInv.srv {u : USt} {a : VAct} {s' : VSt} (hV : VInv u.v) (h : UInv u) (hr : u.v.ridGen < 2 ^ 63) (ha : a.isFrame = false)
    (hs : vStep u.v a = some s') : UInv { u with v := s' } := by
  have hfound := fun f hl p hp => h.found hV hr (f := f) hl (p := p) hp
  have hlt : ∀ t ∈ u.v.regd, t < u.v.ridGen := fun t ht => hV.a.takenLt t (hV.a.regd t ht)
  have hA := hV.a
  have hC := hV.c
  have hnot : ∀ f, u.v.rd = .lookup f → u.v.respes.find? (fun p => p.1 == f.rid) = none → u.v.closed = false →
      ∀ t ∈ u.v.regd, f.rid = serverRid (t + 1) → u.v.revs t ≠ [] := by
    intro f hl hn hc t ht hid
    rcases hC.regd t ht with h1 | h1 | ⟨f', h1⟩ | ⟨i, ts, h1, -⟩
    · rw [List.find?_eq_none] at hn
      have := hn _ h1
      rw [hA.rid t (hlt t ht), hid] at this
      simp at this
    · exact h1
    · rw [hl] at h1; cases h1
    · rw [hC.idle hc i] at h1; cases h1
  clear hV
  obtain ⟨g1, g2, g3, g4, g5, g6, g7, g8, g9⟩ := h
  obtain ⟨s, got, up, read⟩ := u
  simp only [USt.done] at *
  vstep_cases hs a
  all_goals try (simp only [VAct.isFrame, Bool.true_eq_false] at ha)
  all_goals constructor
  all_goals try simp only [USt.done]
  all_goals try first
    | assumption
    | (intro t ht; exact List.mem_append_left _ (g1 t ht))
    | grind [setAt, VRd.looking]
  · rename_i ts hts hcl
    intro hc p hp hpp t ht hid
    rcases List.mem_append.1 ht with ht | ht
    · exact g8 hc p hp hpp t ht hid
    · exfalso
      have ht' := hts.2 t (List.mem_filter.1 ht).1
      rcases (g2 p.1 p.2 (List.mem_of_mem_take hp)).2 with k | k | ⟨w, k1, k2⟩
      · rw [hpp] at k; cases k
      · exact k (hid ▸ serverRid_even _)
      · have k3 := g1 w (List.mem_of_mem_take k1)
        have := hlt w k3
        have h0 := hA.len
        have := serverRid_inj (g := w + 1) (g' := t + 1) (by omega) (by omega) (by rw [← k2, hid])
        have : w = t := by omega
        exact ht'.2 (hA.regd t (this ▸ k3))
  · rename_i f hl _ p hp
    intro t f' hf
    exact ⟨(g6 t f' hf).1, (g6 t f' hf).2.grow (List.prefix_refl _) (List.prefix_refl _) (by simp [VRd.looking])⟩
  · rename_i f hl _ p hp
    intro hc t hf
    obtain ⟨f', k1, k2⟩ := g7 hc t hf
    exact ⟨f', k1, k2.grow (List.prefix_refl _) (List.prefix_refl _) (by simp [VRd.looking])⟩
  · rename_i f hl _ p hp
    intro hc q hq hqp t ht hid
    obtain ⟨k, n, k1, k2⟩ := g4 f hl
    have hm := List.mem_of_find?_eq_some hp
    have hpid : p.1 = f.rid := by simpa using List.find?_some hp
    obtain ⟨hreg, hpr, -⟩ := hC.mem p hm
    simp only [VRd.looking, k1, Nat.sub_zero] at hq
    rw [List.take_succ, k2] at hq
    rcases List.mem_append.1 hq with hq | hq
    · rcases g8 hc q (by simpa [hl, VRd.looking, k1] using hq) hqp t ht hid with h1 | ⟨f', h1⟩
      · exact .inl h1
      · rw [hl] at h1; cases h1
    · simp only [Option.toList_some, List.mem_singleton] at hq
      subst hq
      have h0 := hlt t ht
      have h1 := hlt _ hreg
      have := serverRid_inj (g := p.2 + 1) (g' := t + 1) (by omega) (by omega) (by rw [← hid, ← hA.rid _ h1, ← hpr, hpid])
      have : p.2 = t := by omega
      exact .inr ⟨f, by rw [this]⟩
  · rename_i f hl _ hp
    intro t f' hf
    exact ⟨(g6 t f' hf).1, (g6 t f' hf).2.grow (List.prefix_refl _) (List.prefix_refl _) (by simp [VRd.looking])⟩
  · rename_i f hl _ hp
    intro hc t hf
    obtain ⟨f', k1, k2⟩ := g7 hc t hf
    exact ⟨f', k1, k2.grow (List.prefix_refl _) (List.prefix_refl _) (by simp [VRd.looking])⟩
  · rename_i f hl _ hp
    intro hc q hq hqp t ht hid
    obtain ⟨k, n, k1, k2⟩ := g4 f hl
    simp only [VRd.looking, k1, Nat.sub_zero] at hq
    rw [List.take_succ, k2] at hq
    left
    rcases List.mem_append.1 hq with hq | hq
    · rcases g8 hc q (by simpa [hl, VRd.looking, k1] using hq) hqp t ht hid with h1 | ⟨f', h1⟩
      · exact h1
      · rw [hl] at h1; cases h1
    · simp only [Option.toList_some, List.mem_singleton] at hq
      subst hq
      exact hnot f hl hp hc t ht hid
  · rename_i f hl _ hp
    intro f' hf
    rcases List.mem_append.1 hf with hf | hf
    · exact g9 f' hf
    · rw [List.mem_singleton.1 hf]
      cases hc : s.closed with
      | true => exact .inl rfl
      | false =>
        right
        obtain ⟨k, n, k1, k2⟩ := g4 f hl
        obtain ⟨hpush, heven⟩ := hC.look f hl
        have hklt : k < up.length := (List.getElem?_eq_some_iff.1 k2).1
        have hm := List.mem_of_getElem? k2
        rcases (g2 f n hm).2 with h1 | h1 | ⟨t, h1, h2⟩
        · rw [hpush] at h1; cases h1
        · exact absurd heven h1
        · have hne := hnot f hl hp hc t (g1 t (List.mem_of_mem_take h1)) h2
          refine ⟨up.take k, n, up.drop (k + 1), ?_, ?_⟩
          · rw [List.getElem?_eq_getElem hklt, Option.some.injEq] at k2
            rw [← k2, ← List.drop_eq_getElem_cons hklt, List.take_append_drop]
          · have key : ∃ f', UFirst up got k t f' := by
              have hd : read - s.rd.looking = k := by simp [hl, VRd.looking, k1]
              obtain ⟨x, hx⟩ := List.exists_mem_of_ne_nil _ hne
              cases x with
              | frame f' => exact ⟨f', hd ▸ (g6 t f' hx).2⟩
              | closed => obtain ⟨f', -, h3⟩ := g7 hc t hx; exact ⟨f', hd ▸ h3⟩
            obtain ⟨f', pre, m, post, e1, e2, e3, e4, -⟩ := key
            refine ⟨(f', m), ?_, e3, by rw [e4, h2]⟩
            rw [e1, List.take_append]
            apply List.mem_append_right
            obtain ⟨j, hj⟩ : ∃ j, k - pre.length = j + 1 := ⟨k - pre.length - 1, by omega⟩
            simp [hj]
  · rename_i w f hl hrst
    intro hc q hq hqp t ht hid
    left
    rcases g8 hc q (by simpa [hl, VRd.looking] using hq) hqp t ht hid with h1 | ⟨f', h1⟩
    · simp only [setAt]; split
      · simp
      · exact h1
    · rw [hl] at h1; cases h1; simp [setAt]
  · rename_i w f hl hrst
    intro hc q hq hqp t ht hid
    left
    rcases g8 hc q (by simpa [hl, VRd.looking] using hq) hqp t ht hid with h1 | ⟨f', h1⟩
    · simp only [setAt]; split
      · simp
      · exact h1
    · rw [hl] at h1; cases h1; simp [setAt]
  · rename_i i _ w ws hw
    intro hc
    exact absurd (hC.idle hc i) (by rw [hw]; simp)
  · rename_i i _ w ws hw
    intro hc
    exact absurd (hC.idle hc i) (by rw [hw]; simp)

theorem UInv.recv {u : USt} {p : InFrame × Nat} {s' : VSt} (h : UInv u) (hp : u.up[u.read]? = some p)
    (hs : vStep u.v (.frame p.1) = some s') : UInv { u with v := s', read := u.read + 1 } := by
  obtain ⟨g1, g2, g3, g4, g5, g6, g7, g8, g9⟩ := h
  have hlt : u.read < u.up.length := (List.getElem?_eq_some_iff.1 hp).1
  obtain ⟨s, got, up, read⟩ := u
  simp only [USt.done] at *
  simp only [vStep] at hs
  split at hs
  · next hrd =>
    have hl : s.rd.looking = 0 := by rw [hrd]; rfl
    simp only [hl, Nat.sub_zero] at g5 g6 g7 g8
    split at hs
    · next hf =>
      simp only [Option.some.injEq] at hs
      subst hs
      constructor <;> simp only [USt.done, VRd.looking, Nat.add_sub_cancel]
      · exact g1
      · exact g2
      · omega
      · intro f hf'
        simp only [VRd.lookup.injEq] at hf'
        exact ⟨read, p.2, rfl, by rw [hp, ← hf']⟩
      · intro t f hd; cases hd
      · exact g6
      · exact g7
      · intro hc q hq hqp t ht hid
        rcases g8 hc q hq hqp t ht hid with h1 | ⟨f, h1⟩
        · exact .inl h1
        · rw [hrd] at h1; cases h1
      · exact g9
    · next hf =>
      simp only [Option.some.injEq] at hs
      subst hs
      constructor <;> simp only [USt.done, hl, Nat.sub_zero]
      · exact g1
      · exact g2
      · omega
      · intro f hf'; rw [hrd] at hf'; cases hf'
      · intro t f hd; rw [hrd] at hd; cases hd
      · exact fun t f hf' => ⟨(g6 t f hf').1, (g6 t f hf').2.grow (List.prefix_refl _) (List.prefix_refl _) (by omega)⟩
      · intro hc t ht
        obtain ⟨f', k1, k2⟩ := g7 hc t ht
        exact ⟨f', k1, k2.grow (List.prefix_refl _) (List.prefix_refl _) (by omega)⟩
      · intro hc q hq hqp t ht hid
        rw [List.take_succ, hp] at hq
        rcases List.mem_append.1 hq with hq | hq
        · exact g8 hc q hq hqp t ht hid
        · simp only [Option.toList_some, List.mem_singleton] at hq
          subst hq
          exact absurd ⟨hqp, hid ▸ serverRid_even _⟩ hf
      · exact g9
  · cases hs

theorem ridGen_grow {s s' : VSt} {a : VAct} (hs : vStep s a = some s') : s.ridGen ≤ s'.ridGen := by
  vstep_cases hs a
  all_goals simp

structure UAll (u : USt) : Prop where
  v : VInv u.v
  i : u.v.ridGen < 2 ^ 63 → UInv u

theorem UAll.step {u u' : USt} {a : UAct} (h : UAll u) (hs : uStep u a = some u') : UAll u' := by
  cases a with
  | srv a =>
    simp only [uStep] at hs
    split at hs
    · cases hs
    · next ha =>
      obtain ⟨s, k, rfl⟩ := Option.map_eq_some_iff.1 hs
      refine ⟨⟨h.v.a.step k, h.v.c.step h.v.a k⟩, fun hr => ?_⟩
      have hr' := Nat.lt_of_le_of_lt (ridGen_grow k) hr
      exact (h.i hr').srv h.v hr' (by simpa using ha) k
  | cRead t =>
    simp only [uStep] at hs
    split at hs <;> cases hs
    next ht =>
    refine ⟨h.v, fun hr => ?_⟩
    obtain ⟨g1, g2, g3, g4, g5, g6, g7, g8, g9⟩ := h.i hr
    have hpre : u.got <+: u.got ++ [t] := List.prefix_append _ _
    refine ⟨?_, ?_, g3, g4, ?_, ?_, ?_, g8, g9⟩
    · intro w hw
      rcases List.mem_append.1 hw with hw | hw
      · exact g1 w hw
      · rw [List.mem_singleton.1 hw]; exact ht.1
    · intro f n hf
      obtain ⟨k1, k2⟩ := g2 f n hf
      refine ⟨by simp; omega, ?_⟩
      rcases k2 with k | k | ⟨w, k3, k4⟩
      · exact .inl k
      · exact .inr (.inl k)
      · refine .inr (.inr ⟨w, ?_, k4⟩)
        rw [List.take_append]
        exact List.mem_append_left _ k3
    · exact fun w f hd => (g5 w f hd).grow (List.prefix_refl _) hpre (Nat.le_refl _)
    · exact fun w f hd => ⟨(g6 w f hd).1, (g6 w f hd).2.grow (List.prefix_refl _) hpre (Nat.le_refl _)⟩
    · intro hc w hd
      obtain ⟨f, k1, k2⟩ := g7 hc w hd
      exact ⟨f, k1, k2.grow (List.prefix_refl _) hpre (Nat.le_refl _)⟩
  | cSend f =>
    simp only [uStep] at hs
    split at hs <;> cases hs
    next hf =>
    refine ⟨h.v, fun hr => ?_⟩
    obtain ⟨g1, g2, g3, g4, g5, g6, g7, g8, g9⟩ := h.i hr
    have hpre : u.up <+: u.up ++ [(f, u.got.length)] := List.prefix_append _ _
    refine ⟨g1, ?_, by simp; omega, ?_, ?_, ?_, ?_, ?_, ?_⟩
    · intro f' n hf'
      rcases List.mem_append.1 hf' with hf' | hf'
      · exact g2 f' n hf'
      · simp only [List.mem_singleton, Prod.mk.injEq] at hf'
        obtain ⟨rfl, rfl⟩ := hf'
        refine ⟨Nat.le_refl _, ?_⟩
        simp only [uAnswers, Bool.or_eq_true, List.any_eq_true, bne_iff_ne, ne_eq, beq_iff_eq] at hf
        rcases hf with (hf | hf) | ⟨t, hf, hid⟩
        · exact .inl hf
        · exact .inr (.inl hf)
        · refine .inr (.inr ⟨t, by simpa using hf, ?_⟩)
          rw [← hid, h.v.a.rid t (h.v.a.takenLt t (h.v.a.regd t (g1 t hf)))]
    · intro f' hl
      obtain ⟨k, n, k1, k2⟩ := g4 f' hl
      refine ⟨k, n, k1, ?_⟩
      rw [List.getElem?_append_left (List.getElem?_eq_some_iff.1 k2).1]; exact k2
    · exact fun w f' hd => (g5 w f' hd).grow hpre (List.prefix_refl _) (Nat.le_refl _)
    · exact fun w f' hd => ⟨(g6 w f' hd).1, (g6 w f' hd).2.grow hpre (List.prefix_refl _) (Nat.le_refl _)⟩
    · intro hc w hd
      obtain ⟨f', k1, k2⟩ := g7 hc w hd
      exact ⟨f', k1, k2.grow hpre (List.prefix_refl _) (Nat.le_refl _)⟩
    · intro hc q hq
      have hle : u.done ≤ u.up.length := by unfold USt.done; omega
      have hd : (USt.mk u.v u.got (u.up ++ [(f, u.got.length)]) u.read).done = u.done := rfl
      simp only [hd] at hq
      rw [List.take_append_of_le_length hle] at hq
      exact g8 hc q hq
    · intro f' hf'
      rcases g9 f' hf' with k | ⟨pre, n, post, k1, k2⟩
      · exact .inl k
      · exact .inr ⟨pre, n, post ++ [(f, u.got.length)], by simp [k1], k2⟩
  | recv =>
    simp only [uStep] at hs
    split at hs
    · next p hp =>
      obtain ⟨s, k, rfl⟩ := Option.map_eq_some_iff.1 hs
      refine ⟨⟨h.v.a.step k, h.v.c.step h.v.a k⟩, fun hr => ?_⟩
      exact (h.i (Nat.lt_of_le_of_lt (ridGen_grow k) hr)).recv hp k
    · cases hs

theorem UAll.reach {acts : List UAct} {u : USt} (h : uRun acts = some u) : UAll u :=
  runActs_inv (P := UAll) (fun _ _ _ hi hs => hi.step hs) ⟨⟨.init, .init⟩, fun _ => .init⟩ h

end Qrpc
