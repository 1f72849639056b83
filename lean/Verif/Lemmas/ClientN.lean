import Verif.Lemmas.ClientA
import Verif.Lemmas.ClientC
import Verif.Lemmas.ClientD
import Verif.Lemmas.ClientL
import Verif.Lemmas.ClientR
/-! Client: no id collision before the counter wraps; all invariants together. -/
namespace Qrpc

theorem registerAll_no_dup (fs : List CFrame) (respes : List (UInt64 × Nat)) (b : List Nat)
    (h1 : ∀ t ∈ b, (cframeOf fs t).resp = true → ∀ p ∈ respes, p.1 ≠ (cframeOf fs t).rid)
    (h2 : b.Pairwise fun t u => (cframeOf fs t).resp = true → (cframeOf fs u).resp = true →
      (cframeOf fs t).rid ≠ (cframeOf fs u).rid) : (registerAll fs respes b).2 = [] := by
  induction b generalizing respes with
  | nil => rfl
  | cons t ts ih =>
    rw [List.pairwise_cons] at h2
    simp only [registerAll]
    split
    · next hr =>
      split
      · next hany =>
        simp only [List.any_eq_true, beq_iff_eq] at hany
        obtain ⟨p, hp, he⟩ := hany
        exact absurd he (h1 t (by simp) hr p hp)
      · apply ih _ _ h2.2
        intro u hu hru p hp
        simp only [List.mem_append, List.mem_singleton] at hp
        rcases hp with hp | rfl
        · exact h1 u (by simp [hu]) hru p hp
        · exact h2.1 u hu hr hru
    · exact ih _ (fun u hu => h1 u (by simp [hu])) h2.2

/-- Two different tickets with response objects have different ids. -/
theorem CInvI.inj {s : CSt} (h : CInvI s) (hg : s.ridGen < 2 ^ 63) {t u : Nat} (ht : t < s.frames.length) (hu : u < s.frames.length)
    (hrt : (cframeOf s.frames t).resp = true) (hru : (cframeOf s.frames u).resp = true)
    (he : (cframeOf s.frames t).rid = (cframeOf s.frames u).rid) : t = u := by
  have hp := List.pairwise_iff_getElem.1 (h.framesInj hg)
  have e1 : cframeOf s.frames t = s.frames[t] := by simp [cframeOf, List.getD, List.getElem?_eq_getElem ht]
  have e2 : cframeOf s.frames u = s.frames[u] := by simp [cframeOf, List.getD, List.getElem?_eq_getElem hu]
  rw [e1, e2] at he
  rw [e1] at hrt
  rw [e2] at hru
  rcases Nat.lt_trichotomy t u with hlt | rfl | hlt
  · exact absurd he (hp t u ht hu hlt hrt hru)
  · rfl
  · exact absurd he.symm (hp u t hu ht hlt hru hrt)

theorem no_dup_reach {s : CSt} (hA : CInvA s) (hC : CInvC s) (hI : CInvI s) (hw : s.wr = .register) (hg : s.ridGen < 2 ^ 63) :
    (registerAll s.frames s.respes s.batch).2 = [] := by
  have hlt : ∀ t ∈ s.batch, t < s.frames.length := fun t ht => Nat.lt_of_lt_of_le (hA.batchLt t ht) hA.deq
  apply registerAll_no_dup
  · intro t ht hr p hp he
    obtain ⟨m1, m2, -⟩ := hC.mem p hp
    have hl := hC.regdLt _ m1
    have := hI.inj hg (hlt t ht) (Nat.lt_of_lt_of_le hl.1 hA.deq) hr hl.2 (by rw [← m2, he])
    exact hC.fresh (by simp [hw, CWr.preReg]) t ht (this ▸ m1)
  · refine List.Pairwise.imp_of_mem ?_ hA.batchNodup
    intro t u ht hu hne hrt hru he
    exact hne (hI.inj hg (hlt t ht) (hlt u hu) hrt hru he)

/-- N: nobody is told `ErrNoNewUUID` before the counter wraps. -/
structure CInvN (s : CSt) : Prop where
  slot : s.ridGen < 2 ^ 63 → ∀ t, s.slot t ≠ some .noNewUUID
  send : s.ridGen < 2 ^ 63 → ∀ t, (t, CRes.noNewUUID) ∉ s.toSend
  rets : s.ridGen < 2 ^ 63 → ∀ t, (t, CRes.noNewUUID) ∉ s.rets

theorem CInvN.init (d : Bool) : CInvN (CSt.init d) := by
  constructor <;> simp [CSt.init]

theorem toC_ne (r : SRes) : r.toC ≠ .noNewUUID := by
  cases r with
  | fail e => cases e <;> simp [SRes.toC]
  | _ => simp [SRes.toC]

set_option maxHeartbeats 4000000 in
theorem CInvN.step {c s a s'} (hA : CInvA s) (hC : CInvC s) (hI : CInvI s) (h : CInvN s) (hs : cStep c s a = some s') : CInvN s' := by
  have hd := no_dup_reach hA hC hI
  obtain ⟨h1, h2, h3⟩ := h
  clear hA hC hI
  have ht := toC_ne
  cstep_cases hs a
  all_goals constructor
  all_goals try simp only []
  all_goals try first
    | assumption
    | grind [setAt]
    | (intro hg t hm
       have := (List.of_mem_zip hm).2
       simp only [List.mem_map] at this
       obtain ⟨r, -, hr⟩ := this
       exact ht r hr)

/-- Everything known about reachable states of a client connection. -/
structure CInv (cf : CConf) (st : CSt) : Prop where
  a : CInvA st
  b : CInvB cf st
  c : CInvC st
  d : CInvD st
  l : CInvL cf st
  r : CInvR st
  i : CInvI st
  s : CInvS cf st
  n : CInvN st

theorem CInv.step {c s a s'} (h : CInv c s) (hs : cStep c s a = some s') : CInv c s' :=
  ⟨h.a.step h.l hs, h.b.step h.a hs, h.c.step h.l h.a hs, h.d.step h.a hs, h.l.step hs, h.r.step h.a hs, h.i.step hs,
   h.s.step hs, h.n.step h.a h.c h.i hs⟩

theorem CInv.init (c : CConf) (d : Bool) : CInv c (CSt.init d) :=
  ⟨.init d, .init c d, .init d, .init d, .init c d, .init d, .init d, .init c d, .init d⟩

theorem CInv.reach {c d acts s} (h : cRun c d acts = some s) : CInv c s :=
  runActs_inv (P := CInv c) (fun _ _ _ hp hs => hp.step hs) (CInv.init c d) h

end Qrpc
