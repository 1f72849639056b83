import Verif.Lemmas.ClientC
import Verif.Model.ServeResp
/-! Invariants of the response table of a server connection. -/
namespace Qrpc

macro "vstep_cases" hs:ident a:ident : tactic => `(tactic|
  (cases $a:ident <;>
   simp only [vStep] at $hs:ident <;>
   (repeat' (split at $hs:ident)) <;>
   (try simp only [Option.some.injEq, reduceCtorEq] at $hs:ident) <;>
   (try contradiction) <;>
   (try subst $hs:ident)))

theorem nodup_snd_of_fst {g : Nat → UInt64} : ∀ {l : List (UInt64 × Nat)}, (l.map Prod.fst).Nodup → (∀ p ∈ l, p.1 = g p.2) → (l.map Prod.snd).Nodup
  | [], _, _ => by simp
  | p :: l, h, hg => by
    simp only [List.map_cons, List.nodup_cons, List.mem_map, not_exists, not_and] at h ⊢
    refine ⟨fun q hq he => h.1 q hq ?_, nodup_snd_of_fst h.2 fun q hq => hg q (by simp [hq])⟩
    rw [hg q (by simp [hq]), hg p (by simp), he]

/-- Requests and batches. -/
structure VInvA (s : VSt) : Prop where
  resp : ∀ f ∈ s.reqs, f.resp = true
  len : s.reqs.length = s.ridGen
  rid : ∀ t, t < s.ridGen → (cframeOf s.reqs t).rid = serverRid (t + 1)
  takenLt : ∀ t ∈ s.taken, t < s.ridGen
  regd : ∀ t ∈ s.regd, t ∈ s.taken
  refused : ∀ t ∈ s.refused, t ∈ s.taken ∧ t ∉ s.regd
  taken : ∀ t ∈ s.taken, t ∈ s.regd ∨ t ∈ s.refused

theorem VInvA.init : VInvA VSt.init := by
  constructor <;> simp [VSt.init]

theorem cframeOf_last (fs : List CFrame) (f : CFrame) : cframeOf (fs ++ [f]) fs.length = f := by simp [cframeOf, List.getD]

theorem VInvA.step {s a s'} (h : VInvA s) (hs : vStep s a = some s') : VInvA s' := by
  obtain ⟨h1, h2, h3, h4, h5, h6, h7⟩ := h
  have hsub := fun ts => (registerAll_sublist s.reqs s.respes ts).subset
  vstep_cases hs a
  all_goals constructor
  all_goals try simp only []
  all_goals try first
    | assumption
    | grind
  · intro t ht
    by_cases hl : t < s.ridGen
    · rw [cframeOf_append _ (by omega)]; exact h3 t hl
    · have : t = s.reqs.length := by omega
      subst this
      rw [cframeOf_last]; simp [h2]

/-- The table. -/
structure VInvC (s : VSt) : Prop where
  fstNodup : (s.respes.map Prod.fst).Nodup
  mem : ∀ p ∈ s.respes, p.2 ∈ s.regd ∧ p.1 = (cframeOf s.reqs p.2).rid ∧ s.revs p.2 = []
  closed : s.closed = true → s.respes = []
  regd : ∀ t ∈ s.regd, ((cframeOf s.reqs t).rid, t) ∈ s.respes ∨ s.revs t ≠ [] ∨ (∃ f, s.rd = .deliver t f) ∨
    ∃ i ts, s.cl i = .closing ts ∧ t ∈ ts
  len : ∀ t, (s.revs t).length ≤ 1
  revs : ∀ t, s.revs t ≠ [] → t ∈ s.regd
  right : ∀ t f, REv.frame f ∈ s.revs t → f.rid = (cframeOf s.reqs t).rid ∧ f.push = false
  look : ∀ f, s.rd = .lookup f → f.push = false ∧ f.rid % 2 = 0
  hand : ∀ t f, s.rd = .deliver t f → t ∈ s.regd ∧ (∀ p ∈ s.respes, p.2 ≠ t) ∧ s.revs t = [] ∧
    f.rid = (cframeOf s.reqs t).rid ∧ f.push = false
  cl : ∀ i ts, s.cl i = .closing ts → ts.Nodup ∧ s.closed = true ∧
    ∀ t ∈ ts, t ∈ s.regd ∧ s.revs t = [] ∧ ∀ f, s.rd ≠ .deliver t f
  one : ∀ i j ts us, s.cl i = .closing ts → s.cl j = .closing us → i = j
  idle : s.closed = false → ∀ i, s.cl i = .idle
  crash : s.crash = false
  passed : ∀ f ∈ s.passed, f.push = false ∧ f.rid % 2 = 0

theorem VInvC.init : VInvC VSt.init := by
  constructor <;> simp [VSt.init]

end Qrpc
