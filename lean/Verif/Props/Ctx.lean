import Verif.Model.Ctx
/-! # C59: closing a connection cancels the context of every stream on it -/
namespace Qrpc

namespace Spec
/-- `a` is `x` or an ancestor of `x`. -/
inductive Anc (parent : Nat → Option Nat) : Nat → Nat → Prop where
  | refl (x : Nat) : Anc parent x x
  | step {a p x : Nat} : parent x = some p → Anc parent a p → Anc parent a x
end Spec
open Spec

/-- What one call of `cancel` does: it only adds marks, marks `c`, and marks all children of what it marks. -/
structure Cancels (kids : Nat → List Nat) (d : Nat → Bool) (l : List Nat) (d' : Nat → Bool) : Prop where
  mono : ∀ x, d x = true → d' x = true
  hit : ∀ c ∈ l, d' c = true
  down : ∀ x, d' x = true → d x = false → ∀ k ∈ kids x, d' k = true

theorem cancelCtx_cancels {kids : Nat → List Nat} {n : Nat} (hk : ∀ c, ∀ k ∈ kids c, c < k ∧ k < n) :
    ∀ fuel, (∀ d c, c < n → n < fuel + c → Cancels kids d [c] (cancelCtx kids fuel d c)) := by
  intro fuel
  induction fuel with
  | zero => intro d c h1 h2; omega
  | succ fuel ih =>
    have fold : ∀ (l : List Nat) d c, (∀ k ∈ l, c < k ∧ k < n) → n < fuel + 1 + c →
        Cancels kids d l (l.foldl (cancelCtx kids fuel) d) := by
      intro l
      induction l with
      | nil =>
        intro d c _ _
        exact ⟨fun _ h => h, fun _ h => (List.not_mem_nil h).elim, fun x h1 h2 => by simp_all⟩
      | cons k l ihl =>
        intro d c h1 h2
        have hk1 := h1 k (List.mem_cons_self ..)
        have a := ih d k hk1.2 (by omega)
        have b := ihl (cancelCtx kids fuel d k) c (fun j hj => h1 j (List.mem_cons_of_mem _ hj)) h2
        refine ⟨fun x hx => b.mono x (a.mono x hx), ?_, ?_⟩
        · intro j hj
          rcases List.mem_cons.mp hj with rfl | hj
          · exact b.mono _ (a.hit _ (List.mem_cons_self ..))
          · exact b.hit j hj
        · intro x hx hd j hj
          cases hc : cancelCtx kids fuel d k x with
          | true => exact b.mono _ (a.down x hc hd j hj)
          | false => exact b.down x hx hc j hj
    intro d c h1 h2
    rw [cancelCtx]
    split
    · next hd =>
      exact ⟨fun _ h => h, fun _ h => by simp_all, fun x h1 h2 => by simp_all⟩
    · next hd =>
      have b := fold (kids c) (setAt d c true) c (hk c) (by omega)
      refine ⟨fun x hx => b.mono x (by simp [setAt, hx]), ?_, ?_⟩
      · intro x hx
        simp only [List.mem_singleton] at hx
        subst hx
        exact b.mono _ (by simp [setAt])
      · intro x hx hdx j hj
        by_cases hxc : x = c
        · subst hxc; exact b.hit j hj
        · exact b.down x hx (by simp [setAt, hxc, hdx]) j hj

/-- Nothing else is marked: only what is below `c`. -/
theorem cancelCtx_only {kids : Nat → List Nat} {parent : Nat → Option Nat} (hp : ∀ c, ∀ k ∈ kids c, parent k = some c)
    (fuel : Nat) : ∀ (d : Nat → Bool) (c x : Nat), cancelCtx kids fuel d c x = true → d x = true ∨ Anc parent c x := by
  have lift : ∀ {c k x}, parent k = some c → Anc parent k x → Anc parent c x := by
    intro c k x hk ha
    induction ha with
    | refl => exact .step hk (.refl c)
    | step h1 _ ih => exact .step h1 ih
  induction fuel with
  | zero => intro d c x h; exact .inl h
  | succ fuel ih =>
    have fold : ∀ (l : List Nat) d x, l.foldl (cancelCtx kids fuel) d x = true → d x = true ∨ ∃ k ∈ l, Anc parent k x := by
      intro l
      induction l with
      | nil => intro d x h; exact .inl h
      | cons k l ihl =>
        intro d x h
        rcases ihl _ _ h with h | ⟨j, hj, h⟩
        · rcases ih d k x h with h | h
          · exact .inl h
          · exact .inr ⟨k, List.mem_cons_self .., h⟩
        · exact .inr ⟨j, List.mem_cons_of_mem _ hj, h⟩
    intro d c x h
    rw [cancelCtx] at h
    split at h
    · exact .inl h
    · rcases fold _ _ _ h with h | ⟨k, hk, h⟩
      · by_cases hx : x = c
        · subst hx; exact .inr (.refl _)
        · exact .inl (by simpa [setAt, hx] using h)
      · exact .inr (lift (hp c k hk) h)

structure XInv (s : XSt) : Prop where
  kids : ∀ c, ∀ k ∈ s.kids c, c < k ∧ k < s.n ∧ s.parent k = some c
  par : ∀ k c, s.parent k = some c → c < s.n ∧ k < s.n ∧ (k ∈ s.kids c ∨ s.done k = true)
  down : ∀ c, s.done c = true → ∀ k ∈ s.kids c, s.done k = true
  lt : ∀ c, s.done c = true → c < s.n
  hit : ∀ c ∈ s.cancelled, s.done c = true
  why : ∀ x, s.done x = true → ∃ c ∈ s.cancelled, Anc s.parent c x

theorem Spec.Anc.setAt_new {parent : Nat → Option Nat} {n p a x : Nat} (hn : parent n = none) (h : Anc parent a x) :
    Anc (setAt parent n (some p)) a x := by
  induction h with
  | refl => exact .refl _
  | step h1 _ ih =>
    refine .step ?_ ih
    rw [setAt]
    split
    · next he => subst he; simp [hn] at h1
    · exact h1

theorem XInv.step {s s' : XSt} {a : XAct} (h : XInv s) (hs : xStep s a = some s') : XInv s' := by
  obtain ⟨h1, h2, h3, h4, h5, h6⟩ := h
  cases a with
  | derive p =>
    simp only [xStep] at hs
    have hn : s.parent s.n = none := by
      cases hc : s.parent s.n with
      | none => rfl
      | some c => have := (h2 _ _ hc).2.1; omega
    split at hs
    · next hp =>
      split at hs
      · next hd =>
        cases hs
        obtain ⟨c, hc, hca⟩ := h6 p hd
        refine ⟨?_, ?_, ?_, ?_, ?_, ?_⟩ <;> simp only []
        · intro c k hk
          have := h1 c k hk
          refine ⟨this.1, by omega, ?_⟩
          simp only [setAt]; split
          · omega
          · exact this.2.2
        · intro k c hk
          simp only [setAt] at hk ⊢
          split at hk
          · next he => cases hk; subst he; exact ⟨by omega, by omega, .inr (by simp)⟩
          · have := h2 k c hk
            refine ⟨by omega, by omega, ?_⟩
            rename_i hne
            simp [hne]; exact this.2.2
        · intro c hc' k hk
          simp only [setAt] at hc' ⊢
          have := h1 c k hk
          split
          · rfl
          · split at hc'
            · omega
            · exact h3 c hc' k hk
        · intro c hc'
          simp only [setAt] at hc'
          split at hc'
          · omega
          · have := h4 c hc'; omega
        · intro c hc'
          simp only [setAt]; split
          · rfl
          · exact h5 c hc'
        · intro x hx
          simp only [setAt] at hx
          split at hx
          · next he =>
            subst he
            exact ⟨c, hc, .step (p := p) (by simp [setAt]) (hca.setAt_new hn)⟩
          · obtain ⟨c', hc', ha⟩ := h6 x hx
            exact ⟨c', hc', ha.setAt_new hn⟩
      · next hd =>
        cases hs
        refine ⟨?_, ?_, ?_, ?_, ?_, ?_⟩ <;> simp only []
        · intro c k hk
          simp only [setAt] at hk ⊢
          split at hk
          · next he =>
            subst he
            rcases List.mem_append.mp hk with hk | hk
            · have := h1 _ k hk
              refine ⟨this.1, by omega, ?_⟩
              split
              · omega
              · exact this.2.2
            · simp only [List.mem_singleton] at hk; subst hk; simp; omega
          · have := h1 _ k hk
            refine ⟨this.1, by omega, ?_⟩
            split
            · omega
            · exact this.2.2
        · intro k c hk
          simp only [setAt] at hk ⊢
          split at hk
          · cases hk; simp_all; omega
          · have := h2 k c hk
            refine ⟨by omega, by omega, ?_⟩
            rcases this.2.2 with h | h
            · left; split
              · next he => subst he; simp [h]
              · exact h
            · exact .inr h
        · intro c hc' k hk
          simp only [setAt] at hk
          split at hk
          · next he => subst he; simp [hc'] at hd
          · exact h3 c hc' k hk
        · intro c hc'; have := h4 c hc'; omega
        · exact h5
        · intro x hx
          obtain ⟨c', hc', ha⟩ := h6 x hx
          exact ⟨c', hc', ha.setAt_new hn⟩
    · cases hs
  | cancel c =>
    simp only [xStep] at hs
    split at hs
    · next hc =>
      cases hs
      have hca := cancelCtx_cancels (kids := s.kids) (n := s.n) (fun c k hk => ⟨(h1 c k hk).1, (h1 c k hk).2.1⟩) (s.n + 1 - c)
        s.done c hc (by omega)
      have hon := cancelCtx_only (kids := s.kids) (parent := s.parent) (fun c k hk => (h1 c k hk).2.2) (s.n + 1 - c) s.done c
      refine ⟨h1, ?_, ?_, ?_, ?_, ?_⟩ <;> simp only []
      · intro k c' hk
        have := h2 k c' hk
        exact ⟨this.1, this.2.1, this.2.2.imp_right (hca.mono k)⟩
      · intro x hx k hk
        cases hd : s.done x with
        | true => exact hca.mono _ (h3 x hd k hk)
        | false => exact hca.down x hx hd k hk
      · intro x hx
        rcases hon x hx with h | h
        · exact h4 x h
        · cases h with
          | refl => exact hc
          | step hp _ => exact (h2 _ _ hp).2.1
      · intro x hx
        rcases List.mem_append.mp hx with h | h
        · exact hca.mono x (h5 x h)
        · simp only [List.mem_singleton] at h
          exact hca.hit x (by simp [h])
      · intro x hx
        rcases hon x hx with h | h
        · obtain ⟨c', hc', ha⟩ := h6 x h
          exact ⟨c', List.mem_append.mpr (.inl hc'), ha⟩
        · exact ⟨c, by simp, h⟩
    · cases hs

theorem XInv.reach {acts s} (h : xRun acts = some s) : XInv s := by
  refine runActs_inv (P := XInv) (fun _ _ _ h hs => h.step hs) ?_ h
  constructor <;> simp [XSt.init]

/-- **C59.** In every execution a context is done iff its own CancelFunc or that of an ancestor was called - however many
contexts there are and whether they were derived before or after the call. In particular cancelling the context of a
connection cancels the context of every stream on it, and cancelling one stream cancels no other. -/
theorem C59_contexts {acts : List XAct} {s : XSt} (hrun : xRun acts = some s) {x : Nat} :
    s.done x = true ↔ ∃ c ∈ s.cancelled, Anc s.parent c x := by
  have h := XInv.reach hrun
  refine ⟨h.why x, ?_⟩
  rintro ⟨c, hc, ha⟩
  induction ha with
  | refl => exact h.hit _ hc
  | step hp _ ih =>
    have := ih
    rcases (h.par _ _ hp).2.2 with h1 | h1
    · exact h.down _ this _ h1
    · exact h1

/-- The streams of a connection: contexts derived from that of the connection. -/
theorem C59_streams {acts : List XAct} {s : XSt} (hrun : xRun acts = some s) {conn stream : Nat}
    (hp : s.parent stream = some conn) (hc : conn ∈ s.cancelled) : s.done stream = true :=
  (C59_contexts hrun).mpr ⟨conn, hc, .step hp (.refl conn)⟩

/-- Two connections (1, 2); streams 3, 4 on the first one and 5 on the second; the first one is closed; a late stream 6. -/
example : (xRun [.derive 0, .derive 0, .derive 1, .derive 1, .derive 2, .cancel 1, .derive 1]).map
    (fun s => (List.range 7).map s.done) = some [false, true, false, true, true, false, true] := by rfl

end Qrpc
