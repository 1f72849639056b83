import Verif.Model.WsOverlay
/-! # C77: the WebSocket overlay loses no connection -/
namespace Qrpc

structure WoInv (cap : Nat) (s : WoSt) : Prop where
  order : s.accepts ++ s.acceptCh = s.sent
  nodup : s.sent.Nodup
  len : s.acceptCh.length ≤ cap
  lt : ∀ c ∈ s.sent, c < s.conns.length
  off : ∀ c : Nat, s.conns[c]? = some .offering → c ∉ s.sent
  q : ∀ c : Nat, s.conns[c]? = some .queued → c ∈ s.acceptCh
  a : ∀ c : Nat, s.conns[c]? = some .accepted → c ∈ s.accepts
  d : ∀ c : Nat, s.conns[c]? = some .dropped → c ∉ s.sent ∧ s.ctx = true

macro "wostep_cases" hs:ident a:ident : tactic =>
  `(tactic| (cases $a:ident <;> simp only [woStep] at $hs:ident <;> (repeat' (split at $hs:ident)) <;>
      first
      | (simp at $hs:ident; done)
      | (simp only [Option.some.injEq] at $hs:ident; subst $hs:ident)))

theorem WoInv.step {cap : Nat} {s s' : WoSt} {a : WoAct} (h : WoInv cap s) (hs : woStep cap s a = some s') : WoInv cap s' := by
  obtain ⟨h1, h2, h3, h4, h5, h6, h7, h8⟩ := h
  wostep_cases hs a
  all_goals constructor
  all_goals try first | assumption | grind

theorem WoInv.reach {cap : Nat} {acts : List WoAct} {s : WoSt} (h : woRun cap acts = some s) : WoInv cap s :=
  runActs_inv (P := WoInv cap) (fun _ _ _ hp hs => hp.step hs) (by constructor <;> simp [WoSt.init]) h

/-- **C77, order.** In every execution `Accept` returns the connections in the order in which they were sent to the backlog, none
twice, none that was not upgraded; the backlog never exceeds its capacity. -/
theorem C77_order {cap : Nat} {acts : List WoAct} {s : WoSt} (h : woRun cap acts = some s) :
    s.accepts <+: s.sent ∧ s.accepts.Nodup ∧ (∀ c ∈ s.accepts, c < s.conns.length) ∧ s.acceptCh.length ≤ cap := by
  have hI := WoInv.reach h
  refine ⟨⟨_, hI.order⟩, ?_, ?_, hI.len⟩
  · have := hI.nodup
    rw [← hI.order] at this
    exact (List.nodup_append.mp this).1
  · intro c hc
    exact hI.lt c (by rw [← hI.order]; exact List.mem_append_left _ hc)

theorem WoInv.accepted {cap : Nat} {s : WoSt} (hI : WoInv cap s) (hctx : s.ctx = false)
    {c : Nat} (hc : c < s.conns.length) :
    c ∈ s.accepts ∨ c ∈ s.acceptCh ∨
      (s.conns[c]? = some .offering ∧ (0 < cap → ∃ more s', (∀ a ∈ more, a ≠ .upgrade ∧ a ≠ .close) ∧ runActs (woStep cap) s more = some s' ∧ c ∈ s'.accepts)) := by
  have hg := List.getElem?_eq_getElem hc
  have drain : ∀ (q : List Nat) (t : WoSt), t.acceptCh = q → ∃ t', runActs (woStep cap) t (q.map fun _ => .accept) = some t' ∧
      t'.acceptCh = [] ∧ t'.accepts = t.accepts ++ q ∧ ∀ k : Nat, k ∉ q → t'.conns[k]? = t.conns[k]? := by
    intro q
    induction q with
    | nil => intro t ht; exact ⟨t, rfl, ht, by simp, by simp⟩
    | cons x q ih =>
      intro t ht
      obtain ⟨t', k1, k2, k3, k4⟩ := ih { t with conns := t.conns.set x .accepted, acceptCh := q, accepts := t.accepts ++ [x] } rfl
      refine ⟨t', ?_, k2, by rw [k3]; simp, ?_⟩
      · simp only [List.map_cons, runActs, woStep, ht]; exact k1
      · intro k hk
        simp only [List.mem_cons, not_or] at hk
        rw [k4 k hk.2]
        exact List.getElem?_set_ne (fun e => hk.1 e.symm)
  cases hp : s.conns[c] with
  | accepted => exact .inl (hI.a c (by rw [hg, hp]))
  | queued => exact .inr (.inl (hI.q c (by rw [hg, hp])))
  | dropped => have := (hI.d c (by rw [hg, hp])).2; rw [hctx] at this; exact absurd this (by simp)
  | offering =>
    rw [hp] at hg
    refine .inr (.inr ⟨hg, fun hcap => ?_⟩)
    have hns : c ∉ s.acceptCh := fun hm => hI.off c hg (by rw [← hI.order]; exact List.mem_append_right _ hm)
    obtain ⟨t, k1, k2, k3, k4⟩ := drain s.acceptCh s rfl
    refine ⟨(s.acceptCh.map fun _ => .accept) ++ [.offer c, .accept], ?_⟩
    rw [runActs_append, k1]
    refine ⟨{ t with conns := (t.conns.set c .queued).set c .accepted, acceptCh := [], sent := t.sent ++ [c], accepts := t.accepts ++ [c] },
      by grind, ?_, by simp⟩
    simp [runActs, woStep, k4 c hns, hg, k2, hcap]

/-- **C77, partial**: as long as the listener is not closed, every upgraded connection has been accepted, or is in the backlog, or
is still being offered; and with calls of Accept (capacity at least 1) it is accepted. -/
theorem C77_partial {cap : Nat} {acts : List WoAct} {s : WoSt} (h : woRun cap acts = some s) (hctx : s.ctx = false)
    {c : Nat} (hc : c < s.conns.length) :
    c ∈ s.accepts ∨ c ∈ s.acceptCh ∨
      (s.conns[c]? = some .offering ∧ (0 < cap → ∃ more s', (∀ a ∈ more, a ≠ .upgrade ∧ a ≠ .close) ∧ runActs (woStep cap) s more = some s' ∧ c ∈ s'.accepts)) :=
  (WoInv.reach h).accepted hctx hc

/-- **C77 is false** once the listener is closed: the goroutine offering an upgraded connection gives up without closing it, and
in no continuation is the connection ever accepted (only the owner of an accepted connection closes it). -/
theorem C77_refuted {cap : Nat} {s : WoSt} {c : Nat} {acts : List WoAct} (hrun : woRun cap acts = some s) (hctx : s.ctx = true)
    (hc : s.conns[c]? = some .offering) :
    ∃ s', woStep cap s (.offerDone c) = some s' ∧
      ∀ more s'', runActs (woStep cap) s' more = some s'' → c ∉ s''.accepts ∧ s''.conns[c]? = some .dropped := by
  have hs : woStep cap s (.offerDone c) = some { s with conns := s.conns.set c .dropped } := by simp [woStep, hc, hctx]
  have hlt : c < s.conns.length := (List.getElem?_eq_some_iff.mp hc).1
  refine ⟨_, hs, ?_⟩
  intro more s'' hr
  have hI := (WoInv.reach hrun).step hs
  have H := runActs_inv (step := woStep cap) (P := fun t : WoSt => WoInv cap t ∧ t.conns[c]? = some .dropped) (by
    intro t a t' ⟨k1, k2⟩ hs
    refine ⟨k1.step hs, ?_⟩
    obtain ⟨h1, h2, h3, h4, h5, h6, h7, h8⟩ := k1
    wostep_cases hs a
    all_goals try first | assumption | grind) ⟨hI, by simp [hlt]⟩ hr
  refine ⟨?_, H.2⟩
  intro hm
  exact (H.1.d c H.2).1 (by rw [← H.1.order]; exact List.mem_append_left _ hm)

/-- The context is cancelled exactly by `Close`. -/
theorem woCtx_iff {cap : Nat} {acts : List WoAct} {s : WoSt} (h : woRun cap acts = some s) : s.ctx = true ↔ WoAct.close ∈ acts := by
  have key : ∀ (acts : List WoAct) (t : WoSt), runActs (woStep cap) t acts = some s →
      (s.ctx = true ↔ t.ctx = true ∨ WoAct.close ∈ acts) := by
    intro acts
    induction acts with
    | nil => intro t h; simp only [runActs, Option.some.injEq] at h; subst h; simp
    | cons a as ih =>
      intro t h
      rw [runActs] at h
      cases h1 : woStep cap t a with
      | none => rw [h1] at h; simp at h
      | some t1 =>
        rw [h1] at h
        have := ih t1 h
        have e : t1.ctx = true ↔ t.ctx = true ∨ a = .close := by
          wostep_cases h1 a
          all_goals simp
        rw [this, e]
        simp only [List.mem_cons, or_assoc, eq_comm]
  simpa [WoSt.init] using key acts WoSt.init h

/-- **C77, errors.** `Accept` fails, and an upgraded connection is given up, only after `Close` was called; and after `Close` a
call of `Accept` always returns. -/
theorem C77_errors {cap : Nat} {acts : List WoAct} {s : WoSt} (h : woRun cap acts = some s) :
    (∀ s', woStep cap s .acceptErr = some s' → WoAct.close ∈ acts) ∧
    (∀ c s', woStep cap s (.offerDone c) = some s' → WoAct.close ∈ acts) ∧
    (WoAct.close ∈ acts → ∃ s', woStep cap s .acceptErr = some s' ∧ s'.accepts = s.accepts) := by
  refine ⟨fun s' hs => (woCtx_iff h).mp ?_, fun c s' hs => (woCtx_iff h).mp ?_, fun hc => ?_⟩
  · simp only [woStep] at hs
    split at hs
    · assumption
    · simp at hs
  · simp only [woStep] at hs
    split at hs
    · split at hs
      · assumption
      · simp at hs
    · simp at hs
  · exact ⟨s, by simp [woStep, (woCtx_iff h).mpr hc], rfl⟩

/-- Accept on an open listener with an empty backlog blocks; after Close it fails. -/
example : ((woRun 1 [.upgrade]).bind fun s => woStep 1 s .acceptErr) = none ∧
    ((woRun 1 [.upgrade, .close]).bind fun s => woStep 1 s .acceptErr).isSome = true := by decide

/-- Three upgrades with a backlog of 1, one accepted, one left in the backlog, then Close: the third is dropped. -/
example : woRun 1 [.upgrade, .upgrade, .upgrade, .offer 1, .accept, .offer 0, .close, .offerDone 2] =
    some { conns := [.queued, .accepted, .dropped], acceptCh := [0], ctx := true, lnClosed := true, sent := [1, 0], accepts := [1] } := by
  decide

end Qrpc
