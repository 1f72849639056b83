import Verif.Model.ReadTimeout
import Verif.Props.Deadline
/-! # Property C97: changing the read timeout -/
namespace Qrpc

/-- The timeout in force after `log`: the one set last. -/
def Spec.lastSet : List TmEv → Option Int
  | [] => none
  | e :: rest => match Spec.lastSet rest, e with
    | some t, _ => some t
    | none, .set t => some t
    | none, _ => none

/-- Seconds as nanoseconds after `now`; not positive: no deadline. -/
def Spec.within (now : Int) (secs : Int) : Option Int := if 0 < secs then some (now + secs * 1000000000) else none

theorem Spec.lastSet_append_set (l : List TmEv) (t : Int) : Spec.lastSet (l ++ [.set t]) = some t := by
  induction l with
  | nil => rfl
  | cons e l ih => simp [Spec.lastSet, ih]

theorem Spec.lastSet_append_other (l : List TmEv) (e : TmEv) (h : ∀ t, e ≠ .set t) : Spec.lastSet (l ++ [e]) = Spec.lastSet l := by
  induction l with
  | nil => cases e <;> simp_all [Spec.lastSet]
  | cons e l ih => simp [Spec.lastSet, ih]

structure TmInv (s : TmSt) : Prop where
  last : Spec.lastSet s.log = s.timeout
  reader : s.timeout = none → s.pc = .out ∧ s.frames = 0
  hdrs : ∀ pre now dl post, s.log = pre ++ .hdr now dl :: post → ∃ t, Spec.lastSet pre = some t ∧ dl = headerDeadline t now
  pays : ∀ pre now dl post, s.log = pre ++ .pay now dl :: post → ∃ t, Spec.lastSet pre = some t ∧ dl = payloadDeadline t now

theorem snoc_eq_split {α : Type} {l pre post : List α} {e x : α} (h : l ++ [e] = pre ++ x :: post) :
    (pre = l ∧ x = e ∧ post = []) ∨ ∃ post', l = pre ++ x :: post' := by
  rcases List.eq_nil_or_concat post with rfl | ⟨p', y, rfl⟩
  · rw [List.append_inj' h rfl |>.1] 
    have := (List.append_inj' h rfl).2
    simp at this
    exact .inl ⟨rfl, this.symm, rfl⟩
  · refine .inr ⟨p', ?_⟩
    have : l ++ [e] = (pre ++ x :: p') ++ [y] := by rw [h]; simp
    exact (List.append_inj' this rfl).1

theorem TmInv.log {s : TmSt} {e : TmEv} (h : TmInv s)
    (he : (∃ t, e = .set t) ∨ (∃ t now, s.timeout = some t ∧ (e = .hdr now (headerDeadline t now) ∨ e = .pay now (payloadDeadline t now)))) :
    (∀ pre now dl post, s.log ++ [e] = pre ++ .hdr now dl :: post → ∃ t, Spec.lastSet pre = some t ∧ dl = headerDeadline t now) ∧
    (∀ pre now dl post, s.log ++ [e] = pre ++ .pay now dl :: post → ∃ t, Spec.lastSet pre = some t ∧ dl = payloadDeadline t now) := by
  have hl := h.last
  constructor <;> intro pre now dl post hp
  · rcases snoc_eq_split hp with ⟨rfl, h2, rfl⟩ | ⟨post', h2⟩
    · subst h2
      rcases he with ⟨t, h3⟩ | ⟨t, now', h3, h4⟩
      · cases h3
      · rcases h4 with h4 | h4
        · injection h4 with h5 h6
          subst h5
          exact ⟨t, by rw [hl, h3], h6⟩
        · cases h4
    · exact h.hdrs _ _ _ _ h2
  · rcases snoc_eq_split hp with ⟨rfl, h2, rfl⟩ | ⟨post', h2⟩
    · subst h2
      rcases he with ⟨t, h3⟩ | ⟨t, now', h3, h4⟩
      · cases h3
      · rcases h4 with h4 | h4
        · cases h4
        · injection h4 with h5 h6
          subst h5
          exact ⟨t, by rw [hl, h3], h6⟩
    · exact h.pays _ _ _ _ h2

theorem TmInv.init : TmInv TmSt.init := by
  refine ⟨rfl, fun _ => ⟨rfl, rfl⟩, ?_, ?_⟩ <;> simp [TmSt.init]

theorem TmInv.set {s : TmSt} (h : TmInv s) (t : Int) : TmInv (s.setTimeout t) := by
  unfold TmSt.setTimeout
  split
  · exact ⟨h.last, h.reader, h.hdrs, h.pays⟩
  · obtain ⟨h1, h2⟩ := h.log (e := .set t) (.inl ⟨t, rfl⟩)
    exact ⟨Spec.lastSet_append_set _ _, by simp, h1, h2⟩

theorem TmInv.step {s s' : TmSt} {a : TmAct} (h : TmInv s) (hs : tmStep s a = some s') : TmInv s' := by
  cases a with
  | serve d =>
    simp only [tmStep] at hs
    split at hs
    · next h0 =>
      cases hs
      obtain ⟨h1, h2⟩ := h.log (e := .set d) (.inl ⟨d, rfl⟩)
      exact ⟨Spec.lastSet_append_set _ _, by simp, h1, h2⟩
    · cases hs
  | header now =>
    simp only [tmStep] at hs
    split at hs
    · next t hp ht =>
      cases hs
      obtain ⟨h1, h2⟩ := h.log (e := .hdr now (headerDeadline t now)) (.inr ⟨t, now, ht, .inl rfl⟩)
      exact ⟨by rw [Spec.lastSet_append_other _ _ (by simp)]; exact h.last, by simp [ht], h1, h2⟩
    · cases hs
  | hdrEnd =>
    simp only [tmStep] at hs
    split at hs
    · next hp =>
      cases hs
      refine ⟨h.last, fun h0 => ?_, h.hdrs, h.pays⟩
      have := (h.reader h0).1
      simp [hp] at this
    · cases hs
  | payload now =>
    simp only [tmStep] at hs
    split at hs
    · next t hp ht =>
      cases hs
      obtain ⟨h1, h2⟩ := h.log (e := .pay now (payloadDeadline t now)) (.inr ⟨t, now, ht, .inr rfl⟩)
      exact ⟨by rw [Spec.lastSet_append_other _ _ (by simp)]; exact h.last, by simp [ht], h1, h2⟩
    · cases hs
  | frame =>
    simp only [tmStep] at hs
    split at hs
    · next hp =>
      cases hs
      refine ⟨h.last, fun h0 => ?_, h.hdrs, h.pays⟩
      have := (h.reader h0).1
      simp [hp] at this
    · next hp =>
      cases hs
      refine ⟨h.last, fun h0 => ?_, h.hdrs, h.pays⟩
      have := (h.reader h0).1
      simp [hp] at this
    · cases hs
  | handlerSet t =>
    simp only [tmStep] at hs
    split at hs
    · cases hs; exact h.set t
    · cases hs
  | walkSet t =>
    simp only [tmStep] at hs
    cases hs; exact h.set t

theorem TmInv.reach {acts : List TmAct} {s : TmSt} (h : tmRun acts = some s) : TmInv s :=
  runActs_inv (fun _ _ _ h hs => TmInv.step h hs) TmInv.init h

theorem payloadDeadline_eq (t now : Int) : payloadDeadline t now = Spec.within now (if 3 < t then 3 else t) := by
  have hp := payloadMax_eq
  simp only [payloadDeadline, readDeadline, Spec.within]
  by_cases h3 : t > 3
  · have hc : payloadReadMaxTimeoutSecond > 0 ∧ t > payloadReadMaxTimeoutSecond := by omega
    simp only [if_pos hc, if_pos h3]
    rw [if_pos (by omega), if_pos (by omega)]
    have : seconds payloadReadMaxTimeoutSecond = 3000000000 := by decide
    rw [this]; rfl
  · have hc : ¬ (payloadReadMaxTimeoutSecond > 0 ∧ t > payloadReadMaxTimeoutSecond) := by omega
    simp only [if_neg hc, if_neg h3]
    split
    · rw [seconds_of (by omega) (by unfold Spec.Fits; omega)]
    · rfl

/-- **C97 (partial).** Every header read has the deadline that the timeout set last before it began gives (of a timeout below 292
    years; none if it is not positive), every payload read likewise but with at most 3 seconds. -/
theorem C97_partial {acts : List TmAct} {s : TmSt} (h : tmRun acts = some s) :
    (∀ pre now dl post, s.log = pre ++ .hdr now dl :: post → ∃ t, Spec.lastSet pre = some t ∧
      (Spec.Fits t → dl = Spec.within now t)) ∧
    (∀ pre now dl post, s.log = pre ++ .pay now dl :: post → ∃ t, Spec.lastSet pre = some t ∧
      dl = Spec.within now (if 3 < t then 3 else t)) := by
  have hi := TmInv.reach h
  constructor
  · intro pre now dl post hp
    obtain ⟨t, h1, h2⟩ := hi.hdrs _ _ _ _ hp
    exact ⟨t, h1, fun h3 => by rw [h2, C58_header t now h3]; rfl⟩
  · intro pre now dl post hp
    obtain ⟨t, h1, h2⟩ := hi.pays _ _ _ _ hp
    exact ⟨t, h1, by rw [h2, payloadDeadline_eq]⟩

theorem TmSt.served_step {s s' : TmSt} {a : TmAct} (h : s.timeout ≠ none) (hs : tmStep s a = some s') :
    s'.timeout ≠ none ∧ s'.panicked = s.panicked := by
  obtain ⟨t0, ht⟩ := Option.ne_none_iff_exists'.1 h
  cases a <;> simp only [tmStep, TmSt.setTimeout, ht] at hs
  all_goals (repeat' split at hs)
  all_goals first | cases hs; done | (cases hs; simp_all)

theorem TmSt.served_run {s s' : TmSt} {acts : List TmAct} (h : s.timeout ≠ none) (hr : runActs tmStep s acts = some s') :
    s'.panicked = s.panicked := by
  have := runActs_inv (P := fun x => x.timeout ≠ none ∧ x.panicked = s.panicked)
    (fun x a x' hx hs => ⟨(TmSt.served_step hx.1 hs).1, (TmSt.served_step hx.1 hs).2.trans hx.2⟩) ⟨h, rfl⟩ hr
  exact this.2

theorem TmSt.panic_run {s s' : TmSt} {acts : List TmAct} (hi : TmInv s) (h0 : s.panicked = false)
    (hr : runActs tmStep s acts = some s') (hp : s'.panicked = true) :
    ∃ pre t post, acts = pre ++ .walkSet t :: post ∧ ∀ d, TmAct.serve d ∉ pre := by
  induction acts generalizing s with
  | nil => simp only [runActs, Option.some.injEq] at hr; subst hr; simp [h0] at hp
  | cons a acts ih =>
    by_cases hn : s.timeout = none
    · cases h1 : tmStep s a with
      | none => simp [runActs, h1] at hr
      | some s1 =>
        simp only [runActs, h1] at hr
        obtain ⟨hpc, hf⟩ := hi.reader hn
        cases a with
        | walkSet t => exact ⟨[], t, acts, rfl, by simp⟩
        | serve d =>
          simp only [tmStep, hn, if_true, Option.some.injEq] at h1
          subst h1
          have := TmSt.served_run (by simp) hr
          rw [this] at hp
          simp [h0] at hp
        | _ => simp [tmStep, hpc, hn, hf] at h1
    · have := TmSt.served_run hn hr
      rw [this, h0] at hp
      cases hp

/-- **C97 (partial).** Changing the timeout panics only if it is done through `WalkConn` on a connection that is not served yet;
    a handler always finds the reader. -/
theorem C97_nopanic_partial {acts : List TmAct} {s : TmSt} (h : tmRun acts = some s) (hp : s.panicked = true) :
    ∃ pre t post, acts = pre ++ .walkSet t :: post ∧ ∀ d, TmAct.serve d ∉ pre :=
  TmSt.panic_run TmInv.init rfl h hp

/-- **C97 is false of the code**, first: a function given to `WalkConn` that sets the timeout of a connection just accepted panics. -/
theorem C97_refuted_early (t : Int) : ∃ s, tmRun [.walkSet t] = some s ∧ s.panicked = true := ⟨_, rfl, rfl⟩

/-- **C97 is false of the code**, second: a new timeout does not concern the read that is under way. The reader of a connection without
    timeout waits for the next header while a handler sets one; as long as no header comes, whatever else is done, it keeps waiting
    without a deadline. -/
theorem C97_refuted_waiting (t : Int) (more : List TmAct) (hm : TmAct.hdrEnd ∉ more) {s : TmSt}
    (h : tmRun ([.serve 0, .header 0, .hdrEnd, .frame, .header 1, .handlerSet t] ++ more) = some s) : s.pc = .hdr none := by
  rw [show tmRun _ = _ from runActs_append ..] at h
  have hw : runActs tmStep TmSt.init [.serve 0, .header 0, .hdrEnd, .frame, .header 1, .handlerSet t] =
      some ⟨some t, .hdr none, 1, false, [.set 0, .hdr 0 none, .hdr 1 none, .set t]⟩ := rfl
  simp only [hw, Option.bind_some] at h
  generalize hs0 : (⟨some t, .hdr none, 1, false, [.set 0, .hdr 0 none, .hdr 1 none, .set t]⟩ : TmSt) = s0 at h
  have hpc : s0.pc = .hdr none := by rw [← hs0]
  clear hw hs0
  induction more generalizing s0 with
  | nil => simp only [runActs, Option.some.injEq] at h; exact h ▸ hpc
  | cons a more ih =>
    cases h1 : tmStep s0 a with
    | none => simp [runActs, h1] at h
    | some s1 =>
      simp only [runActs, h1] at h
      refine ih (fun hx => hm (.tail _ hx)) s1 h ?_
      cases a with
      | hdrEnd => exact absurd (List.mem_cons_self ..) hm
      | _ => grind [tmStep, TmSt.setTimeout]

/-- A handler lowers the timeout of a connection from 10 to 2 seconds; the read under way keeps its deadline, the next has the new one. -/
def exTm : List TmAct :=
  [.serve 10, .header 0, .hdrEnd, .payload 5, .frame, .header 7, .handlerSet 2, .hdrEnd, .payload 9, .frame, .header 11, .walkSet 0, .hdrEnd]

example : (tmRun exTm).map TmSt.log = some [.set 10, .hdr 0 (some 10000000000), .pay 5 (some 3000000005), .hdr 7 (some 10000000007), .set 2,
    .pay 9 (some 2000000009), .hdr 11 (some 2000000011), .set 0] := by decide +kernel

example : ∃ s, tmRun exTm = some s ∧ s.panicked = false := by
  obtain ⟨s, hs⟩ := Option.isSome_iff_exists.1 (show (tmRun exTm).isSome = true by decide +kernel)
  refine ⟨s, hs, ?_⟩
  cases hp : s.panicked with
  | false => rfl
  | true =>
    have : (tmRun exTm).map TmSt.panicked = some false := by decide +kernel
    rw [hs] at this
    simp [hp] at this

example : ∃ s, tmRun ([.serve 0, .header 0, .hdrEnd, .frame, .header 1, .handlerSet 5] ++ [.handlerSet 6, .walkSet 7]) = some s ∧
    s.pc = .hdr none := ⟨_, rfl, C97_refuted_waiting 5 [.handlerSet 6, .walkSet 7] (by decide) rfl⟩

end Qrpc
