import Verif.Props.ServeWrite
import Verif.Lemmas.Measure
/-! # C23: every writer of a server connection returns -/
namespace Qrpc

/-- A step of a goroutine inside `writeFrameBytes` (not the call itself). -/
def GAct.inner : GAct → Option Nat
  | .enq i | .enqCtx i | .lock i | .recv i | .waitCtx i | .go i | .deq i _ _ | .collCtx i | .write i _ _ => some i
  | _ => none

/-- How many steps a goroutine inside `writeFrameBytes` takes at most. -/
def callRank (cap batch toSend : Nat) : TPc → Nat
  | .idle => 0
  | .take _ => 1
  | .unlockTake _ => 2
  | .wait _ => 11 + 2 * cap
  | .enq _ => 12 + 2 * cap
  | p => holderRank cap batch toSend p

def GSt.rank (cap : Nat) (s : GSt) (i : Nat) : Nat := callRank cap s.batch.length s.toSend.length (s.pc i)

theorem callRank_other {cap b b' n n' : Nat} {p : TPc} (h : p.holds = false) : callRank cap b n p = callRank cap b' n' p := by
  cases p <;> simp_all [TPc.holds, callRank, holderRank]

set_option maxHeartbeats 8000000 in
theorem callRank_step {cap : Nat} {s s' : GSt} {a : GAct} {i : Nat} (hI : GInv cap s) (hi : a.inner = some i)
    (hs : gStep cap s a = some s') : s'.rank cap i < s.rank cap i ∧ ∀ j, j ≠ i → s'.pc j = s.pc j ∧ s'.rank cap j = s.rank cap j := by
  have u := hI.a.unique
  have hlen : ∀ ok k, (s.batch.zip (batchResults ok (consume k s.bufs))).length = s.batch.length := by
    intro ok k
    have := congrArg List.length (map_fst_zip_batch s ok k)
    simpa using this
  have hb := hI.b.clean
  have ht := hI.b.coll
  clear hI
  unfold GSt.rank
  gstep_cases hs a
  all_goals simp only [GAct.inner, Option.some.injEq, reduceCtorEq] at hi
  all_goals subst hi
  all_goals refine ⟨?_, fun j hj => ⟨?_, ?_⟩⟩
  all_goals try simp only [setAt, if_true]
  all_goals try simp only [hj, if_false]
  all_goals try first
    | exact callRank_other (by
        cases hh : (s.pc j).holds with
        | false => rfl
        | true => exact absurd (u _ _ hh (by simp_all [TPc.holds])) hj)
    | grind [setAt, TPc.holds, TPc.clean, TPc.collecting, holderRank, callRank]

theorem GAct.inner_who {a : GAct} {i : Nat} (h : a.inner = some i) : a.who = some i := by
  cases a <;> simp_all [GAct.inner, GAct.who]

/-- A goroutine that takes a step is inside `writeFrameBytes`. -/
theorem GAct.inner_busy {cap : Nat} {s s' : GSt} {a : GAct} {i : Nat} (hi : a.inner = some i) (hs : gStep cap s a = some s') :
    s.pc i ≠ .idle := by
  intro hp
  cases a <;> simp only [GAct.inner, Option.some.injEq, reduceCtorEq] at hi
  all_goals subst hi
  all_goals simp [gStep, goStep, hp] at hs

theorem callRank_le {cap : Nat} {acts : List GAct} {s : GSt} (h : gRun cap acts = some s) (i : Nat) :
    s.rank cap i ≤ 2 * cap + 12 + s.batch.length + s.toSend.length := by
  have hcn := collect_le_cap h i
  unfold GSt.rank
  cases hp : s.pc i <;> simp only [callRank, holderRank] <;> try omega
  have := hcn _ _ hp
  omega

/-- While the connection is not being closed, every queued request belongs to a goroutine that waits for its result. -/
def QueueOwned (s : GSt) : Prop := s.closing = false → ∀ t, s.deq ≤ t → t < s.frames.length → ∃ i, (s.pc i).tk = some t

set_option maxHeartbeats 8000000 in
theorem QueueOwned.step {cap : Nat} {s s' : GSt} {a : GAct} (hI : GInv cap s) (hI' : GInv cap s') (h : QueueOwned s) (hs : gStep cap s a = some s') : QueueOwned s' := by
  have g := hI.g
  have g' := hI'.g
  have c := hI.c.collDone
  have tk := hI.c.taking
  have q := hI.b.queued
  clear hI hI'
  unfold QueueOwned at h ⊢
  intro hc t h1 h2
  have hc0 : s.closing = false := by
    gstep_cases hs a
    all_goals simp_all
  have h10 : s.deq ≤ t := by
    gstep_cases hs a
    all_goals simp only [] at h1
    all_goals omega
  have hctx : s.ctx = false := by
    cases hx : s.ctx with
    | false => rfl
    | true => exact absurd (g.ctx hx) (by simp [hc0])
  have hkeep := g'.keeps
  rw [hc] at hkeep
  clear g g'
  by_cases ht : t < s.frames.length
  · obtain ⟨i, hi⟩ := h hc0 t h10 ht
    refine ⟨i, ?_⟩
    have q1 := q t h10
    clear h q
    gstep_cases hs a
    all_goals simp only [] at hkeep h1 h2 ⊢
    all_goals try first
      | assumption
      | grind [setAt, TPc.tk, TPc.keeps]
  · clear h hkeep tk c q
    gstep_cases hs a
    all_goals simp only [] at h1 h2 ⊢
    all_goals try first
      | omega
      | (rename_i i _ _ _ _
         exact ⟨i, by simp only [setAt, if_true, TPc.tk, Option.some.injEq]; simp only [List.length_append, List.length_cons, List.length_nil] at h2; omega⟩)

/-- Ticket `t` of goroutine `i`: `i` still works on it, or its result has been returned, or the connection is being closed. -/
def TicketKept (i t : Nat) (s : GSt) : Prop :=
  (s.pc i).tk = some t ∨ (∃ rel r, s.pc i = .free rel t r ∨ s.pc i = .release rel t r ∨ s.pc i = .unlock rel t r) ∨
  (∃ r, (t, r) ∈ s.rets) ∨ s.closing = true

set_option maxHeartbeats 8000000 in
theorem TicketKept.step {cap i t : Nat} {s s' : GSt} {a : GAct} (hI : GInv cap s) (hI' : GInv cap s') (h : TicketKept i t s)
    (hs : gStep cap s a = some s') : TicketKept i t s' := by
  have g := hI.g.ctx
  have hkeep := hI'.g.keeps
  clear hI hI'
  unfold TicketKept at h ⊢
  gstep_cases hs a
  all_goals simp only [] at hkeep ⊢
  all_goals try first
    | assumption
    | grind [setAt, TPc.tk, TPc.keeps]

theorem GInvO.reach {cap : Nat} {acts : List GAct} {s : GSt} (h : gRun cap acts = some s) : GInv cap s ∧ QueueOwned s := by
  refine runActs_inv (P := fun s => GInv cap s ∧ QueueOwned s) ?_ ⟨GInv.init cap, fun _ t h1 h2 => by simp [GSt.init] at h2⟩ h
  intro s a s' ⟨hI, hO⟩ hs
  exact ⟨hI.step hs, hO.step hI (hI.step hs) hs⟩

/-- No goroutine inside `writeFrameBytes` can take a step. -/
def AtRest (cap : Nat) (s : GSt) : Prop := ∀ a, a.inner ≠ none → gStep cap s a = none

/-- The lock holder can take its next step, unless the connection is being closed and its context is not cancelled yet. -/
theorem holder_steps {cap : Nat} {acts : List GAct} {s : GSt} (h : gRun cap acts = some s) {i : Nat}
    (hh : s.lock = .held i) (hcl : s.closing = true → s.ctx = true) : ∃ a s', a.inner = some i ∧ gStep cap s a = some s' := by
  by_cases hctx : s.ctx = true
  · have hI := GInv.reach h
    have hhold := (hI.a.lock i).1 hh
    cases hp : s.pc i with
    | idle => simp [hp, TPc.holds] at hhold
    | enq f => simp [hp, TPc.holds] at hhold
    | wait t => simp [hp, TPc.holds] at hhold
    | take t => simp [hp, TPc.holds] at hhold
    | stuck => exact ⟨.go i, _, rfl, by simp only [gStep, goStep, hp, hctx, if_true]; rfl⟩
    | collect t n =>
      cases n with
      | zero => exact ⟨.go i, _, rfl, by simp only [gStep, goStep, hp]; rfl⟩
      | succ n => exact ⟨.collCtx i, _, rfl, by simp only [gStep, hp, hctx, if_true]; rfl⟩
    | locked t => refine ⟨.go i, ?_⟩; simp only [GAct.inner, gStep, goStep, hp, true_and]; split <;> exact ⟨_, rfl⟩
    | unlockTake t => exact ⟨.go i, _, rfl, by simp only [gStep, goStep, hp]; rfl⟩
    | infl t => refine ⟨.go i, ?_⟩; simp only [GAct.inner, gStep, goStep, hp, true_and]; split <;> exact ⟨_, rfl⟩
    | inflUndo => exact ⟨.go i, _, rfl, by simp only [gStep, goStep, hp]; rfl⟩
    | register t =>
      refine ⟨.go i, ?_⟩
      simp only [GAct.inner, gStep, goStep, hp, true_and]
      repeat' split
      all_goals exact ⟨_, rfl⟩
    | write t => refine ⟨.write i s.bufs.flatten.length true, ?_⟩; simp [GAct.inner, gStep, hp]
    | dist t rel =>
      refine ⟨.go i, ?_⟩
      simp only [GAct.inner, gStep, goStep, hp, true_and]
      split
      · exact ⟨_, rfl⟩
      · next u r rest hs =>
        have := hI.b.sendSlot (u, r) (by rw [hs]; simp)
        exact ⟨_, by simp only [this, if_true]; rfl⟩
    | own t rel =>
      have hpend := hI.c.pending i t (by simp [hp, TPc.tk])
      have hclean := hI.b.clean i (by simp [hp, TPc.clean])
      have hd := hI.c.collDone i t (.inr (.inr (.inr ⟨rel, hp⟩)))
      have hs : s.slot t ≠ none := by
        rcases hpend with h | h | h | h
        · omega
        · exact h
        · simp [hclean.1] at h
        · simp [hclean.2] at h
      obtain ⟨r, hr⟩ := Option.ne_none_iff_exists'.1 hs
      exact ⟨.go i, _, rfl, by simp only [gStep, goStep, hp, hr]; rfl⟩
    | free rel t r => refine ⟨.go i, ?_⟩; simp only [GAct.inner, gStep, goStep, hp, true_and]; split <;> exact ⟨_, rfl⟩
    | release rel t r => exact ⟨.go i, _, rfl, by simp only [gStep, goStep, hp]; rfl⟩
    | unlock rel t r => exact ⟨.go i, _, rfl, by simp only [gStep, goStep, hp]; rfl⟩
  · have hc : s.closing ≠ true := fun hc => hctx (hcl hc)
    rcases C23_holder h hh with ⟨a, s', ha, hs⟩ | hx
    · refine ⟨a, s', ?_, hs⟩
      have hhold := ((GInv.reach h).a.lock i).1 hh
      cases a <;> simp only [GAct.who, Option.some.injEq, reduceCtorEq] at ha <;> try (subst ha; rfl)
      subst ha
      simp only [gStep] at hs
      split at hs <;> simp_all [TPc.holds]
    · exact absurd hx hc

/-- When nobody can take a step, nobody is inside `writeFrameBytes`, unless the connection is being closed and its
context is not cancelled yet. -/
theorem quiet_idle {cap : Nat} {acts : List GAct} {s : GSt} (h : gRun cap acts = some s) (hcap : 0 < cap)
    (hcl : s.closing = true → s.ctx = true) (hq : AtRest cap s) : ∀ i, s.pc i = .idle := by
  obtain ⟨hI, hO⟩ := GInvO.reach h
  have nolock : ∀ i, (s.pc i).holds = false := by
    intro i
    cases hh : (s.pc i).holds with
    | false => rfl
    | true =>
      obtain ⟨a, s', ha, hs⟩ := holder_steps h ((hI.a.lock i).2 hh) hcl
      rw [hq a (by simp [ha])] at hs
      simp at hs
  have hfree : s.ctx = false → s.lock = .free := by
    intro hx
    cases hl : s.lock with
    | free => rfl
    | held j => have := (hI.a.lock j).1 hl; simp [nolock] at this
    | dead => have := hcl (hI.g.dead hl); simp [hx] at this
  have nowait : ∀ i t, s.pc i ≠ .wait t := by
    intro i t hp
    by_cases hx : s.ctx = true
    · have := hq (.waitCtx i) (by simp [GAct.inner])
      simp [gStep, hp, hx] at this
    · have := hq (.lock i) (by simp [GAct.inner])
      simp [gStep, hp, hfree (by simpa using hx)] at this
  have notake : ∀ i t, s.pc i ≠ .take t := by
    intro i t hp
    obtain ⟨s', r, hs, _⟩ := C23_take h hp
    rw [hq (.go i) (by simp [GAct.inner])] at hs
    simp at hs
  intro i
  cases hp : s.pc i with
  | idle => rfl
  | wait t => exact absurd hp (nowait i t)
  | take t => exact absurd hp (notake i t)
  | enq f =>
    exfalso
    by_cases hx : s.ctx = true
    · have := hq (.enqCtx i) (by simp [GAct.inner])
      simp [gStep, hp, hx] at this
    · have he := hq (.enq i) (by simp [GAct.inner])
      simp only [gStep, hp] at he
      split at he
      · simp at he
      · have hc : s.closing = false := by
          cases hc : s.closing with
          | false => rfl
          | true => exact absurd (hcl hc) hx
        obtain ⟨j, hj⟩ := hO hc s.deq (Nat.le_refl _) (by omega)
        have h1 := nolock j
        have h2 := nowait j
        have h3 := notake j
        cases hpj : s.pc j <;> simp_all [TPc.holds, TPc.tk]
  | _ => have := nolock i; simp [hp, TPc.holds] at this

/-- **C23, everybody returns.** Let goroutines call `writeFrameBytes` in any way, up to a state `s` in which all those inside
are among the first `N`; from there on let the goroutines run, in any order, with any results of the writes and lookups, but
make no new calls. Then they take at most `N * (2 * cap + 12 + …)` steps altogether, so they do come to rest; and when they
are at rest all of them have returned: each that was waiting got a result, if the connection is still open, and an error of
the cancelled context otherwise. -/
theorem C23_all_return {cap : Nat} {acts more : List GAct} {s s' : GSt} {N : Nat} (hcap : 0 < cap) (h : gRun cap acts = some s)
    (hN : ∀ i, N ≤ i → s.pc i = .idle) (hin : ∀ a ∈ more, a.inner ≠ none) (hm : runActs (gStep cap) s more = some s') :
    more.length ≤ N * (2 * cap + 12 + s.batch.length + s.toSend.length) ∧
    (AtRest cap s' → (s'.closing = true → s'.ctx = true) →
      (∀ i, s'.pc i = .idle) ∧ (s'.closing = false → ∀ i t, (s.pc i).tk = some t → ∃ r, (t, r) ∈ s'.rets)) := by
  have hI := GInv.reach h
  have h' : gRun cap (acts ++ more) = some s' := by
    unfold gRun at h ⊢; rw [runActs_append, h]; exact hm
  constructor
  · have := run_bounded (fun s => GInv cap s ∧ ∀ i, N ≤ i → s.pc i = .idle) (fun s => sumTo N (s.rank cap)) (fun a => a.inner ≠ none)
      (step := gStep cap) ?_ more s s' ⟨hI, hN⟩ hin hm
    · have h2 := sumTo_bound (n := N) (f := s.rank cap) fun i _ => callRank_le h i
      omega
    · rintro s a s' ⟨hI, hN⟩ ha hs
      obtain ⟨i, hi⟩ := Option.ne_none_iff_exists'.1 ha
      obtain ⟨h1, h2⟩ := callRank_step hI hi hs
      have hb := GAct.inner_busy hi hs
      have hlt : i < N := by
        rcases Nat.lt_or_ge i N with h | h
        · exact h
        · exact absurd (hN i h) hb
      refine ⟨⟨hI.step hs, fun j hj => ?_⟩, ?_⟩
      · rw [(h2 j (by omega)).1]; exact hN j hj
      · refine sumTo_lt (fun j hj => ?_) hlt h1
        by_cases hji : j = i
        · subst hji; omega
        · exact Nat.le_of_eq (h2 j hji).2
  · intro hq hcl
    have hidle := quiet_idle h' hcap hcl hq
    refine ⟨hidle, fun hc i t ht => ?_⟩
    have hk : GInv cap s' ∧ TicketKept i t s' :=
      runActs_inv (P := fun s => GInv cap s ∧ TicketKept i t s) (fun s a s' ⟨h1, h2⟩ hs => ⟨h1.step hs, h2.step h1 (h1.step hs) hs⟩)
        ⟨hI, .inl ht⟩ hm
    have := hk.2
    simp only [TicketKept, hidle i, TPc.tk, hc, reduceCtorEq, or_self, exists_const, exists_false, false_or, Bool.false_eq_true, or_false] at this
    exact this

/-- Its hypotheses: two goroutines with one request each, the first about to write both; run to the end both have results. -/
example : ((gRun 2 (exTwo.take 9)).map fun s => (s.pc 0, s.pc 1)) = some (.collect 1 0, .wait 0) := by rfl

theorem idle_quiet {cap : Nat} {s : GSt} (h : ∀ i, s.pc i = .idle) : AtRest cap s := by
  intro a ha
  obtain ⟨i, hi⟩ := Option.ne_none_iff_exists'.1 ha
  cases hs : gStep cap s a with
  | none => rfl
  | some s' => exact absurd (h i) (GAct.inner_busy hi hs)

/-- … and from there on every action of the run is one of `C23_all_return`'s, the end is quiet, and both have a result. -/
example : (exTwo.drop 9).all (fun a => a.inner.isSome) = true := by rfl
example : ((gRun 2 (exTwo.take 9)).bind fun s => runActs (gStep 2) s (exTwo.drop 9)).map
    (fun s => (s.rets, s.closing, s.pc 0, s.pc 1)) = some ([(0, .ok), (1, .ok)], false, .idle, .idle) := by rfl

end Qrpc
