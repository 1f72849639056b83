import Verif.Props.ServeWrite
import Verif.Model.Kick
/-! # C63: kicking a connection that cannot be written to any more -/
namespace Qrpc

/-- OnKickCB of the kicker waits for a result that nobody will send. -/
structure KDead (kicker : Nat) (s : KSt) : Prop where
  phase : ∃ m, s.phase = .callback m
  dead : s.g.lock = .dead
  nohold : ∀ i, (s.g.pc i).holds = false
  ctx : s.g.ctx = false
  conn : s.g.connClosed = false
  pc : ∃ t, s.g.pc kicker = .wait t ∧ s.g.slot t = none

/-- The goroutine step `a` leaves the kicker where it is. -/
theorem KDead.gstep {cap kicker : Nat} {s : KSt} {a : GAct} {g' : GSt} (h : KDead kicker s) (hc : a ≠ .connClose)
    (hx : a ≠ .cancel) (hk : ∀ f, a ≠ .call kicker f) (hs : gStep cap s.g a = some g') : KDead kicker ⟨g', s.phase⟩ := by
  obtain ⟨h1, h2, h3, h4, h5, t, h6, h7⟩ := h
  have hh : ∀ i, (s.g.pc i).holds = false := h3
  have key : g'.lock = .dead ∧ (∀ i, (g'.pc i).holds = false) ∧ g'.ctx = false ∧ g'.connClosed = false ∧
      g'.pc kicker = .wait t ∧ g'.slot t = none := by
    clear h1
    generalize s.g = g at *
    cases a <;> simp only [gStep, goStep] at hs
    all_goals (repeat' (split at hs))
    all_goals (try simp only [Option.some.injEq, reduceCtorEq] at hs)
    all_goals (try contradiction)
    all_goals (try subst hs)
    all_goals first
      | (exact absurd rfl hc)
      | (exact absurd rfl hx)
      | exact ⟨h2, h3, h4, h5, h6, h7⟩
      | (refine ⟨?_, ?_, ?_, ?_, ?_, ?_⟩ <;> grind [setAt, TPc.holds])
  exact ⟨h1, key.1, key.2.1, key.2.2.1, key.2.2.2.1, t, key.2.2.2.2.1, key.2.2.2.2.2⟩

theorem KDead.step {cap kicker : Nat} {s s' : KSt} {a : KAct} (h : KDead kicker s) (hs : kStep cap kicker s a = some s') :
    KDead kicker s' := by
  obtain ⟨m, hm⟩ := h.phase
  obtain ⟨t, ht, _⟩ := h.pc
  cases a with
  | kick n => simp [kStep, hm] at hs
  | otherClose => simp [kStep, hm] at hs
  | cbCall f =>
    simp only [kStep, hm, gStep, ht] at hs
    cases m <;> simp at hs
  | cbRet =>
    simp only [kStep, hm, ht] at hs
    cases m <;> simp at hs
  | g a =>
    cases a
    case close => simp [kStep] at hs
    case connClose => simp [kStep, hm] at hs
    case cancel => simp [kStep, hm] at hs
    case readerQuit => simp [kStep, hm] at hs
    case call i f =>
      simp only [kStep] at hs
      split at hs
      · cases hs
      · next hi =>
        obtain ⟨g', hg, rfl⟩ := Option.map_eq_some_iff.mp hs
        refine h.gstep ?_ ?_ ?_ hg
        · simp
        · simp
        · intro f' he; cases he; exact hi rfl
    all_goals
      simp only [kStep] at hs
      obtain ⟨g', hg, rfl⟩ := Option.map_eq_some_iff.mp hs
      exact h.gstep (by simp) (by simp) (by simp) hg

/-- **C63 is false of the code.** Once a write to the connection has failed after the kick began, a write of OnKickCB never
returns: in no continuation - whatever all other goroutines do, short of shutting down the server - does OnKickCB return, so neither the `SetID` that kicks nor
any `Close` of the connection returns, and its context is never cancelled. -/
theorem C63_refuted_forever {cap kicker : Nat} {s s' : KSt} {more : List KAct} (h : KDead kicker s)
    (hr : runActs (kStep cap kicker) s more = some s') :
    (∃ m, s'.phase = .callback m) ∧ (∃ t, s'.g.pc kicker = .wait t) ∧ s'.g.ctx = false := by
  have := runActs_inv (P := KDead kicker) (fun _ _ _ h hs => h.step hs) h hr
  obtain ⟨t, ht, _⟩ := this.pc
  exact ⟨this.phase, ⟨t, ht⟩, this.ctx⟩

def kf : SFrame := ⟨[1, 2], false, false, true, false⟩

/-- A handler writes a frame; meanwhile the connection is kicked; the peer is gone, so the write fails. Then OnKickCB writes
its only frame. -/
def exKickDead : List KAct :=
  [.g (.call 1 kf), .g (.enq 1), .g (.lock 1), .g (.go 1), .g (.go 1), .g (.deq 1 true true), .kick 1, .g (.go 1), .g (.go 1),
   .g (.write 1 0 false), .g (.go 1), .g (.go 1), .g (.go 1), .g (.go 1), .g (.go 1), .cbCall kf, .g (.enq 0)]

/-- Such states are reached. -/
theorem C63_refuted : ∃ s, kRun 4 0 exKickDead = some s ∧ KDead 0 s ∧ s.g.rets = [(0, .fail .transport)] := by
  refine ⟨_, rfl, ⟨⟨0, rfl⟩, rfl, ?_, rfl, rfl, ⟨1, rfl, rfl⟩⟩, rfl⟩
  intro i
  by_cases h0 : i = 0
  · subst h0; rfl
  by_cases h1 : i = 1
  · subst h1; rfl
  · simp [KSt.init, GSt.init, setAt, h0, h1, TPc.holds]

/-- Two frames written by OnKickCB alone suffice, with no other goroutine. -/
theorem C63_refuted_alone : ∃ s, kRun 4 0 [.kick 2, .cbCall kf, .g (.enq 0), .g (.lock 0), .g (.go 0), .g (.go 0),
    .g (.deq 0 true true), .g (.go 0), .g (.go 0), .g (.write 0 0 false), .g (.go 0), .g (.go 0), .g (.go 0), .g (.go 0),
    .g (.go 0), .cbCall kf, .g (.enq 0)] = some s ∧ KDead 0 s := by
  refine ⟨_, rfl, ⟨⟨0, rfl⟩, rfl, ?_, rfl, rfl, ⟨1, rfl, rfl⟩⟩⟩
  intro i
  by_cases h0 : i = 0
  · subst h0; rfl
  · simp [KSt.init, GSt.init, setAt, h0, TPc.holds]

/-- What is known of the connection while it is not being closed (other than by the kicker). -/
structure KInv (cap : Nat) (s : KSt) : Prop where
  g : GInv cap s.g
  reader : s.phase = .open ∨ (∃ m, s.phase = .callback m) → s.g.reader = .running ∧ s.g.ctx = false ∧ s.g.connClosed = false
  keeps : s.phase = .open ∨ (∃ m, s.phase = .callback m) →
    (s.g.broken = true ∨ (s.g.lock ≠ .dead ∧ ∀ i, (s.g.pc i).keeps = false))

theorem KInv.init (cap : Nat) : KInv cap KSt.init :=
  ⟨.init cap, fun _ => ⟨rfl, rfl, rfl⟩, fun _ => .inr ⟨by simp [KSt.init, GSt.init], fun _ => rfl⟩⟩

theorem GSt.keeps_step {cap : Nat} {g g' : GSt} {a : GAct} (hI : GInv cap g) (hr : g.reader = .running) (hx : g.ctx = false)
    (hc : g.connClosed = false) (h : g.broken = true ∨ (g.lock ≠ .dead ∧ ∀ i, (g.pc i).keeps = false))
    (hs : gStep cap g a = some g') (h1 : a ≠ .connClose) (h2 : a ≠ .cancel) (h3 : a ≠ .readerQuit) :
    (g'.reader = .running ∧ g'.ctx = false ∧ g'.connClosed = false) ∧
      (g'.broken = true ∨ (g'.lock ≠ .dead ∧ ∀ i, (g'.pc i).keeps = false)) := by
  have hcount := hI.f.count
  have hcnt : ∀ i t, g.pc i = .infl t → g.inflight = 1 := by
    intro i t hp
    have := (hI.a.lock i).2 (by simp [hp, TPc.holds])
    rw [this, heldBy_held, hp, hr] at hcount
    simpa [RdPc.alive, TPc.counted] using hcount
  clear hI hcount
  cases a <;> simp only [gStep, goStep] at hs
  all_goals (repeat' (split at hs))
  all_goals (try simp only [Option.some.injEq, reduceCtorEq] at hs)
  all_goals (try contradiction)
  all_goals (try subst hs)
  all_goals first
    | exact ⟨⟨hr, hx, hc⟩, h⟩
    | (exact absurd rfl h1)
    | (exact absurd rfl h2)
    | (exact absurd rfl h3)
    | (refine ⟨⟨?_, ?_, ?_⟩, ?_⟩ <;> grind [setAt, TPc.keeps])

theorem KInv.step {cap kicker : Nat} {s s' : KSt} {a : KAct} (h : KInv cap s) (hs : kStep cap kicker s a = some s') :
    KInv cap s' := by
  have gen : ∀ b g' p', gStep cap s.g b = some g' → (p' = .open ∨ (∃ m, p' = .callback m) →
      s.phase = .open ∨ (∃ m, s.phase = .callback m)) →
      (p' = .open ∨ (∃ m, p' = .callback m) → b ≠ .connClose ∧ b ≠ .cancel ∧ b ≠ .readerQuit) → KInv cap ⟨g', p'⟩ := by
    intro b g' p' hg hp hb
    have hk := fun hh => GSt.keeps_step h.g (h.reader (hp hh)).1 (h.reader (hp hh)).2.1 (h.reader (hp hh)).2.2
      (h.keeps (hp hh)) hg (hb hh).1 (hb hh).2.1 (hb hh).2.2
    exact ⟨h.g.step hg, fun hh => (hk hh).1, fun hh => (hk hh).2⟩
  cases a with
  | kick m =>
    simp only [kStep] at hs
    split at hs
    · next hp =>
      obtain ⟨g', hg, rfl⟩ := Option.map_eq_some_iff.mp hs
      exact gen _ _ _ hg (fun _ => .inl hp) (by simp)
    · cases hs
  | otherClose =>
    simp only [kStep] at hs
    split at hs
    · obtain ⟨g', hg, rfl⟩ := Option.map_eq_some_iff.mp hs
      exact gen _ _ _ hg (by simp) (by simp)
    · cases hs
  | cbCall f =>
    simp only [kStep] at hs
    split at hs
    · next hp =>
      obtain ⟨g', hg, rfl⟩ := Option.map_eq_some_iff.mp hs
      exact gen _ _ _ hg (fun _ => .inr ⟨_, hp⟩) (by simp)
    · cases hs
  | cbRet =>
    simp only [kStep] at hs
    split at hs
    · split at hs
      · cases hs; exact ⟨h.g, by simp, by simp⟩
      · cases hs
    · cases hs
  | g b =>
    cases b
    case close => simp [kStep] at hs
    case call i f =>
      simp only [kStep] at hs
      split at hs
      · cases hs
      · obtain ⟨g', hg, rfl⟩ := Option.map_eq_some_iff.mp hs
        exact gen _ _ _ hg id (by simp)
    case connClose | cancel | readerQuit =>
      simp only [kStep] at hs
      split at hs
      · next hp =>
        obtain ⟨g', hg, rfl⟩ := Option.map_eq_some_iff.mp hs
        refine gen _ _ _ hg id ?_
        rintro (h1 | ⟨m, h1⟩) <;> simp [h1] at hp
      · cases hs
    all_goals
      simp only [kStep] at hs
      obtain ⟨g', hg, rfl⟩ := Option.map_eq_some_iff.mp hs
      exact gen _ _ _ hg id (by simp)

theorem KInv.reach {cap kicker acts s} (h : kRun cap kicker acts = some s) : KInv cap s :=
  runActs_inv (fun _ _ _ h hs => h.step hs) (.init cap) h

/-- **C63** as long as no write to the connection has failed: while OnKickCB waits for the result of a write, it can receive
it, or take the lock, or another goroutine holds the lock and will release it (it is at no point where it keeps it).
Missing: writes that fail, see `C63_refuted`. -/
theorem C63_partial {cap kicker : Nat} {acts : List KAct} {s : KSt} (h : kRun cap kicker acts = some s) {m t : Nat}
    (hp : s.phase = .callback m) (hb : s.g.broken = false) (hw : s.g.pc kicker = .wait t) :
    (∃ s', kStep cap kicker s (.g (.recv kicker)) = some s') ∨ (∃ s', kStep cap kicker s (.g (.lock kicker)) = some s') ∨
    (∃ j, j ≠ kicker ∧ s.g.lock = .held j ∧ (s.g.pc j).keeps = false) := by
  have hI := KInv.reach h
  have hk := (hI.keeps (.inr ⟨m, hp⟩)).resolve_left (by simp [hb])
  cases hl : s.g.lock with
  | dead => exact absurd hl hk.1
  | free => right; left; simp [kStep, gStep, hw, hl]
  | held j =>
    right; right
    refine ⟨j, ?_, rfl, hk.2 j⟩
    rintro rfl
    have := (hI.g.a.lock j).1 hl
    simp [hw, TPc.holds] at this

example : (kRun 4 0 [.kick 1, .cbCall kf, .g (.enq 0), .g (.lock 0), .g (.go 0), .g (.go 0),
    .g (.deq 0 true true), .g (.go 0), .g (.go 0), .g (.write 0 2 true), .g (.go 0), .g (.go 0), .g (.go 0), .g (.go 0),
    .g (.go 0), .cbRet]).map (fun s => (s.phase, s.g.rets, s.g.wire)) = some (.done, [(0, .ok)], [1, 2]) := by rfl

end Qrpc
