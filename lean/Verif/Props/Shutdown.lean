import Verif.Model.Shutdown
/-! # C42: shutdown hooks -/
namespace Qrpc

macro "sdstep_cases" hs:ident a:ident : tactic => `(tactic|
  (cases $a:ident <;>
   simp only [sdStep] at $hs:ident <;>
   (repeat' (split at $hs:ident)) <;>
   (try simp only [Option.some.injEq, reduceCtorEq] at $hs:ident) <;>
   (try contradiction) <;>
   (try subst $hs:ident)))

/-- The goroutine is between setting `done` and the end of the hooks. -/
def SdPc.runs : SdPc → Bool
  | .closeDone | .range | .run _ => true
  | _ => false

/-- It has not read `shutdownFunc` yet. -/
def SdPc.early : SdPc → Bool
  | .closeDone | .range => true
  | _ => false

/-- Hooks it is about to call. -/
def SdPc.hold : SdPc → List Nat
  | .run l => l
  | .onCall f => [f]
  | _ => []

structure SdInv (s : SdSt) : Prop where
  runs : ∀ i, (s.pc i).runs = true → s.done = true ∧ s.runner = i
  closes : s.doneCloses = if s.done = true ∧ s.pc s.runner ≠ .closeDone then 1 else 0
  hook_lt : ∀ f ∈ s.hooks, f < s.nextF
  hook_nd : s.hooks.Nodup
  call_lt : ∀ f ∈ s.called, f < s.nextF ∧ s.done = true
  call_nd : s.called.Nodup
  hold_lt : ∀ i, ∀ f ∈ (s.pc i).hold, f < s.nextF ∧ s.done = true ∧ f ∉ s.called
  hold_nd : ∀ i, (s.pc i).hold.Nodup
  hold1 : ∀ i j f, f ∈ (s.pc i).hold → f ∈ (s.pc j).hold → i = j
  early : ∀ i, (s.pc i).early = true → ∀ f ∈ s.hooks, f ∉ s.called ∧ ∀ j, f ∉ (s.pc j).hold
  all : ∀ f, f < s.nextF → f ∈ s.called ∨ (f ∈ s.hooks ∧ (s.done = true → (s.pc s.runner).early = true)) ∨
    f ∈ (s.pc s.runner).hold ∨ f ∈ (s.pc (s.caller f)).hold

set_option maxHeartbeats 1000000 in
theorem SdInv.step {s s' : SdSt} {a : SdAct} (h : SdInv s) (hs : sdStep s a = some s') : SdInv s' := by
  obtain ⟨h1, h2, h3, h4, h5, h6, h7, h8, h9, h10, h11⟩ := h
  have e1 : ∀ i, (s.pc i).early = true → (s.pc i).runs = true := by
    intro i; cases s.pc i <;> simp [SdPc.early, SdPc.runs]
  sdstep_cases hs a
  all_goals constructor
  all_goals try simp only []
  all_goals try first
    | assumption
    | grind [setAt, SdPc.runs, SdPc.early, SdPc.hold]

theorem SdInv.reach {acts s} (h : sdRun acts = some s) : SdInv s := by
  refine runActs_inv (P := SdInv) (fun _ _ _ h hs => h.step hs) ?_ h
  constructor <;> simp [SdSt.init, SdPc.runs, SdPc.early, SdPc.hold]

/-- **C42, at most once.** In every execution no hook is called twice, none before the server is shut down, and doneChan is
closed at most once. -/
theorem C42_at_most_once {acts : List SdAct} {s : SdSt} (hrun : sdRun acts = some s) :
    s.called.Nodup ∧ (∀ f ∈ s.called, f < s.nextF ∧ s.done = true) ∧ s.doneCloses ≤ 1 := by
  have h := SdInv.reach hrun
  refine ⟨h.call_nd, h.call_lt, ?_⟩
  rw [h.closes]; split <;> omega

/-- **C42, exactly once.** In every execution, when every call of Shutdown and OnShutdown has returned, the hooks called are
exactly all registered ones if the server has been shut down, each once, and none otherwise. -/
theorem C42_quiescent {acts : List SdAct} {s : SdSt} (hrun : sdRun acts = some s) (hq : ∀ i, s.pc i = .idle) {f : Nat}
    (hf : f < s.nextF) : s.called.count f = if s.done then 1 else 0 := by
  have h := SdInv.reach hrun
  cases hd : s.done with
  | false =>
    simp only [Bool.false_eq_true, if_false]
    exact List.count_eq_zero.mpr fun hm => by have := (h.call_lt f hm).2; simp [hd] at this
  | true =>
    rw [if_pos rfl, h.call_nd.count, if_pos]
    rcases h.all f hf with h1 | ⟨_, h1⟩ | h1 | h1
    · exact h1
    · have := h1 hd; simp [hq, SdPc.early] at this
    · simp [hq, SdPc.hold] at h1
    · simp [hq, SdPc.hold] at h1

/-- And no goroutine is ever blocked inside Shutdown or OnShutdown, except in `wg.Wait`. -/
theorem C42_progress {s : SdSt} {i : Nat} (h : s.pc i ≠ .idle) :
    ∃ a s', sdStep s a = some s' ∧ (a = .go i ∨ ∃ e, a = .sect i e) := by
  cases hp : s.pc i with
  | idle => exact absurd hp h
  | lock =>
    refine ⟨.sect i false, ?_⟩
    simp only [sdStep, hp]
    split <;> exact ⟨_, rfl, .inr ⟨_, rfl⟩⟩
  | onLock =>
    have : ∃ s', sdStep s (.go i) = some s' := by simp only [sdStep, hp]; split <;> exact ⟨_, rfl⟩
    exact ⟨_, this.choose, this.choose_spec, .inl rfl⟩
  | run l =>
    have : ∃ s', sdStep s (.go i) = some s' := by simp only [sdStep, hp]; split <;> exact ⟨_, rfl⟩
    exact ⟨_, this.choose, this.choose_spec, .inl rfl⟩
  | closeDone | range | wait | onCall f =>
    exact ⟨.go i, _, by simp only [sdStep, hp]; rfl, .inl rfl⟩

/-- A Shutdown that fails on a listener runs no hook; a later one does. -/
def exShutdown : List SdAct :=
  [.onShutdown 0, .go 0, .shutdown 0, .sect 0 true, .onShutdown 0, .go 0, .shutdown 0, .shutdown 1, .sect 1 false, .sect 0 false,
   .onShutdown 2, .go 2, .go 1, .go 1, .go 1, .go 2, .go 0, .go 1, .go 1, .go 1]
example : (sdRun exShutdown).map (fun s => (s.called, s.rets, s.doneCloses, s.nextF)) =
    some ([0, 2, 1], [.listenerErr, .ok, .ok], 1, 3) := by rfl

end Qrpc
