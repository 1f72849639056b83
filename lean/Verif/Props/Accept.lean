import Verif.Model.Accept
/-! # C43, C64, C65: the accept loop -/
namespace Qrpc

/-! ## C43 -/

namespace Spec

/-- Temporary errors since the last successful accept (latest result first). -/
def temps : List AcRes → Nat
  | .temp :: r => temps r + 1
  | .fatal :: r => temps r
  | _ => 0

/-- The waits that the results of Accept call for, latest first: 5 ms, 10 ms, 20 ms, ... at most 1 s after temporary errors, 1 s
after any other. -/
def waits : List AcRes → List Nat
  | .temp :: r => min (5 * 2 ^ temps r) 1000 :: waits r
  | .fatal :: r => 1000 :: waits r
  | .ok :: r => waits r
  | [] => []

end Spec

theorem two_pow_ge {k : Nat} (h : 8 ≤ k) : 256 ≤ 2 ^ k := by
  have := Nat.pow_le_pow_right (n := 2) (by omega) h
  omega

/-- What tempDelay is after `k` temporary errors. -/
def tempOf : Nat → Nat
  | 0 => 0
  | k + 1 => min (5 * 2 ^ k) 1000

theorem tempOf_succ (k : Nat) :
    (if (if tempOf k = 0 then 5 else tempOf k * 2) > 1000 then 1000 else (if tempOf k = 0 then 5 else tempOf k * 2))
      = min (5 * 2 ^ k) 1000 := by
  cases k with
  | zero => simp [tempOf]
  | succ k =>
    have : 0 < 2 ^ k := Nat.two_pow_pos k
    simp only [tempOf, Nat.pow_succ]
    grind

macro "acstep_cases" hs:ident a:ident : tactic => `(tactic|
  (cases $a:ident <;>
   simp only [acStep] at $hs:ident <;>
   (repeat' (split at $hs:ident)) <;>
   (try simp only [Option.some.injEq, reduceCtorEq] at $hs:ident) <;>
   (try contradiction) <;>
   (try subst $hs:ident)))

def AcPc.pending : AcPc → List Nat
  | .sleep d => [d]
  | _ => []

structure AcInv (s : AcSt) : Prop where
  delay : s.tempDelay = tempOf (Spec.temps s.results)
  sleeps : s.pc.pending ++ s.sleeps = Spec.waits s.results

theorem AcInv.step {cf : AcConf} {s s' : AcSt} {a : AcAct} (h : AcInv s) (hs : acStep cf s a = some s') : AcInv s' := by
  obtain ⟨h1, h2⟩ := h
  have h3 := tempOf_succ (Spec.temps s.results)
  rw [← h1] at h3
  acstep_cases hs a
  all_goals constructor
  all_goals try simp only []
  all_goals try first
    | assumption
    | grind [AcPc.pending, Spec.temps, Spec.waits, tempOf]

theorem AcInv.reach {cf acts s} (h : acRun cf acts = some s) : AcInv s := by
  refine runActs_inv (P := AcInv) (fun _ _ _ h hs => h.step hs) ?_ h
  constructor <;> simp [AcSt.init, AcPc.pending, Spec.temps, Spec.waits, tempOf]

/-- **C43, back-off.** In every execution the waits so far, and the one in progress, are those that the results of Accept call
for; no wait exceeds one second. -/
theorem C43_waits {cf : AcConf} {acts : List AcAct} {s : AcSt} (h : acRun cf acts = some s) :
    s.pc.pending ++ s.sleeps = Spec.waits s.results ∧ ∀ d ∈ s.pc.pending ++ s.sleeps, d ≤ 1000 := by
  refine ⟨(AcInv.reach h).sleeps, ?_⟩
  rw [(AcInv.reach h).sleeps]
  generalize s.results = r
  induction r with
  | nil => simp [Spec.waits]
  | cons x r ih =>
    cases x <;> simp only [Spec.waits, List.mem_cons, forall_eq_or_imp] <;>
      first | exact ih | exact ⟨Nat.min_le_right _ _, ih⟩ | exact ⟨Nat.le_refl _, ih⟩

/-- After a successful accept the next temporary error is followed by a wait of 5 ms; and `k` temporary errors in a row after it
are followed by waits of 5, 10, ..., min(5·2^(k-1), 1000) ms. -/
theorem C43_doubling (r : List AcRes) (k : Nat) :
    Spec.waits (List.replicate (k + 1) .temp ++ .ok :: r) =
      min (5 * 2 ^ k) 1000 :: Spec.waits (List.replicate k .temp ++ .ok :: r) := by
  have h : ∀ k, Spec.temps (List.replicate k .temp ++ .ok :: r) = k := by
    intro k
    induction k with
    | zero => rfl
    | succ k ih => simp only [List.replicate_succ, List.cons_append, Spec.temps, ih]
  simp only [List.replicate_succ, List.cons_append, Spec.waits, h]

/-- The loop has left. -/
def AcPc.left : AcPc → Bool
  | .untrack | .closeLn | .ended => true
  | _ => false

/-- **C43, the server goes on.** In every execution the loop has been left only if Shutdown has closed doneChan; and otherwise,
whatever Accept has returned so far, the goroutine can take its next step by itself or is in Accept. -/
theorem C43_goes_on {cf : AcConf} {acts : List AcAct} {s : AcSt} (h : acRun cf acts = some s) :
    (s.pc.left = true → s.doneCh = true) ∧
    (s.doneCh = false → s.pc = .accept ∨ ∃ s', acStep cf s .go = some s') := by
  have key : s.pc.left = true → s.doneCh = true := by
    refine runActs_inv (P := fun s => s.pc.left = true → s.doneCh = true) ?_ ?_ h
    · intro s a s' hi hs
      acstep_cases hs a
      all_goals grind [AcPc.left]
    · simp [AcSt.init, AcPc.left]
  refine ⟨key, fun hd => ?_⟩
  cases hp : s.pc with
  | accept => exact .inl rfl
  | ended => rw [hp] at key; have := key rfl; simp [hd] at this
  | check r => right; cases r <;> exact ⟨_, by simp only [acStep, hp, hd]; rfl⟩
  | hook c => right; simp only [acStep, hp]; split <;> exact ⟨_, rfl⟩
  | track | throttle | sleep d | reject c | notify c | spawn c | untrack | closeLn =>
    right; exact ⟨_, by simp only [acStep, hp]; rfl⟩

def exAccConf : AcConf := { hasAccept := true, hasClose := true, tcp := fun c => c != 1, reject := fun c => c == 2 }
def exAcc : List AcAct :=
  [.go, .go, .err true, .go, .go, .go, .err true, .go, .go, .go, .err false, .go, .go, .go, .err true, .go, .go,
   .go, .conn, .go, .go, .go, .err true, .go, .go]
example : (acRun exAccConf exAcc).map (fun s => (s.sleeps, s.results, s.served)) =
    some ([5, 20, 1000, 10, 5], [.temp, .ok, .temp, .fatal, .temp, .temp], [0]) := by rfl

/-! ## C64 -/

/-- The connection the loop is dealing with. -/
def AcPc.conn? : AcPc → Option Nat
  | .hook c | .reject c | .spawn c => some c
  | _ => none

structure AcCInv (cf : AcConf) (s : AcSt) : Prop where
  hold : ∀ c, s.pc.conn? = some c → c < s.nextC ∧ cf.tcp c = true ∧ c ∉ s.served ∧ c ∉ s.closed
  served : ∀ c ∈ s.served, c < s.nextC ∧ cf.tcp c = true ∧ c ∉ s.closed ∧ (cf.hasAccept && cf.reject c) = false
  closed : ∀ c ∈ s.closed, c < s.nextC ∧ cf.tcp c = true ∧ (cf.hasAccept && cf.reject c) = true ∧
    (cf.hasClose = true → c ∈ s.notified ∨ s.pc = .notify c)
  rej : ∀ c, s.pc = .reject c → (cf.hasAccept && cf.reject c) = true
  spawn : ∀ c, s.pc = .spawn c → (cf.hasAccept && cf.reject c) = false
  notify : ∀ c, s.pc = .notify c → c ∈ s.closed ∧ c ∉ s.notified ∧ cf.hasClose = true
  notified : ∀ c ∈ s.notified, c ∈ s.closed ∧ cf.hasClose = true
  snd : s.served.Nodup
  cnd : s.closed.Nodup
  nnd : s.notified.Nodup
  all : ∀ c, c < s.nextC → cf.tcp c = true → s.pc.conn? = some c ∨ c ∈ s.served ∨ c ∈ s.closed

theorem AcCInv.step {cf : AcConf} {s s' : AcSt} {a : AcAct} (h : AcCInv cf s) (hs : acStep cf s a = some s') : AcCInv cf s' := by
  obtain ⟨h1, h2, h3, h4, h5, h6, h7, h8, h9, h10, h11⟩ := h
  acstep_cases hs a
  all_goals constructor
  all_goals try simp only []
  all_goals try first
    | assumption
    | grind [AcPc.conn?]

theorem AcCInv.reach {cf acts s} (h : acRun cf acts = some s) : AcCInv cf s := by
  refine runActs_inv (P := AcCInv cf) (fun _ _ _ h hs => h.step hs) ?_ h
  constructor <;> simp [AcSt.init, AcPc.conn?]

/-- **C64 (partial).** In every execution, an accepted connection that implements TCPConn is in the hands of the loop, or it has
been handed to its serving goroutine exactly once and not closed, or it was rejected by OnAccept, has been closed exactly once and
OnClose (if any) has been or is about to be told, once. Missing: connections that do not implement TCPConn. -/
theorem C64_partial {cf : AcConf} {acts : List AcAct} {s : AcSt} (h : acRun cf acts = some s) {c : Nat} (hc : c < s.nextC)
    (ht : cf.tcp c = true) :
    s.pc.conn? = some c ∨
    (s.served.count c = 1 ∧ s.closed.count c = 0 ∧ (cf.hasAccept && cf.reject c) = false) ∨
    (s.closed.count c = 1 ∧ s.served.count c = 0 ∧ (cf.hasAccept && cf.reject c) = true ∧
      (cf.hasClose = true → s.pc = .notify c ∨ s.notified.count c = 1)) := by
  have hi := AcCInv.reach h
  rcases hi.all c hc ht with h1 | h1 | h1
  · exact .inl h1
  · obtain ⟨_, _, h2, h3⟩ := hi.served c h1
    exact .inr (.inl ⟨by rw [hi.snd.count, if_pos h1], List.count_eq_zero.mpr h2, h3⟩)
  · obtain ⟨_, _, h2, h3⟩ := hi.closed c h1
    refine .inr (.inr ⟨by rw [hi.cnd.count, if_pos h1], List.count_eq_zero.mpr fun hm => (hi.served c hm).2.2.1 h1, h2, ?_⟩)
    intro hcl
    rcases h3 hcl with h4 | h4
    · exact .inr (by rw [hi.nnd.count, if_pos h4])
    · exact .inl h4

/-- **C64 is false.** A connection returned by the inner listener that does not implement TCPConn is never served and never closed,
in any execution: TCPKeepAliveListener.Accept returns an error together with the open connection and Serve drops it. -/
theorem C64_refuted_leak {cf : AcConf} {acts : List AcAct} {s : AcSt} (h : acRun cf acts = some s) {c : Nat}
    (ht : cf.tcp c = false) : c ∉ s.served ∧ c ∉ s.closed := by
  have hi := AcCInv.reach h
  exact ⟨fun hm => by have := (hi.served c hm).2.1; simp [ht] at this, fun hm => by have := (hi.closed c hm).2.1; simp [ht] at this⟩

theorem C64_refuted : ∃ cf acts s, acRun cf acts = some s ∧ s.nextC = 3 ∧ 1 ∉ s.served ∧ 1 ∉ s.closed ∧
    s.served = [0] ∧ s.closed = [2] ∧ s.pc = .throttle :=
  ⟨exAccConf, [.go, .go, .conn, .go, .go, .go, .conn, .go, .go, .go, .conn, .go, .go, .go], _, rfl, by decide⟩

/-! ## C65 -/

/-- **C65 (partial).** If the listener was tracked when Shutdown ran, the inner listener is closed from then on and no connection
has been accepted after that. Missing: a Shutdown before Serve tracks its listener. -/
theorem C65_partial {cf : AcConf} {acts : List AcAct} {s : AcSt} (h : acRun cf acts = some s) (ht : s.everTracked = true) :
    s.lnClosed = true ∧ s.late = [] := by
  have := runActs_inv (step := acStep cf) (P := fun s => (s.done = false → s.everTracked = false ∧ s.late = []) ∧
    (s.everTracked = true → s.lnClosed = true ∧ s.late = [])) ?_ ?_ h
  · exact this.2 ht
  · intro s a s' hi hs
    acstep_cases hs a
    all_goals grind
  · simp [AcSt.init]

example : (acRun exAccConf [.go, .go, .conn, .go, .sdSect, .go, .go, .err false, .go, .go, .sdClose, .go, .err false, .go, .go, .go]).map
    (fun s => (s.everTracked, s.lnClosed, s.served, s.late, s.pc)) = some (true, true, [0], [], .ended) := by rfl

/-- One accepted and served connection. -/
def accRound : List AcAct := [.go, .conn, .go, .go]

def accNext (s : AcSt) : AcSt :=
  { s with nextC := s.nextC + 1, late := s.nextC :: s.late, tempDelay := 0, results := .ok :: s.results,
           served := s.nextC :: s.served }

/-- **C65 is false.** If Shutdown runs to its end before Serve tracks its listener, the server accepts and serves any number of
connections afterwards. -/
theorem C65_refuted (n : Nat) : ∃ acts s, acRun { hasAccept := false, hasClose := false, tcp := fun _ => true, reject := fun _ => false }
    ([.sdSect, .sdClose] ++ acts) = some s ∧ s.done = true ∧ s.doneCh = true ∧ s.late.length = n ∧ s.served = s.late := by
  suffices h : ∃ acts s, acRun { hasAccept := false, hasClose := false, tcp := fun _ => true, reject := fun _ => false }
      ([.sdSect, .sdClose] ++ acts) = some s ∧ s.done = true ∧ s.doneCh = true ∧ s.late.length = n ∧ s.served = s.late ∧
      s.pc = .throttle ∧ s.lnClosed = false by
    obtain ⟨a, s, h1, h2, h3, h4, h5, _⟩ := h
    exact ⟨a, s, h1, h2, h3, h4, h5⟩
  induction n with
  | zero => exact ⟨[.go], _, rfl, by decide⟩
  | succ n ih =>
    obtain ⟨a, s, h1, h2, h3, h4, h5, h6, h7⟩ := ih
    refine ⟨a ++ accRound, accNext s, ?_, h2, h3, by simp [accNext, h4], by simp [accNext, h5], h6, h7⟩
    rw [← List.append_assoc, acRun, runActs_append]
    rw [acRun] at h1
    rw [h1]
    cases s
    simp only at h2 h6 h7
    subst h2 h6 h7
    simp [accRound, accNext, runActs, acStep]

end Qrpc
