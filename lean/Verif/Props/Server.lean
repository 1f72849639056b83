import Verif.Model.Server
/-! # C72-C76: listening, serving and shutting down a whole server -/
namespace Qrpc

/-- `ListenAndServe` has not started to serve. -/
def MnPc.early : MnPc → Bool
  | .listen _ | .failed | .serve => true
  | _ => false

def SvPc.winding : SvPc → Bool
  | .cancel | .untrack | .closeLn | .ended => true
  | _ => false

structure SvInv (n : Nat) (s : SvSt) : Prop where
  early : s.main.early = true → ∀ i, s.sv i = .off ∧ s.tracked i = false
  late : s.main.early = false → ∀ i, i < n → s.sv i ≠ .off
  lt : ∀ i, s.isOpen i = true → i < n
  svlt : ∀ i, s.sv i ≠ .off → i < n
  doneCh : s.doneCh = true → s.done = true
  ended : ∀ i, s.sv i = .ended → s.isOpen i = false
  winding : ∀ i, (s.sv i).winding = true → s.doneCh = true
  sctx : ∀ i, (s.sv i).winding = true → s.sv i ≠ .cancel → s.sctx i = true
  bind : ∀ x ∈ s.conns, s.sv x.1 ≠ .off ∧ s.sv x.1 ≠ .track
  mcall : ∀ k j, s.main = .inShutdown k j → j < s.calls.length
  nz : s.main.early = false → s.main ≠ .returned → n ≠ 0
  returned : s.main = .returned → ∀ i, i < n → s.sv i = .ended
  closing : ∀ (j : Nat) (h : Option Nat), s.calls[j]? = some (ShPc.closeDone, h) → s.done = true
  trk : ∀ i, s.tracked i = true → s.sv i ≠ .off ∧ s.sv i ≠ .track

macro "svstep_cases" hs:ident a:ident : tactic =>
  `(tactic| (cases $a:ident <;> simp only [svStep] at $hs:ident <;> (repeat' (split at $hs:ident)) <;>
      first
      | (simp at $hs:ident; done)
      | (simp only [Option.some.injEq] at $hs:ident; subst $hs:ident)
      | subst $hs:ident
      | skip))

theorem SvInv.init (n : Nat) : SvInv n SvSt.init := by
  constructor <;> simp [SvSt.init, MnPc.early, SvPc.winding]

theorem SvInv.step {n : Nat} {s s' : SvSt} {a : SvAct} (h : SvInv n s) (hs : svStep n s a = some s') : SvInv n s' := by
  obtain ⟨h1, h2, h3, h4, h5, h6, h7, h8, h9, h10, h11, h12, h13, h14⟩ := h
  svstep_cases hs a
  all_goals constructor
  all_goals try first | assumption | grind [setAt, MnPc.early, SvPc.winding]

theorem SvInv.reach {n : Nat} {acts : List SvAct} {s : SvSt} (h : svRun n acts = some s) : SvInv n s :=
  runActs_inv (P := SvInv n) (fun _ _ _ hp hs => hp.step hs) (SvInv.init n) h

/-! ## C72 Listeners are closed when ListenAndServe returns -/

/-- **C72 is false**: when listening on binding `k` fails, `ListenAndServe` returns the error and the listeners of the bindings
before it stay open in every continuation, whatever is called: nothing closes them. For every number of bindings. -/
theorem C72_refuted (n k : Nat) (hk : k < n) :
    ∃ acts s, svRun n acts = some s ∧ s.main = .failed ∧
      ∀ more s', runActs (svStep n) s more = some s' → s'.main = .failed ∧ ∀ i, i < k → s'.isOpen i = true := by
  have hl : ∀ m, m ≤ k → ∃ s, runActs (svStep n) SvSt.init (List.replicate m .listenOk) = some s ∧ s.main = .listen m ∧
      ∀ i, i < m → s.isOpen i = true := by
    intro m
    induction m with
    | zero => intro _; exact ⟨_, rfl, rfl, by simp⟩
    | succ m ih =>
      intro hm
      obtain ⟨s, h1, h2, h3⟩ := ih (by omega)
      rw [List.replicate_succ', runActs_append, h1]
      have hne : ¬ m + 1 = n := by omega
      have hlt : m < n := by omega
      refine ⟨{ s with main := .listen (m + 1), isOpen := setAt s.isOpen m true }, ?_, rfl, ?_⟩
      · simp [runActs, svStep, h2, hlt, hne]
      · intro i hi
        simp only [setAt]
        split
        · rfl
        · exact h3 i (by omega)
  obtain ⟨s, h1, h2, h3⟩ := hl k (Nat.le_refl k)
  have hrun : svRun n (List.replicate k .listenOk ++ [.listenErr]) = some { s with main := .failed } := by
    rw [svRun, runActs_append, h1]
    simp [runActs, svStep, h2, hk]
  refine ⟨_, _, hrun, rfl, ?_⟩
  intro more s' hr
  have hI := SvInv.reach hrun
  suffices H : SvInv n s' ∧ s'.main = .failed ∧ ∀ i, i < k → s'.isOpen i = true from H.2
  refine runActs_inv (P := fun t => SvInv n t ∧ t.main = .failed ∧ ∀ i, i < k → t.isOpen i = true) ?_ ⟨hI, rfl, h3⟩ hr
  intro t a t' ⟨k1, k2, k3⟩ hs
  refine ⟨k1.step hs, ?_⟩
  have he := k1.early (by rw [k2]; rfl)
  svstep_cases hs a
  all_goals first | exact ⟨k2, k3⟩ | grind [setAt]

/-- **C72, partial**: when ListenAll succeeded and `ServeAll` has returned, every listener is closed. -/
theorem C72_partial {n : Nat} {acts : List SvAct} {s : SvSt} (h : svRun n acts = some s) (hm : s.main = .returned) (i : Nat) :
    s.isOpen i = false := by
  have hI := SvInv.reach h
  cases ho : s.isOpen i with
  | false => rfl
  | true =>
    have := hI.ended i (hI.returned hm i (hI.lt i ho))
    rw [this] at ho; exact absurd ho (by simp)

/-- Two bindings, one connection served, Shutdown, everything ends. -/
def exServer : List SvAct :=
  [.listenOk, .listenOk, .mainGo, .go 0, .go 0, .acceptConn 0, .go 0, .go 0, .go 1, .go 1,
   .shutdown none, .sect 0 none, .callGo 0, .callGo 0, .acceptErr 0, .go 0, .go 0, .go 0, .go 0, .connStop 0, .callGo 0,
   .acceptErr 1, .go 1, .go 1, .go 1, .go 1,
   .mainGo, .mainGo, .sect 1 none, .callGo 1, .mainGo, .mainGo, .sect 2 none, .callGo 2, .mainGo, .mainGo, .mainGo]

example : (svRun 2 exServer).map (fun s => (s.main, s.isOpen 0, s.isOpen 1, s.conns, s.calls.map (·.1))) =
    some (.returned, false, false, [(0, false)], [.ok, .ok, .ok]) := rfl

/-! ## C73 No connection is served after Shutdown returned -/

/-- **C73 is false**: Shutdown returns nil while a `Serve` goroutine holds a connection it has accepted but not yet started to
serve (`srv.wg` does not count it yet); its goroutine then starts, and handlers run, after the shutdown. -/
theorem C73_refuted :
    ∃ acts s, svRun 1 acts = some s ∧ s.calls = [(.ok, none)] ∧ s.conns = [] ∧
      ∃ s', svStep 1 s (.go 0) = some s' ∧ s'.conns = [(0, true)] :=
  ⟨[.listenOk, .mainGo, .go 0, .go 0, .acceptConn 0, .shutdown none, .sect 0 none, .callGo 0, .callGo 0, .callGo 0],
    _, rfl, rfl, rfl, _, rfl, rfl⟩

/-- Nothing is or will be served. -/
structure SvQuiet (s : SvSt) : Prop where
  main : ∀ k, s.main ≠ .listen k
  spawn : ∀ i, s.sv i ≠ .spawn
  conns : ∀ x ∈ s.conns, x.2 = false
  closed : ∀ i, s.isOpen i = false

theorem SvQuiet.step {n : Nat} {s s' : SvSt} {a : SvAct} (h : SvQuiet s) (hs : svStep n s a = some s') : SvQuiet s' := by
  obtain ⟨h1, h2, h3, h4⟩ := h
  svstep_cases hs a
  all_goals constructor
  all_goals try first | assumption | grind [setAt]

/-- All listeners closed for good. -/
structure SvShut (n : Nat) (s : SvSt) : Prop where
  main : ∀ k, s.main ≠ .listen k
  closed : ∀ i, s.isOpen i = false

theorem SvShut.step {n : Nat} {s s' : SvSt} {a : SvAct} (h : SvShut n s) (hs : svStep n s a = some s') : SvShut n s' := by
  obtain ⟨h1, h4⟩ := h
  svstep_cases hs a
  all_goals constructor
  all_goals try first | assumption | grind [setAt]

/-- **C73, partial**: if all listeners were tracked when a Shutdown closed them (`sect`; see C65), and at the moment a call of
Shutdown returns nil no `Serve` goroutine holds a connection it has accepted and not yet started, then no connection goroutine is
running at that moment or ever after. -/
theorem C73_partial {n : Nat} {acts mid more : List SvAct} {s0 s1 s2 s3 s4 : SvSt} {j j' : Nat} (h0 : svRun n acts = some s0)
    (hnd : s0.done = false) (htr : ∀ i, i < n → s0.tracked i = true) (hn : 0 < n) (h1 : svStep n s0 (.sect j none) = some s1)
    (h2 : runActs (svStep n) s1 mid = some s2) {h : Option Nat} (hw : s2.calls[j']? = some (.wait, h))
    (h3 : svStep n s2 (.callGo j') = some s3) (hsp : ∀ i, s3.sv i ≠ .spawn)
    (h4 : runActs (svStep n) s3 more = some s4) : ∀ x ∈ s4.conns, x.2 = false := by
  have hI := SvInv.reach h0
  have hmain : ∀ k, s0.main ≠ .listen k := by
    intro k hk
    have := (hI.early (by rw [hk]; rfl) 0).2
    rw [htr 0 hn] at this; exact absurd this (by simp)
  have hs1 : SvShut n s1 := by
    simp only [svStep] at h1
    split at h1
    · rw [hnd] at h1
      simp only [Bool.false_eq_true, if_false, Option.some.injEq] at h1
      subst h1
      refine ⟨hmain, ?_⟩
      intro i
      cases ho : s0.isOpen i with
      | false => simp [ho]
      | true => simp [ho, hI.lt i ho, htr i (hI.lt i ho)]
    · simp at h1
  have hs2 : SvShut n s2 := runActs_inv (P := SvShut n) (fun _ _ _ hp hs => hp.step hs) hs1 h2
  have hs3 : SvShut n s3 := hs2.step h3
  have hc3 : ∀ x ∈ s3.conns, x.2 = false := by
    simp only [svStep, hw] at h3
    split at h3
    · next hall =>
      simp only [Option.some.injEq] at h3; subst h3
      intro x hx
      have := List.all_eq_true.mp hall x hx
      simpa using this
    · simp at h3
  have hq : SvQuiet s3 := ⟨hs3.main, hsp, hc3, hs3.closed⟩
  exact (runActs_inv (P := SvQuiet) (fun _ _ _ hp hs => hp.step hs) hq h4).conns

/-- Its hypotheses: both listeners are tracked, Shutdown goes through its section, waits, and returns; nobody is about to start
serving a connection. -/
example : (svRun 2 (exServer.take 11)).map (fun s => (s.done, s.tracked 0, s.tracked 1, (svStep 2 s (.sect 0 none)).isSome)) =
      some (false, true, true, true) ∧
    (svRun 2 (exServer.take 20)).map (fun s => (s.calls, (svStep 2 s (.callGo 0)).isSome, s.sv 0, s.sv 1)) =
      some ([(.wait, none)], true, .ended, .accept) := ⟨rfl, rfl⟩

/-! ## C74 After Shutdown everything ends -/

/-- Steps that need nothing from outside: no accepted connections, no new calls of Shutdown, no peers. -/
def SvAct.internal : SvAct → Bool
  | .mainGo | .go _ | .acceptErr _ | .connStop _ | .sect _ _ | .callGo _ => true
  | _ => false

def MnPc.rank (n : Nat) : MnPc → Nat
  | .listen _ | .failed | .serve | .returned => 0
  | .first => 6 * n + 3
  | .interrupt k => 6 * k + 2
  | .inShutdown k _ => 6 * k + 3
  | .collect => 1

def SvPc.rank : SvPc → Nat
  | .off | .ended => 0
  | .closeLn => 1
  | .untrack => 2
  | .cancel => 3
  | .check => 4
  | .accept => 5
  | .throttle => 6
  | .sleep => 7
  | .track => 7
  | .spawn => 8

def ShPc.rank : ShPc → Nat
  | .lock => 4
  | .closeDone => 3
  | .hooks => 2
  | .wait => 1
  | .ok | .err => 0

def svSum (n : Nat) (g : Nat → SvPc) : Nat := ((List.range n).map fun i => (g i).rank).sum
def connSum (l : List (Nat × Bool)) : Nat := (l.map fun x => x.2.toNat).sum
def callSum (l : List (ShPc × Option Nat)) : Nat := (l.map fun x => x.1.rank).sum

def SvSt.rank (n : Nat) (s : SvSt) : Nat := s.main.rank n + svSum n s.sv + connSum s.conns + callSum s.calls

theorem sum_range_setAt {α : Type} (f : α → Nat) (g : Nat → α) (v : α) (i : Nat) : ∀ n, i < n →
    ((List.range n).map fun k => f (setAt g i v k)).sum + f (g i) = ((List.range n).map fun k => f (g k)).sum + f v := by
  intro n
  induction n with
  | zero => intro h; omega
  | succ n ih =>
    intro h
    simp only [List.range_succ, List.map_append, List.sum_append, List.map_cons, List.map_nil, List.sum_cons, List.sum_nil]
    by_cases hi : i = n
    · subst hi
      have : ((List.range i).map fun k => f (setAt g i v k)) = ((List.range i).map fun k => f (g k)) := by
        apply List.map_congr_left
        intro k hk
        have := List.mem_range.mp hk
        simp [setAt, show k ≠ i by omega]
      rw [this]; simp [setAt]; omega
    · have := ih (by omega)
      have : setAt g i v n = g n := by simp [setAt, show n ≠ i by omega]
      rw [this]; omega

theorem sum_set {α : Type} (f : α → Nat) (l : List α) (i : Nat) (x v : α) (h : l[i]? = some x) :
    ((l.set i v).map f).sum + f x = (l.map f).sum + f v := by
  induction l generalizing i with
  | nil => simp at h
  | cons a l ih =>
    cases i with
    | zero =>
      simp only [List.getElem?_cons_zero, Option.some.injEq] at h; subst h
      simp only [List.set_cons_zero, List.map_cons, List.sum_cons]; omega
    | succ i =>
      simp only [List.getElem?_cons_succ] at h
      have := ih i h
      simp only [List.set_cons_succ, List.map_cons, List.sum_cons]; omega

theorem svSum_setAt {n i : Nat} (g : Nat → SvPc) (v : SvPc) (h : i < n) :
    svSum n (setAt g i v) + (g i).rank = svSum n g + v.rank := sum_range_setAt SvPc.rank g v i n h

theorem connSum_set {l : List (Nat × Bool)} {i : Nat} {x : Nat × Bool} (h : l[i]? = some x) (v : Nat × Bool) :
    connSum (l.set i v) + x.2.toNat = connSum l + v.2.toNat := sum_set (fun x : Nat × Bool => x.2.toNat) l i x v h

theorem callSum_set {l : List (ShPc × Option Nat)} {i : Nat} {x : ShPc × Option Nat} (h : l[i]? = some x)
    (v : ShPc × Option Nat) : callSum (l.set i v) + x.1.rank = callSum l + v.1.rank :=
  sum_set (fun x : ShPc × Option Nat => x.1.rank) l i x v h

theorem connSum_append (l : List (Nat × Bool)) (x : Nat × Bool) : connSum (l ++ [x]) = connSum l + x.2.toNat := by
  simp [connSum]

theorem callSum_append (l : List (ShPc × Option Nat)) (x : ShPc × Option Nat) : callSum (l ++ [x]) = callSum l + x.1.rank := by
  simp [callSum]

/-- The server is being shut down: `doneChan` is closed, every Serve that was started has its listener closed, and no request
handler is inside Shutdown. -/
structure SvDown (n : Nat) (s : SvSt) : Prop where
  inv : SvInv n s
  doneCh : s.doneCh = true
  closed : ∀ i, s.sv i ≠ .off → s.isOpen i = false
  handler : ∀ x ∈ s.calls, x.2.isSome = true → x.1 = .ok ∨ x.1 = .err
  main : s.main ≠ .serve ∧ ∀ k, s.main ≠ .listen k

theorem SvDown.step {n : Nat} {s s' : SvSt} {a : SvAct} (h : SvDown n s) (ha : a.internal = true)
    (hs : svStep n s a = some s') : SvDown n s' ∧ s'.rank n < s.rank n := by
  have hinv := h.inv.step hs
  obtain ⟨h0, h1, h2, h3, h4⟩ := h
  constructor
  · refine ⟨hinv, ?_, ?_, ?_, ?_⟩
    all_goals clear hinv
    all_goals svstep_cases hs a
    all_goals try first | assumption | grind [setAt, SvAct.internal]
  · clear hinv
    have hlt : ∀ i, s.sv i ≠ .off → i < n := h0.svlt
    have hd := h0.doneCh h1
    svstep_cases hs a
    all_goals try (simp [SvAct.internal] at ha; done)
    all_goals try (exfalso; simp_all; done)
    all_goals grind [SvSt.rank, SvPc.rank, ShPc.rank, MnPc.rank, svSum_setAt, connSum_set, callSum_set, connSum_append, callSum_append, Bool.toNat]

/-- Everything is over. -/
structure SvOver (s : SvSt) : Prop where
  serves : ∀ i, s.sv i = .off ∨ s.sv i = .ended
  conns : ∀ x ∈ s.conns, x.2 = false
  calls : ∀ x ∈ s.calls, x.1 = .ok ∨ x.1 = .err
  main : s.main = .failed ∨ s.main = .returned

theorem SvDown.over {n : Nat} {s : SvSt} (h : SvDown n s) (hst : ∀ a, a.internal = true → svStep n s a = none) : SvOver s := by
  have hsv : ∀ i, s.sv i = .off ∨ s.sv i = .ended := by
    intro i
    have h1 := hst (.go i) rfl
    have h2 := hst (.acceptErr i) rfl
    simp only [svStep] at h1 h2
    cases hp : s.sv i <;> simp_all [h.doneCh]
  have hcn : ∀ x ∈ s.conns, x.2 = false := by
    intro x hx
    obtain ⟨c, hc⟩ := List.getElem?_of_mem hx
    obtain ⟨b, r⟩ := x
    cases r with
    | false => rfl
    | true =>
      have h1 := hst (.connStop c) rfl
      have hb := (h.inv.bind _ hx).1
      have hend : s.sv b = .ended := by rcases hsv b with e | e <;> simp_all
      have hctx := h.inv.sctx b (by rw [hend]; rfl) (by rw [hend]; simp)
      have hbusy : s.busy c = false := by
        cases hbz : s.busy c with
        | false => rfl
        | true =>
          rw [SvSt.busy, List.any_eq_true] at hbz
          obtain ⟨y, hy, hyy⟩ := hbz
          simp only [Bool.and_eq_true, beq_iff_eq, bne_iff_ne, ne_eq] at hyy
          have := h.handler y hy (by rw [hyy.1.1]; rfl)
          rcases this with e | e
          · exact absurd e hyy.1.2
          · exact absurd e hyy.2
      simp [svStep, hc, hctx, hbusy] at h1
  have hcl : ∀ x ∈ s.calls, x.1 = .ok ∨ x.1 = .err := by
    intro x hx
    obtain ⟨j, hj⟩ := List.getElem?_of_mem hx
    obtain ⟨p, hh⟩ := x
    have h1 := hst (.callGo j) rfl
    have h2 := hst (.sect j none) rfl
    have hd := h.inv.doneCh h.doneCh
    have hall : (s.conns.all fun x => !x.2) = true := by
      rw [List.all_eq_true]; intro y hy; simp [hcn y hy]
    simp only [svStep, hj] at h1 h2
    cases p <;> simp_all
  refine ⟨hsv, hcn, hcl, ?_⟩
  have h1 := hst .mainGo rfl
  have hm := h.main
  simp only [svStep] at h1
  cases hmn : s.main with
  | listen k => exact absurd hmn (hm.2 k)
  | serve => exact absurd hmn hm.1
  | failed => exact .inl rfl
  | returned => exact .inr rfl
  | interrupt k => simp only [hmn] at h1; split at h1 <;> simp at h1
  | inShutdown k j =>
    have hj := h.inv.mcall k j hmn
    have hx := hcl s.calls[j] (List.getElem_mem hj)
    simp only [hmn, List.getElem?_eq_getElem hj] at h1
    rcases hx with e | e <;> simp [e] at h1
  | first =>
    exfalso
    have hl := h.inv.late (by rw [hmn]; rfl)
    simp only [hmn] at h1
    split at h1
    · simp at h1
    · next hn =>
      apply hn
      by_cases h0 : n = 0
      · exact absurd h0 (h.inv.nz (by rw [hmn]; rfl) (by rw [hmn]; simp))
      · rw [List.any_eq_true]
        exact ⟨0, List.mem_range.mpr (by omega), by rcases hsv 0 with e | e; exact absurd e (hl 0 (by omega)); simp [e]⟩
  | collect =>
    exfalso
    have hl := h.inv.late (by rw [hmn]; rfl)
    simp only [hmn] at h1
    split at h1
    · simp at h1
    · next hn =>
      apply hn
      rw [List.all_eq_true]
      intro i hi
      have hi := List.mem_range.mp hi
      rcases hsv i with e | e
      · exact absurd e (hl i hi)
      · simp [e]

/-- **C74.** Take any reachable state in which `doneChan` is closed, all started `Serve`s have their listeners closed and no
handler is inside Shutdown. Then, with no further connections and calls, only finitely many steps remain — a bound depends on the
state alone, so nothing loops — and whatever the order, when no step is possible any more every `Serve` has returned, no connection
goroutine runs, every call of Shutdown has returned, and so has ListenAndServe. -/
theorem C74 {n : Nat} {acts : List SvAct} {s : SvSt} (h : svRun n acts = some s) (hd : s.doneCh = true)
    (hc : ∀ i, s.sv i ≠ .off → s.isOpen i = false) (hh : ∀ x ∈ s.calls, x.2.isSome = true → x.1 = .ok ∨ x.1 = .err)
    (hm : s.main ≠ .serve ∧ ∀ k, s.main ≠ .listen k) :
    ∃ bound, ∀ more s', (∀ a ∈ more, a.internal = true) → runActs (svStep n) s more = some s' →
      more.length ≤ bound ∧ ((∀ a, a.internal = true → svStep n s' a = none) → SvOver s') := by
  refine ⟨s.rank n, ?_⟩
  have hD : SvDown n s := ⟨SvInv.reach h, hd, hc, hh, hm⟩
  intro more
  clear h hd hc hh hm
  induction more generalizing s with
  | nil =>
    intro s' _ hr
    simp only [runActs, Option.some.injEq] at hr; subst hr
    exact ⟨by simp, fun hst => hD.over hst⟩
  | cons a more ih =>
    intro s' ha hr
    simp only [runActs] at hr
    cases hs : svStep n s a with
    | none => rw [hs] at hr; simp at hr
    | some s1 =>
      rw [hs] at hr
      obtain ⟨k1, k2⟩ := hD.step (ha a (by simp)) hs
      obtain ⟨k3, k4⟩ := ih k1 s' (fun b hb => ha b (by simp [hb])) hr
      exact ⟨by simp only [List.length_cons]; omega, k4⟩

/-- **C74, how it begins.** Once a Shutdown has gone through, `doneChan` is closed, or the call is just about to close it (nothing can keep it from
doing so). -/
theorem C74_closes {n : Nat} {acts : List SvAct} {s : SvSt} (h : svRun n acts = some s) (hd : s.done = true) :
    s.doneCh = true ∨ ∃ j s', (∃ c, s.calls[j]? = some (.closeDone, c)) ∧ svStep n s (.callGo j) = some s' ∧ s'.doneCh = true := by
  have inv : s.done = true → s.doneCh = true ∨ ∃ (j : Nat) (c : Option Nat), s.calls[j]? = some (ShPc.closeDone, c) := by
    refine runActs_inv (P := fun s : SvSt => s.done = true → s.doneCh = true ∨ ∃ (j : Nat) (c : Option Nat), s.calls[j]? = some (ShPc.closeDone, c))
      (fun u u' a hu hs => ?_) (by simp [SvSt.init]) h
    have app : ∀ x : ShPc × Option Nat, (∃ (j : Nat) (c : Option Nat), u.calls[j]? = some (ShPc.closeDone, c)) → ∃ (j : Nat) (c : Option Nat), (u.calls ++ [x])[j]? = some (ShPc.closeDone, c) := by
      rintro x ⟨j, c, hj⟩
      exact ⟨j, c, by rw [List.getElem?_append_left (List.getElem?_eq_some_iff.1 hj).1]; exact hj⟩
    have upd : ∀ (k : Nat) (x : ShPc × Option Nat), (∀ c, u.calls[k]? ≠ some (ShPc.closeDone, c)) → (∃ (j : Nat) (c : Option Nat), u.calls[j]? = some (ShPc.closeDone, c)) →
        ∃ (j : Nat) (c : Option Nat), (u.calls.set k x)[j]? = some (ShPc.closeDone, c) := by
      rintro k x hk ⟨j, c, hj⟩
      refine ⟨j, c, ?_⟩
      rw [List.getElem?_set_ne (by rintro rfl; exact hk c hj)]
      exact hj
    have new : ∀ (k : Nat) (y : ShPc × Option Nat) (d : Option Nat), u.calls[k]? = some y → ∃ (j : Nat) (c : Option Nat), (u.calls.set k (ShPc.closeDone, d))[j]? = some (ShPc.closeDone, c) :=
      fun k y c hk => ⟨k, c, by rw [List.getElem?_set_self (List.getElem?_eq_some_iff.1 hk).1]⟩
    cases a <;> simp only [svStep] at hs <;> (repeat' split at hs) <;> cases hs <;>
      first
        | exact hu
        | exact fun hd => (hu hd).imp id (app _)
        | exact fun _ => .inl rfl
        | exact fun _ => .inr (new _ _ _ ‹_›)
        | exact fun hd => (hu hd).imp id (upd _ _ (by intro c hc; simp_all))
  rcases inv hd with h1 | ⟨j, c, hj⟩
  · exact .inl h1
  · exact .inr ⟨j, { s with calls := s.calls.set j (.hooks, c), doneCh := true }, ⟨c, hj⟩, by simp only [svStep, hj], rfl⟩

/-- `exServer` just before: done is set, `doneChan` not yet closed. -/
example : (svRun 2 (exServer.take 12)).map (fun s => (s.done, s.doneCh)) = some (true, false) := by decide +kernel

/-- The state of `exServer` right after `close(doneChan)`, with a connection running and two accept loops: it satisfies the
hypotheses, and 22 steps later everything is over. -/
example : (svRun 2 (exServer.take 13)).map (fun s => (s.doneCh, s.isOpen 0, s.isOpen 1, s.conns, s.main)) =
    some (true, false, false, [(0, true)], .first) := rfl

/-! ## C75 A Shutdown that fails has no effect -/

/-- **C75 is false**: when closing the listener of binding `k` fails, Shutdown returns the error, but the listeners of the tracked
bindings before it are closed already; the server is not shut down, and until Shutdown is called again their `Serve` goroutines
keep running on a closed listener without ever returning. -/
theorem C75_refuted {n : Nat} {acts : List SvAct} {s s1 : SvSt} {j k : Nat} (h : svRun n acts = some s) (hd : s.done = false)
    (hs : svStep n s (.sect j (some k)) = some s1) {i : Nat} (hi : i < k) (ht : s.tracked i = true) :
    (∃ x, s1.calls[j]? = some (.err, x)) ∧ s1.done = false ∧ s1.isOpen i = false ∧
    ∀ more s2, (∀ a ∈ more, ∀ j' f, a ≠ SvAct.sect j' f) → runActs (svStep n) s1 more = some s2 →
      s2.isOpen i = false ∧ (s2.sv i).winding = false ∧ s2.sv i ≠ .off := by
  have hI := SvInv.reach h
  have hI1 := hI.step hs
  have htrk := hI.trk i ht
  have hmain : ∀ k, s.main ≠ .listen k := by
    intro k hk
    exact htrk.1 (hI.early (by rw [hk]; rfl) i).1
  simp only [svStep] at hs
  split at hs
  · next x hcj =>
    rw [hd] at hs
    simp only [Bool.false_eq_true, if_false] at hs
    split at hs
    · next hk =>
      simp only [Option.some.injEq] at hs; subst hs
      have hjl : j < s.calls.length := (List.getElem?_eq_some_iff.mp hcj).1
      refine ⟨⟨x, by simp [hjl]⟩, rfl, by simp [hi, ht], ?_⟩
      intro more s2 hno hr
      have hno' : ∀ more : List SvAct, (∀ a ∈ more, ∀ j' f, a ≠ SvAct.sect j' f) → ∀ t t2 : SvSt, SvInv n t → t.done = false →
          t.isOpen i = false → t.sv i ≠ .off → (∀ k, t.main ≠ .listen k) → t.main ≠ .serve → runActs (svStep n) t more = some t2 →
          t2.isOpen i = false ∧ (t2.sv i).winding = false ∧ t2.sv i ≠ .off := by
        intro more
        induction more with
        | nil =>
          intro _ t t2 k1 k2 k3 k4 k5 _ hr
          simp only [runActs, Option.some.injEq] at hr; subst hr
          refine ⟨k3, ?_, k4⟩
          cases hw : (t.sv i).winding with
          | false => rfl
          | true => have := k1.doneCh (k1.winding i hw); rw [k2] at this; exact absurd this (by simp)
        | cons a more ih =>
          intro hno t t2 k1 k2 k3 k4 k5 k6 hr
          simp only [runActs] at hr
          cases hs : svStep n t a with
          | none => rw [hs] at hr; simp at hr
          | some t1 =>
            rw [hs] at hr
            have hn := hno a (by simp)
            refine ih (fun b hb => hno b (by simp [hb])) t1 t2 (k1.step hs) ?_ ?_ ?_ ?_ ?_ hr
            all_goals svstep_cases hs a
            all_goals try first | assumption | (exfalso; exact hn _ _ rfl) | grind [setAt]
      refine hno' more hno _ s2 hI1 rfl (by simp [hi, ht]) htrk.1 hmain ?_ hr
      intro hsv
      exact htrk.1 (hI.early (by rw [hsv]; rfl) i).1
    · simp at hs
  · simp at hs

/-- Two bindings; closing the second listener fails; the first `Serve` gets an error from Accept and goes on. -/
example : (svRun 2 [.listenOk, .listenOk, .mainGo, .go 0, .go 0, .go 1, .go 1, .shutdown none, .sect 0 (some 1),
      .acceptErr 0, .go 0, .go 0, .go 0]).map (fun s => (s.calls, s.isOpen 0, s.isOpen 1, s.sv 0, s.done)) =
    some ([(.err, none)], false, true, .accept, false) := rfl

/-! ## C76 Shutdown returns, also when a handler calls it -/

/-- **C76 is false**: once a handler's call of Shutdown has got past the listeners (or finds the server done), it never returns,
its connection never ends, and no other call of Shutdown returns nil, in any continuation: it waits for the goroutine of its own
connection, which waits for the handler. -/
theorem C76_refuted {n : Nat} {s : SvSt} {j c : Nat} {p : ShPc} (hc : s.calls[j]? = some (p, some c))
    (hp : p = .closeDone ∨ p = .hooks ∨ p = .wait) (hrun : s.running c = true)
    {more : List SvAct} {s' : SvSt} (hr : runActs (svStep n) s more = some s') :
    s'.running c = true ∧ (∃ p', s'.calls[j]? = some (p', some c) ∧ p' ≠ .ok ∧ p' ≠ .err) ∧
    ∀ j' : Nat, (∃ h, s.calls[j']? = some (ShPc.ok, h)) ∨ ¬ ∃ h, s'.calls[j']? = some (ShPc.ok, h) := by
  have H := runActs_inv (step := svStep n) (P := fun t : SvSt => t.running c = true ∧
      (∃ p', t.calls[j]? = some (p', some c) ∧ (p' = .closeDone ∨ p' = .hooks ∨ p' = .wait)) ∧
      ∀ (j' : Nat) h, t.calls[j']? = some (ShPc.ok, h) → ∃ h, s.calls[j']? = some (ShPc.ok, h))
    (by
      intro t a t' ⟨k1, ⟨p', k2, k3⟩, k4⟩ hs
      have hbusy : t.busy c = true := by
        rw [SvSt.busy, List.any_eq_true]
        refine ⟨_, List.mem_of_getElem? k2, ?_⟩
        rcases k3 with e | e | e <;> simp [e]
      have hall : (t.conns.all fun x => !x.2) = false := by
        rw [SvSt.running, Option.any_eq_true] at k1
        obtain ⟨x, hx, hx2⟩ := k1
        cases ha : (t.conns.all fun x => !x.2) with
        | false => rfl
        | true =>
          have := List.all_eq_true.mp ha x (List.mem_of_getElem? hx)
          simp [hx2] at this
      have hne : ∀ b, t.conns[c]? ≠ some (b, false) := by
        intro b hb; simp [SvSt.running, hb] at k1
      refine ⟨?_, ?_, ?_⟩
      all_goals svstep_cases hs a
      all_goals try first | assumption | exact ⟨p', k2, k3⟩ | grind [SvSt.running, Option.any_eq_true])
    ⟨hrun, ⟨p, hc, hp⟩, fun j' h e => ⟨h, e⟩⟩ hr
  obtain ⟨k1, ⟨p', k2, k3⟩, k4⟩ := H
  refine ⟨k1, ⟨p', k2, ?_, ?_⟩, ?_⟩
  · rcases k3 with e | e | e <;> simp [e]
  · rcases k3 with e | e | e <;> simp [e]
  · intro j'
    by_cases he : ∃ h, s'.calls[j']? = some (ShPc.ok, h)
    · obtain ⟨h, he⟩ := he; exact .inl (k4 j' h he)
    · exact .inr he

/-- A handler of the only connection calls Shutdown: the hypotheses of `C76_refuted` hold. -/
example : (svRun 1 [.listenOk, .mainGo, .go 0, .go 0, .acceptConn 0, .go 0, .shutdown (some 0), .sect 0 none]).map
      (fun s => (s.calls, s.running 0)) = some ([(.closeDone, some 0)], true) := rfl

end Qrpc
