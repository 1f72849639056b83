import Verif.Model.ServeRead
/-! Invariants of the read side of a server connection (`Model/ServeRead.lean`). -/
namespace Qrpc

macro "rdstep_cases" hs:ident a:ident : tactic => `(tactic|
  (cases $a:ident <;>
   simp only [rdStep] at $hs:ident <;>
   (repeat' (split at $hs:ident)) <;>
   (try simp only [Option.some.injEq, reduceCtorEq] at $hs:ident) <;>
   (try contradiction) <;>
   (try subst $hs:ident)))

def MPc.item : MPc → Option Nat
  | .check k | .spawn k => some k
  | _ => none

def RRd.item : RRd → Option Nat
  | .lookup k | .send k => some k
  | _ => none

/-- The reader is at the gate or has gone. -/
def RRd.waits : RRd → Bool
  | .gate | .exit | .off => true
  | _ => false

/-- The blocking frame the main goroutine is working on. -/
def MPc.blk : MPc → Option Nat
  | .handling k | .cleanup k | .test k | .rst k => some k
  | _ => none

def MPc.busy : MPc → Bool
  | .handling _ | .cleanup _ | .test _ | .rst _ | .readMore => true
  | _ => false

def startOf : HEv → Option Nat
  | .start k => some k
  | _ => none

theorem frameAt_append {arr : List (RFrame × Nat)} {k : Nat} (x : RFrame × Nat) (h : k < arr.length) :
    frameAt (arr ++ [x]) k = frameAt arr k := by
  simp [frameAt, List.getElem?_append_left h, List.getD]

theorem frameAt_last (arr : List (RFrame × Nat)) (x : RFrame × Nat) : frameAt (arr ++ [x]) arr.length = x.1 := by
  simp [frameAt, List.getD]

/-- A: order. -/
structure RInvA (c : RConf) (s : RSt) : Prop where
  cap : c.cap = 0 → s.ch = []
  chSorted : s.ch.Pairwise (· < ·)
  chLt : ∀ p ∈ s.ch, p < s.arr.length
  rdLast : ∀ p, s.rd.item = some p → p + 1 = s.arr.length
  chRd : ∀ p, s.rd.item = some p → ∀ q ∈ s.ch, q < p
  mainLt : ∀ p, s.main.item = some p → p < s.arr.length
  mainCh : ∀ p, s.main.item = some p → ∀ q ∈ s.ch, p < q
  mainRd : ∀ p q, s.main.item = some p → s.rd.item = some q → p < q
  startsCh : ∀ j, HEv.start j ∈ s.log → ∀ p ∈ s.ch, j < p
  startsRd : ∀ j, HEv.start j ∈ s.log → ∀ p, s.rd.item = some p → j < p
  startsMain : ∀ j, HEv.start j ∈ s.log → ∀ p, s.main.item = some p → j < p
  startsLt : ∀ j, HEv.start j ∈ s.log → j < s.arr.length
  startsSorted : (s.log.filterMap startOf).Pairwise (· < ·)
  blkLt : ∀ k, s.main.blk = some k → k < s.arr.length

theorem RInvA.init (c : RConf) (t : Nat) : RInvA c (RSt.init t) := by
  constructor <;> simp [RSt.init, MPc.item, RRd.item, MPc.blk]

theorem pairwise_snoc_lt {l : List Nat} {k : Nat} (h : l.Pairwise (· < ·)) (hk : ∀ j ∈ l, j < k) :
    (l ++ [k]).Pairwise (· < ·) := by
  rw [List.pairwise_append]
  exact ⟨h, by simp, by simpa using hk⟩

theorem mem_starts {log : List HEv} {j : Nat} : j ∈ log.filterMap startOf ↔ HEv.start j ∈ log := by
  simp only [List.mem_filterMap]
  constructor
  · rintro ⟨e, he, hs⟩
    cases e <;> simp [startOf] at hs
    exact hs ▸ he
  · exact fun h => ⟨_, h, rfl⟩

/-- B: blocking frames. -/
structure RInvB (s : RSt) : Prop where
  ch : ∀ k ∈ s.ch, (frameAt s.arr k).nonblock = false → s.rd.waits = true ∧ s.tok = false ∧ k + 1 = s.arr.length ∧ s.main.busy = false
  busy : s.main.busy = true → s.rd.waits = true ∧ s.tok = false ∧ s.ch = []
  blk : ∀ k, s.main.blk = some k → (frameAt s.arr k).nonblock = false ∧ k + 1 = s.arr.length
  tok : s.tok = true → s.rd.waits = true
  item : ∀ k, s.main.item = some k → (frameAt s.arr k).nonblock = true
  excl : ∀ k, HEv.start k ∈ s.log → (frameAt s.arr k).nonblock = false → HEv.finish k ∈ s.log ∨ s.main = .handling k

theorem RInvB.init (t : Nat) : RInvB (RSt.init t) := by
  constructor <;> simp [RSt.init, MPc.item, RRd.waits, MPc.busy, MPc.blk]

/-- At every start of a handler, all blocking handlers started before it have finished. -/
def exclusive (arr : List (RFrame × Nat)) (log : List HEv) : Prop :=
  ∀ pre e post, log = pre ++ e :: post → ∀ j, e = .start j → ∀ k, HEv.start k ∈ pre → (frameAt arr k).nonblock = false →
    HEv.finish k ∈ pre

theorem exclusive_snoc {arr log} (e : HEv) (h : exclusive arr log)
    (he : ∀ j, e = .start j → ∀ k, HEv.start k ∈ log → (frameAt arr k).nonblock = false → HEv.finish k ∈ log) :
    exclusive arr (log ++ [e]) := by
  intro pre e' post heq j hj k hk hb
  rcases List.append_eq_append_iff.1 heq with ⟨l, h1, h2⟩ | ⟨l, h1, h2⟩
  · cases l with
    | nil => simp at h1 h2; obtain ⟨rfl, -⟩ := h2; subst h1; exact he j hj k hk hb
    | cons x xs =>
      simp only [List.cons_append, List.cons.injEq] at h2
      have := h2.2
      simp at this
  · cases l with
    | nil =>
      simp only [List.append_nil, List.nil_append, List.cons.injEq] at h1 h2
      obtain ⟨rfl, -⟩ := h2; subst h1; exact he j hj k hk hb
    | cons x xs =>
      simp only [List.cons_append, List.cons.injEq] at h2
      obtain ⟨rfl, h2⟩ := h2
      exact h pre _ xs h1 j hj k hk hb

def MPc.spawning : MPc → Nat
  | .spawn _ => 1
  | _ => 0

/-- The main goroutine has closed the connection. -/
def MPc.down : MPc → Bool
  | .waitWG | .onClose | .ended => true
  | _ => false

/-- ... and all goroutines have gone. -/
def MPc.over : MPc → Bool
  | .onClose | .ended => true
  | _ => false

/-- C: the limit on inflight streams. -/
structure RInvC (c : RConf) (s : RSt) : Prop where
  low : 0 < c.max → (s.running.length + s.ending.length + s.main.spawning : Int) ≤ s.inflight + s.bdone
  bound : 0 < c.max → (s.running.length + s.ending.length + s.main.spawning : Int) ≤ c.max + s.bdone
  bd : s.bdone ≠ 0 → ∃ k, HEv.finish k ∈ s.log ∧ k < s.arr.length ∧ (frameAt s.arr k).nonblock = false
  blk : ∀ k, s.main = .cleanup k → HEv.finish k ∈ s.log

theorem RInvC.init (c : RConf) (t : Nat) : RInvC c (RSt.init t) := by
  constructor <;> simp [RSt.init, MPc.spawning] <;> omega

/-- D: every handled request is answered. -/
structure RInvD (s : RSt) : Prop where
  fin : ∀ k ∈ s.finished, s.closedSelf k = true ∨ s.ctx = true
  whereAbouts : ∀ k, HEv.start k ∈ s.log → k ∈ s.running ∨ k ∈ s.ending ∨ k ∈ s.cleaning ∨ k ∈ s.resetting ∨ k ∈ s.finished ∨
    s.main.blk = some k
  fins : ∀ k, HEv.finish k ∈ s.log → k ∈ s.ending ∨ k ∈ s.cleaning ∨ k ∈ s.resetting ∨ k ∈ s.finished ∨
    s.main.blk = some k
  closing : s.main.down = true → s.ctx = true
  ended : s.main.over = true → s.rd = .off ∧ s.running = [] ∧ s.ending = [] ∧ s.cleaning = [] ∧ s.resetting = []
  once : s.onClosed = if s.main = .ended then 1 else 0

theorem RInvD.init (t : Nat) : RInvD (RSt.init t) := by
  constructor <;> simp [RSt.init, MPc.down, MPc.over]

/-- E: the rate limit. -/
structure RInvE (c : RConf) (s : RSt) : Prop where
  last : s.last ≤ s.now
  stamps : ∀ p ∈ s.arr, p.2 ≤ s.last
  cur : 0 < c.rate → (s.arr.filter fun p => p.2 = s.last).length ≤ s.count
  all : 0 < c.rate → ∀ sec, (s.arr.filter fun p => p.2 = sec).length ≤ c.rate

theorem RInvE.init (c : RConf) (t : Nat) : RInvE c (RSt.init t) := by
  constructor <;> simp [RSt.init]

end Qrpc
