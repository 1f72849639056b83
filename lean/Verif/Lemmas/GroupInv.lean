import Verif.Model.ServeWrite
/-! Invariants of the server's write path (`Model/ServeWrite.lean`); each is proved inductive in its own file. -/
namespace Qrpc

/-- The ticket a goroutine is responsible for. -/
def TPc.tk : TPc → Option Nat
  | .wait t | .locked t | .unlockTake t | .take t | .infl t | .collect t _ | .register t | .write t | .dist t _
  | .own t _ => some t
  | _ => none

/-- Inside the critical section of `wlockCh`. -/
def TPc.holds : TPc → Bool
  | .idle | .enq _ | .wait _ | .take _ => false
  | _ => true

@[simp] theorem setAt_same {α : Type} (f : Nat → α) (i : Nat) (x : α) : setAt f i x i = x := by simp [setAt]
theorem setAt_other {α : Type} (f : Nat → α) {i j : Nat} (x : α) (h : j ≠ i) : setAt f i x j = f j := by simp [setAt, h]

macro "gstep_cases" hs:ident a:ident : tactic => `(tactic|
  (cases $a:ident <;>
   simp only [gStep, goStep] at $hs:ident <;>
   (repeat' (split at $hs:ident)) <;>
   (try simp only [Option.some.injEq, reduceCtorEq] at $hs:ident) <;>
   (try contradiction) <;>
   (try subst $hs:ident)))

/-- A: mutual exclusion; every goroutine has its own ticket; the channel's bound. -/
structure GInvA (cap : Nat) (s : GSt) : Prop where
  lock : ∀ i, s.lock = .held i ↔ (s.pc i).holds = true
  lt : ∀ i t, (s.pc i).tk = some t → t < s.frames.length
  inj : ∀ i j t, (s.pc i).tk = some t → (s.pc j).tk = some t → i = j
  deq : s.deq ≤ s.frames.length
  cap : s.frames.length - s.deq ≤ cap
  bytes : ∀ f ∈ s.frames, f.bytes ≠ []
  enq : ∀ i f, s.pc i = .enq f → f.bytes ≠ []

theorem GInvA.init (cap : Nat) : GInvA cap GSt.init := by
  constructor <;> simp [GSt.init, TPc.tk, TPc.holds]

/-- No batch is being worked on. -/
def TPc.clean : TPc → Bool
  | .locked _ | .unlockTake _ | .infl _ | .inflUndo | .stuck | .own _ _ => true
  | .free rel _ _ | .release rel _ _ | .unlock rel _ _ => rel
  | _ => false

def TPc.collecting : TPc → Bool
  | .collect _ _ | .register _ | .write _ => true
  | _ => false

/-- B: where tickets are: waiting, in the batch, or with a result. -/
structure GInvB (s : GSt) : Prop where
  queued : ∀ t, s.deq ≤ t → s.slot t = none
  batchLt : ∀ t ∈ s.batch, t < s.deq
  batchSlot : ∀ t ∈ s.batch, s.slot t = none
  sendLt : ∀ p ∈ s.toSend, p.1 < s.deq
  sendSlot : ∀ p ∈ s.toSend, s.slot p.1 = none
  sendNodup : (s.toSend.map Prod.fst).Nodup
  sorted : s.batch.Pairwise (· < ·)
  unlocked : s.lock = .free → s.batch = [] ∧ s.toSend = []
  clean : ∀ i, (s.pc i).clean = true → s.batch = [] ∧ s.toSend = []
  coll : ∀ i, (s.pc i).collecting = true → s.toSend = []
  dist : ∀ i t rel, s.pc i = .dist t rel → s.batch = []

theorem GInvB.init : GInvB GSt.init := by
  constructor <;> simp [GSt.init, TPc.clean, TPc.collecting]

/-- C: where the ticket of a goroutine inside `writeFrameBytes` is. -/
structure GInvC (s : GSt) : Prop where
  pending : ∀ i t, (s.pc i).tk = some t → s.deq ≤ t ∨ s.slot t ≠ none ∨ t ∈ s.batch ∨ t ∈ s.toSend.map Prod.fst
  taking : ∀ i t, s.pc i = .take t ∨ s.pc i = .unlockTake t → s.slot t ≠ none
  infl : ∀ i t, s.pc i = .infl t → s.slot t = none
  collN : ∀ i t n, s.pc i = .collect t n → t < s.deq + n
  collDone : ∀ i t, s.pc i = .register t ∨ s.pc i = .write t ∨ (∃ rel, s.pc i = .dist t rel) ∨
    (∃ rel, s.pc i = .own t rel) → t < s.deq

theorem GInvC.init : GInvC GSt.init := by
  constructor <;> simp [GSt.init, TPc.tk]

theorem TPc.holds_of_clean (p : TPc) : p.clean = true → p.holds = true := by
  cases p <;> simp [TPc.clean, TPc.holds]

theorem TPc.holds_of_collecting (p : TPc) : p.collecting = true → p.holds = true := by
  cases p <;> simp [TPc.collecting, TPc.holds]

/-- At most one goroutine is inside the critical section. -/
theorem GInvA.unique {cap s} (h : GInvA cap s) : ∀ i j, (s.pc i).holds = true → (s.pc j).holds = true → i = j := by
  intro i j hi hj
  have := (h.lock i).2 hi
  have := (h.lock j).2 hj
  simp_all

theorem batchResults_length (ok : Bool) (k : Nat) (bufs : List Bytes) :
    (batchResults ok (consume k bufs)).length = bufs.length := by
  have : (consume k bufs).length = bufs.length := by
    induction bufs generalizing k with
    | nil => rfl
    | cons b bs ih => rw [consume]; split <;> simp [ih]
  simp [batchResults, this]

theorem map_fst_zip_batch (s : GSt) (ok : Bool) (k : Nat) :
    (s.batch.zip (batchResults ok (consume k s.bufs))).map Prod.fst = s.batch := by
  apply List.map_fst_zip
  simp [batchResults_length, GSt.bufs]

theorem map_fst_const (l : List Nat) (r : SRes) : (l.map fun u => (u, r)).map Prod.fst = l := by
  simp [Function.comp_def]


/-- Inside the critical section, the batch not (yet) failed: the connection can still be written. -/
def TPc.healthy : TPc → Bool
  | .locked _ | .unlockTake _ | .infl _ | .inflUndo | .stuck | .collect _ _ | .register _ | .write _ => true
  | .dist _ rel | .own _ rel | .free rel _ _ | .release rel _ _ | .unlock rel _ _ => rel
  | _ => false

/-- The result a goroutine is about to return. -/
def TPc.res : TPc → Option (Nat × SRes)
  | .free _ t r | .release _ t r | .unlock _ t r => some (t, r)
  | _ => none

def flatOf (fs : List SFrame) (ts : List Nat) : Bytes := (ts.map fun t => (frameOf fs t).bytes).flatten

/-- All bytes of ticket `t` are on the wire. -/
def DeliveredIn (fs : List SFrame) (sent : List Nat) (n : Nat) (t : Nat) : Prop :=
  ∃ pre post, sent = pre ++ t :: post ∧ (flatOf fs (pre ++ [t])).length ≤ n

/-- D: the wire. -/
structure GInvD (s : GSt) : Prop where
  sentLt : ∀ t ∈ s.sent, t < s.deq
  sentBatch : ∀ t ∈ s.sent, ∀ u ∈ s.batch, t < u
  sorted : s.sent.Pairwise (· < ·)
  wire : s.wire = (flatOf s.frames s.sent).take s.wire.length
  whole : s.broken = false → s.wire = flatOf s.frames s.sent
  healthy : ∀ i, (s.pc i).healthy = true → s.broken = false
  unlocked : s.lock = .free → s.broken = false

theorem GInvD.init : GInvD GSt.init := by
  constructor <;> simp [GSt.init, flatOf, TPc.healthy]

/-- E: an `ok` result is given only to frames on the wire. -/
structure GInvE (s : GSt) : Prop where
  slot : ∀ t, s.slot t = some .ok → DeliveredIn s.frames s.sent s.wire.length t
  send : ∀ t, (t, SRes.ok) ∈ s.toSend → DeliveredIn s.frames s.sent s.wire.length t
  pc : ∀ i t, (s.pc i).res = some (t, .ok) → DeliveredIn s.frames s.sent s.wire.length t
  rets : ∀ t, (t, SRes.ok) ∈ s.rets → DeliveredIn s.frames s.sent s.wire.length t

theorem GInvE.init : GInvE GSt.init := by
  constructor <;> simp [GSt.init, TPc.res]

/-- Counted in `inflight` (including the failed attempt that is undone). -/
def TPc.counted : TPc → Bool
  | .inflUndo | .collect _ _ | .register _ | .write _ | .dist _ _ | .own _ _ | .free _ _ _ => true
  | _ => false

/-- Uses the stream tables. -/
def TPc.using : TPc → Bool
  | .collect _ _ | .register _ | .write _ | .dist _ _ | .own _ _ | .free _ _ _ => true
  | _ => false

def heldBy (l : LockSt) (pc : Nat → TPc) (p : TPc → Bool) : Bool :=
  match l with
  | .held i => p (pc i)
  | _ => false

theorem heldBy_setAt (l : LockSt) (pc : Nat → TPc) (p : TPc → Bool) (i : Nat) (x : TPc) :
    heldBy l (setAt pc i x) p = if l = .held i then p x else heldBy l pc p := by
  cases l with
  | held j => by_cases h : j = i <;> simp [heldBy, setAt, h]
  | _ => simp [heldBy]

theorem heldBy_held (pc : Nat → TPc) (p : TPc → Bool) (i : Nat) : heldBy (.held i) pc p = p (pc i) := rfl
theorem heldBy_free (pc : Nat → TPc) (p : TPc → Bool) : heldBy .free pc p = false := rfl
theorem heldBy_dead (pc : Nat → TPc) (p : TPc → Bool) : heldBy .dead pc p = false := rfl

def RdPc.alive : RdPc → Bool
  | .running | .quitting => true
  | _ => false

def TPc.undoing : TPc → Bool
  | .inflUndo => true
  | _ => false

/-- F: `inflight` counts the reader and the goroutine inside the critical section; the tables are released when, and only
when, it reaches zero. -/
structure GInvF (s : GSt) : Prop where
  count : s.inflight = (if s.reader.alive then 1 else 0) + (if heldBy s.lock s.pc TPc.counted then 1 else 0)
  once : s.releases = if s.reader.alive = false ∧ heldBy s.lock s.pc TPc.using = false then 1 else 0
  undo : heldBy s.lock s.pc TPc.undoing = true → s.reader.alive = false

theorem GInvF.init : GInvF GSt.init := by
  constructor <;> simp [GSt.init, heldBy, RdPc.alive]

/-- The lock will not be released by this goroutine. -/
def TPc.keeps : TPc → Bool
  | .inflUndo | .stuck => true
  | .dist _ rel | .own _ rel | .free rel _ _ | .release rel _ _ | .unlock rel _ _ => !rel
  | _ => false

/-- G: the lock is kept only when the connection is being closed. -/
structure GInvG (s : GSt) : Prop where
  ctx : s.ctx = true → s.closing = true
  conn : s.connClosed = true → s.closing = true
  reader : s.reader ≠ .running → s.closing = true
  keeps : ∀ i, (s.pc i).keeps = true → s.closing = true
  dead : s.lock = .dead → s.closing = true

theorem GInvG.init : GInvG GSt.init := by
  constructor <;> simp [GSt.init, TPc.keeps]

end Qrpc
