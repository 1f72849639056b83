import Verif.Lemmas.GroupInv
import Verif.Model.Client
/-! Invariants of the client connection (`Model/Client.lean`); each is proved inductive in its own file. -/
namespace Qrpc

macro "cstep_cases" hs:ident a:ident : tactic => `(tactic|
  (cases $a:ident <;>
   simp only [cStep] at $hs:ident <;>
   (repeat' (split at $hs:ident)) <;>
   (try simp only [Option.some.injEq, reduceCtorEq] at $hs:ident) <;>
   (try contradiction) <;>
   (try subst $hs:ident)))

def CWr.collecting : CWr → Bool
  | .more _ | .register | .write => true
  | _ => false

def CWr.preReg : CWr → Bool
  | .more _ | .register => true
  | _ => false

def CWr.distributing : CWr → Bool
  | .dist _ => true
  | _ => false

/-- A: tickets and results. -/
structure CInvA (s : CSt) : Prop where
  lt : ∀ i t g, s.pc i = .wait t g → t < s.frames.length
  inj : ∀ i j t g g', s.pc i = .wait t g → s.pc j = .wait t g' → i = j
  deq : s.deq ≤ s.frames.length
  queued : ∀ t, s.deq ≤ t → s.slot t = none
  batchLt : ∀ t ∈ s.batch, t < s.deq
  batchNodup : s.batch.Nodup
  sendLt : ∀ p ∈ s.toSend, p.1 < s.deq
  sendNodup : (s.toSend.map Prod.fst).Nodup
  noBatch : s.wr.collecting = false → s.batch = []
  noSend : s.wr.distributing = false → s.toSend = []
  once : s.sends.Nodup
  sendsLt : ∀ t ∈ s.sends, t < s.deq
  sendsBatch : ∀ t ∈ s.sends, t ∉ s.batch
  sendsSend : ∀ t ∈ s.sends, t ∉ s.toSend.map Prod.fst
  slot : ∀ t, s.slot t ≠ none → t ∈ s.sends
  rets : ∀ p ∈ s.rets, p.1 ∈ s.sends ∧ p.1 < s.frames.length

theorem CInvA.init (d : Bool) : CInvA (CSt.init d) := by
  constructor <;> simp [CSt.init]

/-- B: with reconnect, the ticket of a waiting caller is never forgotten. -/
def CInvB (c : CConf) (s : CSt) : Prop :=
  c.reconnect = true → ∀ i t g, s.pc i = .wait t g →
    s.deq ≤ t ∨ s.slot t ≠ none ∨ t ∈ s.batch ∨ t ∈ s.toSend.map Prod.fst

theorem CInvB.init (c : CConf) (d : Bool) : CInvB c (CSt.init d) := by
  intro _; simp [CSt.init]

theorem cframeOf_append {fs : List CFrame} {t : Nat} (f : CFrame) (h : t < fs.length) :
    cframeOf (fs ++ [f]) t = cframeOf fs t := by
  simp [cframeOf, List.getElem?_append_left h, List.getD]

theorem map_fst_zip_client (batch : List Nat) (fs : List CFrame) (ok : Bool) (k : Nat) :
    (batch.zip ((batchResults ok (consume k (batch.map fun t => (cframeOf fs t).bytes))).map SRes.toC)).map Prod.fst = batch := by
  apply List.map_fst_zip
  rw [List.length_map, batchResults_length, List.length_map]
  exact Nat.le_refl _

theorem map_fst_constC (l : List Nat) (r : CRes) : (l.map fun u => (u, r)).map Prod.fst = l := by
  simp [Function.comp_def]

theorem registerAll_sublist (fs : List CFrame) (respes : List (UInt64 × Nat)) (b : List Nat) :
    (registerAll fs respes b).2.Sublist b := by
  induction b generalizing respes with
  | nil => simp [registerAll]
  | cons t ts ih =>
    simp only [registerAll]
    split
    · split
      · exact (ih _).cons_cons _
      · exact (ih _).cons _
    · exact (ih _).cons _

/-- What is in the table after `registerAll`. -/
theorem registerAll_mem (fs : List CFrame) (respes : List (UInt64 × Nat)) (b : List Nat) (hb : b.Nodup) (p : UInt64 × Nat) :
    p ∈ (registerAll fs respes b).1 ↔ p ∈ respes ∨
      (p.2 ∈ b ∧ (cframeOf fs p.2).resp = true ∧ p.1 = (cframeOf fs p.2).rid ∧ p.2 ∉ (registerAll fs respes b).2) := by
  induction b generalizing respes with
  | nil => simp [registerAll]
  | cons t ts ih =>
    have hsub := fun r => (registerAll_sublist fs r ts).subset
    simp only [List.nodup_cons] at hb
    simp only [registerAll]
    split
    · split
      · rw [ih _ hb.2]
        have := @hsub
        grind
      · rw [ih _ hb.2]
        have := @hsub
        obtain ⟨a, u⟩ := p
        simp only [List.mem_append, List.mem_singleton, Prod.mk.injEq, List.mem_cons]
        grind
    · rw [ih _ hb.2]
      have := @hsub
      grind

theorem registerAll_nodup_fst (fs : List CFrame) (respes : List (UInt64 × Nat)) (b : List Nat)
    (h : (respes.map Prod.fst).Nodup) : ((registerAll fs respes b).1.map Prod.fst).Nodup := by
  induction b generalizing respes with
  | nil => exact h
  | cons t ts ih =>
    simp only [registerAll]
    split
    · split
      · exact ih _ h
      · next hn =>
        apply ih
        simp only [List.any_eq_true, beq_iff_eq, not_exists, not_and] at hn
        simp only [List.map_append, List.map_cons, List.map_nil]
        rw [List.nodup_append]
        refine ⟨h, by simp, ?_⟩
        intro a ha b hb'
        simp only [List.mem_singleton] at hb'
        simp only [List.mem_map] at ha
        obtain ⟨q, hq, rfl⟩ := ha
        subst hb'
        exact hn q hq
    · exact ih _ h

/-- C: the table of outstanding responses. -/
structure CInvC (s : CSt) : Prop where
  fstNodup : (s.respes.map Prod.fst).Nodup
  mem : ∀ p ∈ s.respes, p.2 ∈ s.regd ∧ p.1 = (cframeOf s.frames p.2).rid ∧ s.revs p.2 = []
  noConn : s.rwc = false → s.respes = []
  regdLt : ∀ t ∈ s.regd, t < s.deq ∧ (cframeOf s.frames t).resp = true
  regd : ∀ t ∈ s.regd, ((cframeOf s.frames t).rid, t) ∈ s.respes ∨ s.revs t ≠ [] ∨ ∃ f, s.rd = .deliver t f
  fresh : s.wr.preReg = true → ∀ t ∈ s.batch, t ∉ s.regd
  len : ∀ t, (s.revs t).length ≤ 1
  revs : ∀ t, s.revs t ≠ [] → t ∈ s.regd
  right : ∀ t f, REv.frame f ∈ s.revs t → f.rid = (cframeOf s.frames t).rid
  hand : ∀ t f, s.rd = .deliver t f → t ∈ s.regd ∧ (∀ p ∈ s.respes, p.2 ≠ t) ∧ s.revs t = [] ∧ f.rid = (cframeOf s.frames t).rid
  crash : s.crash = false

theorem CInvC.init (d : Bool) : CInvC (CSt.init d) := by
  constructor <;> simp [CSt.init]

/-- D: a first frame whose write succeeded has its response object in the table, or it was answered. -/
structure CInvD (s : CSt) : Prop where
  batch : s.wr = .write → ∀ t ∈ s.batch, (cframeOf s.frames t).resp = true → t ∈ s.regd
  send : ∀ t, (t, CRes.ok) ∈ s.toSend → (cframeOf s.frames t).resp = true → t ∈ s.regd
  slot : ∀ t, s.slot t = some .ok → (cframeOf s.frames t).resp = true → t ∈ s.regd
  rets : ∀ t, (t, CRes.ok) ∈ s.rets → (cframeOf s.frames t).resp = true → t ∈ s.regd

theorem CInvD.init (d : Bool) : CInvD (CSt.init d) := by
  constructor <;> simp [CSt.init]

def CLp.connected : CLp → Bool
  | .spawn | .onConnect | .waitDone | .closeRwc => true
  | _ => false

def CLp.running : CLp → Bool
  | .onConnect | .waitDone | .closeRwc | .onDisconnect | .waitWG => true
  | _ => false

def CLp.after : CLp → Bool
  | .closeRwc | .onDisconnect | .waitWG | .endLoop | .selfClose | .dialing _ | .dialCheck _ | .ended => true
  | _ => false

/-- L: the life of the connection. -/
structure CInvL (c : CConf) (s : CSt) : Prop where
  fresh : s.loop = .connect → s.rwc = true → s.handled = []
  noConn : s.loop ≠ .connect → s.loop.connected = false → s.rwc = false
  gen : s.rwc = true → s.gen ≠ 0
  idle : s.loop.running = false → s.rd = .off ∧ s.wr = .off ∧ s.handlers = 0
  done : s.loop.after = true → s.gen ≠ 0 → s.done = true
  doneC : s.loop = .connect → s.rwc = false → s.gen ≠ 0 → s.done = true
  oks : s.closeOks = if s.closed then 1 else 0
  ctx : s.ctx = true → s.closed = true
  ended : s.loop = .ended → s.closed = true
  wr : s.loop = .waitDone ∨ s.loop = .onConnect → s.wr = .off → s.lctx = true
  rd : s.loop = .waitDone ∨ s.loop = .onConnect → s.rd = .off → s.lctx = true
  dials : s.dials.length = s.idx
  rot : ∀ k, k < s.idx → (s.dials.getD k ⟨0, false, false⟩).addr = k % c.naddr

theorem CInvL.init (c : CConf) (d : Bool) : CInvL c (CSt.init d) := by
  constructor <;> cases d <;> simp [CSt.init, CLp.connected, CLp.running, CLp.after]


/-- R: a result is received at most once. -/
structure CInvR (s : CSt) : Prop where
  slot : ∀ p ∈ s.rets, s.slot p.1 = none
  once : (s.rets.map Prod.fst).Nodup

theorem CInvR.init (d : Bool) : CInvR (CSt.init d) := by
  constructor <;> simp [CSt.init]

/-- The first frame a caller is about to submit. -/
def CPc.own : CPc → Option CFrame
  | .load f | .enq f _ => some f
  | _ => none

/-- I: ids of first frames, as long as the counter has not wrapped. -/
structure CInvI (s : CSt) : Prop where
  inFrames : ∀ f ∈ s.frames, f.resp = true → ∃ g, 1 ≤ g ∧ g ≤ s.ridGen ∧ f.rid = clientRid g
  inPc : ∀ i f, (s.pc i).own = some f → f.resp = true → ∃ g, 1 ≤ g ∧ g ≤ s.ridGen ∧ f.rid = clientRid g
  framesInj : s.ridGen < 2 ^ 63 → s.frames.Pairwise fun f f' => f.resp = true → f'.resp = true → f.rid ≠ f'.rid
  framesPc : s.ridGen < 2 ^ 63 → ∀ i f, (s.pc i).own = some f → f.resp = true → ∀ f' ∈ s.frames, f'.resp = true → f.rid ≠ f'.rid
  pcInj : s.ridGen < 2 ^ 63 → ∀ i j f f', (s.pc i).own = some f → (s.pc j).own = some f' → f.resp = true → f'.resp = true →
    f.rid = f'.rid → i = j

theorem CInvI.init (d : Bool) : CInvI (CSt.init d) := by
  constructor <;> simp [CSt.init, CPc.own]

/-- The number of failed attempts since the last success. -/
def trail (l : List Dial) : Nat := (l.reverse.takeWhile fun d => !d.ok).length

def CLp.count : CLp → Option Nat
  | .dialing n | .dialCheck n => some n
  | .ended => none
  | _ => some 0

/-- S: sleeping between attempts. -/
structure CInvS (c : CConf) (s : CSt) : Prop where
  count : ∀ n, s.loop.count = some n → trail s.dials = n
  slept : ∀ k, k < s.dials.length → (s.dials.getD k ⟨0, false, false⟩).slept =
    (!(s.dials.getD k ⟨0, false, false⟩).ok && decide (c.naddr ≤ trail (s.dials.take (k + 1))))

theorem CInvS.init (c : CConf) (d : Bool) : CInvS c (CSt.init d) := by
  constructor <;> simp [CSt.init, CLp.count, trail]

end Qrpc
