import Verif.Model.Mem
/-!
# channel/clienttransport.go: who accesses the fields of a Sender and Receiver, and when

`Pipe` (38-51) makes a `clientSender` with its `clientReceiver`. Any number of goroutines that have them call `Send` (66-94), `End` (96-112) and
`Receive` (141-151, 114-139). The model records every access to `streamWriter`, `resp`, `firstFrame` and `closed`, and to the stream writer's own
fields (`buf`), with the synchronising operations (Model/Mem.lean). The RWMutex is two objects: `w` is released by Unlock and acquired
by Lock and RLock, `r` is released by RUnlock and acquired by Lock.

The goroutines may synchronise by means of their own: `hand g k` stands for anything that releases, `take g k` for anything that acquires what was
released there. `told g` (ghost) says that `g` has learnt in this way that a `Send` which opened the stream has returned.

StreamRequest may fail (it then returns nil, nil and the error; clientconn.go:317-320), GetFrameWithContext too (firstFrame stays nil).
Not modelled: that Lock and RLock wait (a call that does begins when it has the lock); the values sent.
-/
namespace Qrpc

inductive XmX where
  | writer | buf | resp | first | closed
deriving DecidableEq, Repr

inductive XmO where
  | w | r | hand (k : Nat)
deriving DecidableEq, Repr

abbrev XmEv := MemEv Nat XmO XmX

inductive XmPc where
  | idle
  | s1 | s2 | sreq | s3 (ok : Bool) | s4 (ok : Bool) | sbuf | sout     -- Send, with the lock for reading
  | e1 | e2 | e3 | ebuf | eout                                          -- End, with the lock
  | r1 | r2 | rget | r3 (ok : Bool) | r4                                -- Receive
deriving DecidableEq, Repr

/-- The access made there. -/
def XmPc.acc : XmPc → Option (XmX × Bool × Nat)
  | .s1 => some (.closed, false, 75)
  | .s2 => some (.writer, false, 84)
  | .sreq => some (.buf, true, 85)
  | .s3 _ => some (.writer, true, 85)
  | .s4 _ => some (.resp, true, 85)
  | .sbuf => some (.buf, true, 91)
  | .e1 => some (.closed, false, 100)
  | .e2 => some (.closed, true, 105)
  | .e3 => some (.writer, false, 106)
  | .ebuf => some (.buf, true, 110)
  | .r1 => some (.resp, false, 116)
  | .r2 => some (.first, false, 121)
  | .rget => some (.resp, false, 122)
  | .r3 _ => some (.first, true, 123)
  | .r4 => some (.first, false, 129)
  | .idle | .sout | .eout => none

structure XmSt where
  tr : List XmEv
  pc : Nat → XmPc
  rd : List Nat              -- who has the lock for reading
  wr : Option Nat            -- who has it for writing
  wset : Bool                -- streamWriter != nil
  rset : Bool                -- resp != nil
  fset : Bool                -- firstFrame != nil
  closed : Bool
  us : List Nat              -- the goroutines that have the sender or receiver
  told : Nat → Bool
  toldK : Nat → Bool

inductive XmAct where
  | send (g : Nat) | fin (g : Nat) | recv (g : Nat)      -- a call of Send, End, Receive begins
  | go (g : Nat) (b : Bool)                              -- its next step; b: whether the operation called succeeded
  | share (g j : Nat) | hand (g k : Nat) | take (g k : Nat)
deriving DecidableEq, Repr

def setC {α : Type} (f : Nat → α) (g : Nat) (x : α) : Nat → α := fun g' => if g' = g then x else f g'

def XmSt.emit (s : XmSt) (g : Nat) (op : MemOp Nat XmO XmX) (line : Nat) : XmSt := { s with tr := s.tr ++ [⟨g, op, line⟩] }

def XmSt.to (s : XmSt) (g : Nat) (p : XmPc) : XmSt := { s with pc := setC s.pc g p }

/-- What comes after the access, in Go's order. -/
def XmSt.next (s : XmSt) (g : Nat) (b : Bool) : XmPc → XmSt
  | .idle => s
  | .s1 => s.to g (if s.closed then .sout else .s2)
  | .s2 => s.to g (if s.wset then .sbuf else .sreq)
  | .sreq => s.to g (.s3 b)
  | .s3 ok => { s.to g (.s4 ok) with wset := ok }
  | .s4 ok => { s.to g .sout with rset := ok, told := setC s.told g (s.told g || ok) }
  | .sbuf => s.to g .sout
  | .sout => { s.to g .idle with rd := s.rd.filter (· ≠ g) }
  | .e1 => s.to g (if s.closed then .eout else .e2)
  | .e2 => { s.to g .e3 with closed := true }
  | .e3 => s.to g (if s.wset then .ebuf else .eout)
  | .ebuf => s.to g .eout
  | .eout => { s.to g .idle with wr := none }
  | .r1 => s.to g (if s.rset then .r2 else .idle)
  | .r2 => s.to g (if s.fset then .r4 else .rget)
  | .rget => s.to g (.r3 b)
  | .r3 ok => { s.to g .idle with fset := ok }
  | .r4 => s.to g .idle

/-- The event that goes with it: an access, or the deferred unlocking (73, 98). -/
def XmPc.op (p : XmPc) : MemOp Nat XmO XmX × Nat := match p.acc with
  | some (x, w, l) => (.acc x w false, l)
  | none => if p = .sout then (.rel .r, 73) else (.rel .w, 98)

def xmStep (s : XmSt) : XmAct → Option XmSt
  | .send g => if g ∈ s.us ∧ s.pc g = .idle ∧ s.wr = none then some { (s.emit g (.acq .w) 72).to g .s1 with rd := g :: s.rd } else none
  | .fin g => if g ∈ s.us ∧ s.pc g = .idle ∧ s.wr = none ∧ s.rd = [] then
      some { ((s.emit g (.acq .w) 97).emit g (.acq .r) 97).to g .e1 with wr := some g } else none
  | .recv g => if g ∈ s.us ∧ s.pc g = .idle then some (s.to g .r1) else none
  | .go g b => if s.pc g = .idle then none else some ((s.emit g (s.pc g).op.1 (s.pc g).op.2).next g b (s.pc g))
  | .share g j => if g ∈ s.us ∧ s.pc g = .idle ∧ j ∉ s.us then
      some { s.emit g (.go j) 0 with us := j :: s.us, told := setC s.told j (s.told g) } else none
  | .hand g k => if g ∈ s.us ∧ s.pc g = .idle then some { s.emit g (.rel (.hand k)) 0 with toldK := setC s.toldK k (s.toldK k || s.told g) } else none
  | .take g k => if g ∈ s.us ∧ s.pc g = .idle then some { s.emit g (.acq (.hand k)) 0 with told := setC s.told g (s.told g || s.toldK k) } else none

/-- `Pipe`, by goroutine 0 (45). -/
def xmInit : List XmEv := [⟨0, .acc .writer true false, 45⟩, ⟨0, .acc .resp true false, 45⟩, ⟨0, .acc .first true false, 45⟩, ⟨0, .acc .closed true false, 45⟩]

def XmSt.init : XmSt := { tr := xmInit, pc := fun _ => .idle, rd := [], wr := none, wset := false, rset := false, fset := false,
                          closed := false, us := [0], told := fun _ => false, toldK := fun _ => false }

abbrev xmRun (acts : List XmAct) : Option XmSt := runActs xmStep XmSt.init acts

end Qrpc
