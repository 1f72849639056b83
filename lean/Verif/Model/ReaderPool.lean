import Verif.Model.Reader
import Verif.Model.ServeWrite
/-!
# reader.go:33-53: the `bufio.Reader`s shared by all connections

Every connection has one `Reader` (made by `newFrameReader` in the goroutine that reads, clientconn.go:485, or before it is
started, serveconn.go:173), which takes a `bufio.Reader` from `bufPool` and gives it back in `Finalize` (clientconn.go:486,
serveconn.go:379; some ways out of the server's `readFrames` leave it out). `bufio.Reader.Reset` forgets the buffered bytes
and the remembered error. `sync.Pool` returns any object put into it, each to one caller, or makes a new one; it may drop objects.
-/
namespace Qrpc

structure RpSt where
  n : Nat                     -- bufio.Readers made so far
  buf : Nat → Bytes           -- the bytes a bufio.Reader holds
  src : Nat → Option Nat      -- the connection it reads from
  pool : List Nat
  rd : Nat → Option Nat       -- Reader.reader of connection c
  made : Nat → Bool           -- connection c has (had) its Reader
  conn : Nat → List Seg       -- what connection c will deliver
  got : Nat → Bytes           -- ghost: the bytes ReadBytes has taken, by connection

def RpSt.init (conn : Nat → List Seg) : RpSt :=
  ⟨0, fun _ => [], fun _ => none, [], fun _ => none, fun _ => false, conn, fun _ => []⟩

inductive RpAct where
  | get (c : Nat) (o : Option Nat)   -- NewReaderWithTimeout; o: what the pool gives
  | read (c n : Nat)                 -- one bufio Read into n + 1 bytes, by io.ReadFull
  | fin (c : Nat)                    -- Finalize
  | drop (o : Nat)                   -- the pool forgets an object

def rpStep (s : RpSt) : RpAct → Option RpSt
  -- reader.go:43-45
  | .get c o =>
    if s.made c then none
    else match o with
      | none => some { s with n := s.n + 1, buf := setAt s.buf s.n [], src := setAt s.src s.n (some c), rd := setAt s.rd c (some s.n)
                              made := setAt s.made c true }
      | some o =>
        if o ∈ s.pool then
          some { s with buf := setAt s.buf o [], src := setAt s.src o (some c), pool := s.pool.erase o, rd := setAt s.rd c (some o)
                        made := setAt s.made c true }
        else none
  -- reader.go:97
  | .read c n => match s.rd c with
    | none => none                   -- not made yet; after Finalize it would panic
    | some o => match s.src o with
      | none => none
      | some d => match bufioRead (n + 1) ⟨s.buf o, s.conn d⟩ with
        | (.ok b, r) => some { s with buf := setAt s.buf o r.buf, conn := setAt s.conn d r.conn, got := setAt s.got c (s.got c ++ b) }
        | (.error _, r) => some { s with buf := setAt s.buf o r.buf, conn := setAt s.conn d r.conn }
  -- reader.go:50-52
  | .fin c => match s.rd c with
    | none => none
    | some o => some { s with buf := setAt s.buf o [], src := setAt s.src o none, pool := s.pool ++ [o], rd := setAt s.rd c none }
  | .drop o => some { s with pool := s.pool.erase o }

abbrev rpRun (conn : Nat → List Seg) (acts : List RpAct) : Option RpSt := runActs rpStep (RpSt.init conn) acts

end Qrpc
