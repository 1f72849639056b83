import Verif.Model.ServeWrite
/-!
# framewriter.go:32-48, 131-143; serveconn.go:452-540, 622-680: whose bytes does the transport take?

`Model/ServeWrite.lean` treats the bytes of a submitted frame as a value. In the code a request carries a pointer to the
writer (serveconn.go:454), the batch holds slices of its buffer (`dfw.GetWbuf()`, 670), and the writers of all connections come
from one `fwPool` (framewriter.go:32, serveconn.go:175, 216, 288, 737, clientconn.go:360, 571). This file adds the memory: any number of connections (each the
write path of `Model/ServeWrite.lean`), a memory of backing arrays, and the rule of use "one goroutine at a time"
(framewriter.go:17): an array is touched only by the goroutine that has the writer, and not while a call of `EndWrite` is in
progress. When the call has returned - whatever it returned - the goroutine may write the next frame into the same array
(140 `wbuf[:16]`), or give the writer back to the pool (`Finalize`, 44-48), from where any connection may get it.

* `w` numbers backing arrays; an `append` that reallocates moves the writer to another number.
* The length of the slice is the one the frame had when it was submitted.
-/
namespace Qrpc

structure LSt where
  conn : Nat → GSt
  mem : Nat → Bytes                    -- backing arrays
  owner : Nat → Option (Nat × Nat)     -- the call in progress (connection, goroutine) that uses an array
  arr : Nat → Nat → Nat                -- the array of the last call of a goroutine
  ref : Nat → Nat → Nat                -- connection, ticket: the array of the request
  wire : Nat → Bytes                   -- what the transport of a connection took

def LSt.init : LSt :=
  { conn := fun _ => GSt.init, mem := fun _ => [], owner := fun _ => none, arr := fun _ _ => 0, ref := fun _ _ => 0,
    wire := fun _ => [] }

inductive LAct where
  | fill (w : Nat) (b : Bytes)             -- StartWrite, WriteBytes, EndWrite up to framewriter.go:138
  | call (c i w : Nat) (f : SFrame)        -- framewriter.go:140: writeFrameBytes on connection c
  | act (c : Nat) (a : GAct)               -- a step of connection c's write path

/-- The new bytes at the start of the array, the rest as it was. -/
def overlay (b old : Bytes) : Bytes := b ++ old.drop b.length

/-- The buffers the transport sees: slices into the memory as it is now. -/
def LSt.slices (s : LSt) (c : Nat) : List Bytes :=
  (s.conn c).batch.map fun t => (s.mem (s.ref c t)).take ((s.conn c).frame t).bytes.length

/-- The goroutine whose call a step can end. -/
def GAct.gor : GAct → Option Nat
  | .enqCtx i | .recv i | .waitCtx i | .go i => some i
  | _ => none

def lStep (cap : Nat) (s : LSt) : LAct → Option LSt
  | .fill w b => match s.owner w with
    | none => some { s with mem := setAt s.mem w (overlay b (s.mem w)) }
    | some _ => none
  | .call c i w f => match s.owner w with
    | some _ => none
    | none =>
      if (s.mem w).take f.bytes.length = f.bytes then
        (gStep cap (s.conn c) (.call i f)).map fun g =>
          { s with conn := setAt s.conn c g, owner := setAt s.owner w (some (c, i)), arr := setAt s.arr c (setAt (s.arr c) i w) }
      else none
  | .act c a => match a with
    | .call _ _ => none
    | .enq i => (gStep cap (s.conn c) (.enq i)).map fun g =>
        { s with conn := setAt s.conn c g,
                 ref := setAt s.ref c (setAt (s.ref c) (s.conn c).frames.length (s.arr c i)) }
    | .write i k ok => (gStep cap (s.conn c) (.write i k ok)).map fun g =>
        { s with conn := setAt s.conn c g, wire := setAt s.wire c (s.wire c ++ (s.slices c).flatten.take k) }
    | a => (gStep cap (s.conn c) a).map fun g =>
        { s with conn := setAt s.conn c g,
                 owner := match a.gor with
                   | some i => if g.pc i = .idle then setAt s.owner (s.arr c i) none else s.owner
                   | none => s.owner }

def lRun (cap : Nat) (acts : List LAct) : Option LSt := runActs (lStep cap) LSt.init acts

end Qrpc
