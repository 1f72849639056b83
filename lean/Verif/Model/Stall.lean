import Verif.Model.WriteBuf
/-!
# A peer that reads slowly

What the transports tell the loops of writer.go when the peer takes only part of the bytes before the write deadline, which these set
anew in each round to at most three seconds (writer.go:49-59, 103-113). The caller's context is not cancelled and its own timeout, if any,
not reached.

* TCP returns the `*net.OpError` of the deadline. `net.Buffers` writes all buffers at once.
* `crypto/tls` (Go 1.15 and later) wraps the error into a `permanentError` (conn.go, setErrorLocked); gorilla's `websocket` (1.4.1) into a
  `netError` (conn.go, hideTempErr). Neither is a `*net.OpError`. Both get one `Write` per buffer.
* The WebSocket connection reports the whole buffer as written, whatever happened (ws/server/conn.go:66-68); of a message
  that is not written completely the peer sees nothing.
-/
namespace Qrpc

inductive Carrier where
  | tcp | tls | ws
deriving DecidableEq, Repr

/-- The error at the deadline, as writer.go:64 and 118 see it. -/
def Carrier.late : Carrier → WErr
  | .tcp => .timeout
  | .tls | .ws => .other 1

/-- One `Write` of `b` when the peer takes `k` bytes before the deadline. -/
def Carrier.write (c : Carrier) (b : Bytes) (k : Nat) : WOut :=
  if b.length ≤ k then ⟨b.length, none, b.length⟩
  else match c with
    | .ws => ⟨b.length, some c.late, 0⟩
    | _ => ⟨k, some c.late, k⟩

/-- The successive `Write`s of the buffers, until one fails. -/
def Carrier.writes (c : Carrier) : List Bytes → Nat → List WOut
  | [], _ => []
  | b :: bs, k => c.write b k :: if b.length ≤ k then c.writes bs (k - b.length) else []

/-- One round on the buffers that are left. -/
def Carrier.round (c : Carrier) (bufs : List Bytes) (k : Nat) : WRound WTo :=
  { out := match c with
      | .tcp => .vec (c.write bufs.flatten k)
      | _ => .each (c.writes bufs k)
    past := false, done := false }

/-- The rounds of a vectored write whose peer takes `takes[i]` bytes in round `i`. -/
def Carrier.rounds (c : Carrier) : List Bytes → List Nat → List (WRound WTo)
  | _, [] => []
  | bufs, k :: ks =>
    let r := c.round bufs k
    r :: c.rounds ((consume (r.out.run bufs).1 bufs).drop (consumed (r.out.run bufs).1 bufs)) ks

/-- `Writer.writeBuffers` (writer.go:85-136) with such a peer: the result, `none` while it is waiting, and what the peer was given. -/
def slowWrite (c : Carrier) (timed : Bool) (bufs : List Bytes) (takes : List Nat) : Option WRes × Bytes :=
  let r := writerWriteBuffers timed (totalLen bufs) [] bufs 0 (c.rounds bufs takes)
  (r.1, r.2.1)

end Qrpc
