import Verif.Model.Reader
/-!
# ws/server/conn.go: `conn`, the WebSocket overlay (used by ws/client too)

`wc.ReadMessage` (gorilla/websocket, outside the repository) is the environment: the list of results it will give. `Write`
(66-68) is one `WriteMessage` of type binary; that it reports `len(b)` even on an error is in Model/WriteBuf.lean.

Simplified: the buffer passed to Read is its length, the bytes copied are returned.
-/
namespace Qrpc

/-- Types of messages (RFC 6455). -/
inductive WsType where
  | text | binary | close | ping | pong
deriving DecidableEq, Repr

/-- One result of ReadMessage; `closeErr` is the result of the `wc.Close()` that Read calls on a message it does not expect. -/
inductive WsIn where
  | msg (ty : WsType) (b : Bytes) (closeErr : Option Nat)
  | err (code : Nat)
deriving DecidableEq, Repr

/-- conn.go:14-17; `inbox` is what is to come. -/
structure WsConn where
  buffer : Bytes
  inbox : List WsIn
deriving DecidableEq, Repr

/-- conn.go:61-65. -/
def WsConn.readBuffer (c : WsConn) (n : Nat) : Except ReadErr Bytes × WsConn :=
  (.ok (c.buffer.take n), { c with buffer := c.buffer.drop n })

/-- conn.go:33-57. When nothing more is to come the peer has closed. An error of ReadMessage is permanent. -/
def wsLoop (n : Nat) : List WsIn → Except ReadErr Bytes × WsConn
  | [] => (.error .eof, { buffer := [], inbox := [] })
  | .err e :: l => (.error (.conn e), { buffer := [], inbox := .err e :: l })
  | .msg .close _ ce :: l | .msg .ping _ ce :: l | .msg .pong _ ce :: l | .msg .text _ ce :: l =>
    match ce with
    | some e => (.error (.conn e), { buffer := [], inbox := l })
    | none => wsLoop n l
  | .msg .binary b _ :: l =>
    if b.length = 0 then wsLoop n l
    else WsConn.readBuffer { buffer := b, inbox := l } n

/-- conn.go:24-59. -/
def WsConn.read (c : WsConn) (n : Nat) : Except ReadErr Bytes × WsConn :=
  if c.buffer.length > 0 then c.readBuffer n else wsLoop n c.inbox

/-- Several reads with buffers of the given sizes, up to the first error. -/
def WsConn.reads (c : WsConn) : List Nat → List Bytes × Option ReadErr × WsConn
  | [] => ([], none, c)
  | n :: ns =>
    match c.read n with
    | (.error e, c') => ([], some e, c')
    | (.ok b, c') =>
      let r := c'.reads ns
      (b :: r.1, r.2)

/-- conn.go:66-68 on the sending side: the messages made of successive Writes. -/
def wsWrites (l : List Bytes) : List WsIn := l.map (fun b => .msg .binary b none)

end Qrpc
