import Verif.Model.Client
/-!
# Context values: what a handler can find out about its connection

frame.go:51-92, 116-124 (`ConnectionInfo`, `ClientConnectionInfo`, `Close`, `StreamInitiator`), clientconn.go:187-211
(`newConnection`), 284 (`connect`), server.go:421-444 (`newConn`), stream.go:89-94 (`newStream`), framereader.go:62.

A context is what `context.WithCancel` and `context.WithValue` were applied to; cancellation is the subject of `Model/Ctx.lean`.
A type assertion `v.(*T)` without `ok` on a missing value is a panic.
-/
namespace Qrpc

inductive CtxKey where
  | conn      -- ConnectionInfoKey (serveconn.go:64)
  | client    -- ClientConnectionInfoKey (clientconn.go:180)
deriving DecidableEq, Repr

/-- The values stored are pointers to connections: `n` is the `serveconn` or the `Connection` of that number. -/
inductive GoCtx where
  | background
  | withCancel (p : GoCtx)
  | withValue (k : CtxKey) (n : Nat) (p : GoCtx)
deriving Repr

/-- `ctx.Value(key)` -/
def GoCtx.value : GoCtx → CtxKey → Option Nat
  | .background, _ => none
  | .withCancel p, k => p.value k
  | .withValue k' n p, k => if k' = k then some n else p.value k

/-- The contexts of a client connection: `conn.ctx`, and `conn.loopCtx` of the current transport connection. -/
structure CCtx where
  ctx : GoCtx
  loopCtx : Option GoCtx

/-- clientconn.go:187-211 `newConnection` of connection number `cc`: the value is added to `c.ctx` (199), but the loop context of
the transport connection dialed beforehand is derived from the local variable `ctx` (204). -/
def newConnectionCtx (cc : Nat) (handler dialed : Bool) : CCtx :=
  let ctx := GoCtx.withCancel .background
  { ctx := if handler then .withValue .client cc ctx else ctx
    loopCtx := if dialed then some (.withCancel ctx) else none }

/-- clientconn.go:284, a successful dial in `connect`. -/
def connectCtx (c : CCtx) : CCtx := { c with loopCtx := some (.withCancel c.ctx) }

/-- The contexts after `n` successful dials of `connect`. -/
def clientCtx (cc : Nat) (handler dialed : Bool) : Nat → CCtx
  | 0 => newConnectionCtx cc handler dialed
  | n + 1 => connectCtx (clientCtx cc handler dialed n)

/-- server.go:434-438 `newConn` of connection number `sc` under the context of `Serve` (292). -/
def newConnCtx (sc : Nat) (serveCtx : GoCtx) : GoCtx := .withValue .conn sc (.withCancel serveCtx)

/-- server.go:292 -/
def serveCtx : GoCtx := .withCancel .background

/-- stream.go:90 (`ctx` is the reader's: framereader.go:62, serveconn.go:173, clientconn.go:485) -/
def streamCtx (readerCtx : GoCtx) : GoCtx := .withCancel readerCtx

/-- The outcome of one of the methods. -/
inductive FrOut where
  | panic
  | server (sc : Nat)    -- `serveconn` number sc: returned, or closed
  | client (cc : Nat)    -- `Connection` number cc: returned, or its transport connection closed
deriving DecidableEq, Repr

/-- frame.go:51-56 -/
def frameConnectionInfo (ctx : GoCtx) : FrOut := match ctx.value .conn with
  | some sc => .server sc
  | none => .panic

/-- frame.go:58-63 -/
def frameClientConnectionInfo (ctx : GoCtx) : FrOut := match ctx.value .client with
  | some cc => .client cc
  | none => .panic

/-- frame.go:76-92 `Close` -/
def frameClose (rid : UInt64) (ctx : GoCtx) : FrOut :=
  if rid % 2 = 1 then match ctx.value .conn with
    | some sc => .server sc
    | none => .panic
  else match ctx.value .client with
    | none => match ctx.value .conn with
      | some sc => .server sc
      | none => .panic
    | some cc => .client cc

/-- frame.go:117-124 `StreamInitiator` -/
def frameStreamInitiator (ctx : GoCtx) : FrOut := match ctx.value .conn with
  | some sc => .server sc
  | none => match ctx.value .client with
    | some cc => .client cc
    | none => .panic

end Qrpc
