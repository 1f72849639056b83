import Verif.Model.Bytes
/-!
# writer.go: `Writer.Write`, `Writer.writeBuffers`; Go's `net.Buffers`

The transport (`net.Conn`) and the clock are the environment: a call of `conn.Write` is described by what it reports and by
what really reached the transport. Deadlines only influence when a call reports a timeout, so they appear as the answer
`past` of `time.Now().After(endTime)` in each round (deadline arithmetic itself: `Model/Deadline.lean`).
-/
namespace Qrpc

/-- writer.go:64, 118: errors are either `*net.OpError` with `Timeout()`, or anything else. -/
inductive WErr where
  | timeout
  | other (code : Nat)
  | ctx            -- writer.go:78, 132: ctx.Err()
deriving Repr, DecidableEq

/-- One call of `conn.Write(b)`: `n`, `err` are what it returns, `sent` is how many bytes of `b` the transport really took. -/
structure WOut where
  n : Nat
  err : Option WErr
  sent : Nat
deriving Repr, DecidableEq

/-- The `net.Conn`/`io.Writer` contract for one call on a buffer of length `len`. -/
def WOut.Honest (o : WOut) (len : Nat) : Prop := o.n ≤ len ∧ o.sent = o.n ∧ (o.err = none → o.n = len)

/-- The environment's answers in one round of the loops at writer.go:49-81 / 103-135. -/
structure WRound (α : Type) where
  out : α
  past : Bool   -- time.Now().After(endTime) (writer.go:65, 119)
  done : Bool   -- ctx.Done() ready (writer.go:76-80, 130-134)

/-- How a write loop ends; `none`: still running (the environment's answers are used up). -/
structure WRes where
  offset : Nat
  err : Option WErr
deriving Repr, DecidableEq

/-- writer.go:63-80 / 117-134, the decision after a write: `some` = return. -/
def afterWrite (timed : Bool) (size offset : Nat) (err : Option WErr) (past done : Bool) : Option WRes :=
  match err with
  | some .timeout =>
    if timed && past then some ⟨offset, err⟩
    else if offset ≥ size then some ⟨offset, none⟩
    else if done then some ⟨offset, some .ctx⟩
    else none
  | some e => some ⟨offset, some e⟩
  | none =>
    if offset ≥ size then some ⟨offset, none⟩
    else if done then some ⟨offset, some .ctx⟩
    else none

/-- writer.go:34-83 `Writer.Write`; `timed` is `timeout > 0`. Result, and the bytes given to the transport. -/
def writerWrite (timed : Bool) (bytes : Bytes) : (offset : Nat) → List (WRound WOut) → Option WRes × Bytes
  | _, [] => (none, [])
  | offset, r :: rs =>
    let sent := (bytes.drop offset).take r.out.sent
    let offset := offset + r.out.n
    match afterWrite timed bytes.length offset r.out.err r.past r.done with
    | some res => (some res, sent)
    | none =>
      let (res, more) := writerWrite timed bytes offset rs
      (res, sent ++ more)

/-! ## net.Buffers (Go standard library, net/net.go) -/

/-- `func (v *Buffers) consume(n int64)`: fully written buffers become nil (here: empty) in the backing array and are
skipped, the first other one is cut. The result is the backing array; `consumed` says how many entries were skipped. -/
def consume : (n : Nat) → List Bytes → List Bytes
  | _, [] => []
  | n, b :: bs => if b.length > n then b.drop n :: bs else [] :: consume (n - b.length) bs

/-- How many buffers `consume` skipped. -/
def consumed : (n : Nat) → List Bytes → Nat
  | _, [] => 0
  | n, b :: bs => if b.length > n then 0 else consumed (n - b.length) bs + 1

/-- `Buffers.WriteTo` on a connection with `writeBuffers` (TCP, Unix sockets): `writev` in a loop until everything is
written or an error; the bytes of all buffers go out in order. -/
def writeToVec (bufs : List Bytes) (o : WOut) : Nat × Option WErr × Bytes × List Bytes :=
  (o.n, o.err, bufs.flatten.take o.sent, consume o.n bufs)

/-- `Buffers.WriteTo` on any other connection (TLS, WebSocket overlay): one `Write` per buffer, stopping at an error.
Returns `n`, `err` and the bytes given to the transport. `outs` answers the successive calls. -/
def writeEach : List Bytes → List WOut → Nat × Option WErr × Bytes
  | [], _ => (0, none, [])
  | _ :: _, [] => (0, some (.other 0), [])   -- not reached: one answer per call (see `HonestEach`)
  | b :: bs, o :: os =>
    match o.err with
    | some e => (o.n, some e, b.take o.sent)
    | none =>
      let (n, err, sent) := writeEach bs os
      (o.n + n, err, b.take o.sent ++ sent)

def writeToEach (bufs : List Bytes) (outs : List WOut) : Nat × Option WErr × Bytes × List Bytes :=
  let (n, err, sent) := writeEach bufs outs
  (n, err, sent, consume n bufs)

/-- The answers of one `WriteTo`: which path is taken is a property of the connection's type. -/
inductive WTo where
  | vec (o : WOut)
  | each (os : List WOut)

def WTo.run (bufs : List Bytes) : WTo → Nat × Option WErr × Bytes × List Bytes
  | .vec o => writeToVec bufs o
  | .each os => writeToEach bufs os

/-- Total length, writer.go:98-101. -/
def totalLen (bufs : List Bytes) : Nat := (bufs.map List.length).sum

/-- writer.go:85-136 `Writer.writeBuffers`: result, bytes given to the transport, and what is left in the backing array of
`buffs` (the caller looks at it: serveconn.go:586-588, 603, clientconn.go:745-747, 755). `skipped` are the (now empty) entries of the
backing array in front of the slice `*buffs`; `size` is computed once at the start. -/
def writerWriteBuffers (timed : Bool) (size : Nat) : (skipped bufs : List Bytes) → (offset : Nat) → List (WRound WTo) →
    Option WRes × Bytes × List Bytes
  | skipped, bufs, _, [] => (none, [], skipped ++ bufs)
  | skipped, bufs, offset, r :: rs =>
    let (n, err, sent, bufs') := r.out.run bufs
    let offset := offset + n
    let k := consumed n bufs
    match afterWrite timed size offset err r.past r.done with
    | some res => (some res, sent, skipped ++ bufs')
    | none =>
      let (res, more, arr) := writerWriteBuffers timed size (skipped ++ bufs'.take k) (bufs'.drop k) offset rs
      (res, sent ++ more, arr)

end Qrpc
