import Verif.Model.FrameWriter
/-!
# The first frame of a request: `Request` / `StreamRequest` of both connection types, and tool/packet

`write` stands for the connection's `writeFrameBytes`, `pooled` for the object `fwPool.Get` returns; the closed check
(clientconn.go:353-355, serveconn.go:730-732) and the response table are in the connection models.
-/
namespace Qrpc

/-- clientconn.go:357-373 / serveconn.go:736-751 `writeFirstFrame` after the closed check. `respId` is the fresh
`response` object (none for push frames). -/
def writeFirstFrame {ε} (codec : Option Codec) (write : DFW → Option ε) (pooled : DFW)
    (requestID : UInt64) (respId : Nat) (cmd : Cmd) (flags : FrameFlag) (payload : Bytes) : DFW.EndResult ε :=
  let w := pooled.fromPool
  let w := if FrameFlag.isPush flags then w else { w with resp := some respId }
  ((w.startWrite requestID cmd flags).writeBytes payload).endWrite codec write

/-- clientconn.go:328-334 `Connection.Request` -/
def clientRequest {ε} (codec : Option Codec) (write : DFW → Option ε) (pooled : DFW)
    (requestID : UInt64) (respId : Nat) (cmd : Cmd) (flags : FrameFlag) (payload : Bytes) : DFW.EndResult ε :=
  writeFirstFrame codec write pooled requestID respId cmd (FrameFlag.toNonStream flags) payload

/-- clientconn.go:313-324 / serveconn.go:706-717 `StreamRequest`: on success the writer, with `checkExist` set, is the StreamWriter. -/
def streamRequest {ε} (codec : Option Codec) (write : DFW → Option ε) (pooled : DFW)
    (requestID : UInt64) (respId : Nat) (cmd : Cmd) (flags : FrameFlag) (payload : Bytes) : DFW.EndResult ε :=
  let r := writeFirstFrame codec write pooled requestID respId cmd (FrameFlag.toStream flags) payload
  { r with dfw := { r.dfw with checkExist := true } }

/-- serveconn.go:698-703 `serveconn.Request` -/
def serveRequest {ε} (codec : Option Codec) (write : DFW → Option ε) (pooled : DFW)
    (requestID : UInt64) (respId : Nat) (cmd : Cmd) (flags : FrameFlag) (payload : Bytes) : DFW.EndResult ε :=
  writeFirstFrame codec write pooled requestID respId cmd (flags ||| NBFlag) payload

/-- Operations of a `StreamWriter` (framewriter.go:184-212). -/
inductive SwOp where
  | startWrite (c : Cmd)
  | writeBytes (v : Bytes)
  | endWrite (end_ : Bool)
  | endWriteCompressed
  | resetFrame (reason : Cmd)
deriving Repr, DecidableEq

/-- One `StreamWriter` call: the writer afterwards and the frame submitted, if any. -/
def swStep {ε} (codec : Option Codec) (write : DFW → Option ε) (d : DFW) : SwOp → DFW × Option DFW
  | .startWrite c => (d.setCmd c, none)
  | .writeBytes v => (d.writeBytes v, none)
  | .endWrite e => let r := d.streamEndWrite codec write e; (r.dfw, r.submitted)
  | .endWriteCompressed => let r := d.endWriteCompressed write; (r.dfw, r.submitted)
  | .resetFrame reason => let r := d.streamResetFrame codec write reason; (r.dfw, r.submitted)

/-- A sequence of `StreamWriter` calls; the result pairs each submitted frame with the calls made up to and
including the one that submitted it. -/
def swRun {ε} (codec : Option Codec) (write : DFW → Option ε) : DFW → List SwOp → List SwOp → List (List SwOp × DFW)
  | _, _, [] => []
  | d, past, op :: ops =>
    let r := swStep codec write d op
    let past' := past ++ [op]
    (match r.2 with | some s => [(past', s)] | none => []) ++ swRun codec write r.1 past' ops

/-- tool/packet/main.go:26-41: the bytes printed; `none` is `log.Fatal`. `cmd` and `flg` are Go `int`s. -/
def packetTool (cmd flg : Int) (requestID : UInt64) (payload : Bytes) : Option Bytes :=
  if cmd < 0 ∨ cmd > 0xffffff then none
  else if flg < 0 ∨ flg > 0xff then none
  else
    let buf : Bytes := List.replicate (16 + payload.length) 0
    let buf := putAt buf 0 (putUint32 (UInt32.ofNat (buf.length - 4)))
    let buf := putAt buf 4 (putUint64 requestID)
    let cmdAndFlags := (UInt32.ofNat flg.toNat <<< 24) + (UInt32.ofNat cmd.toNat &&& (0xffffff : UInt32))
    let buf := putAt buf 12 (putUint32 cmdAndFlags)
    some (putAt buf 16 payload)

end Qrpc
