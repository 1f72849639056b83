import Verif.Model.Bytes
import Verif.Model.Flags
/-!
# framewriter.go: `defaultFrameWriter`, `defaultStreamWriter`; conf.go: `CompressorCodec`
-/
namespace Qrpc

/-- conf.go:14-17 `CompressorCodec`. `Encode` is documented as "should try to do it in place if possible", so a
call returns the content its argument buffer has *after* the call, and the result (`none` = error). -/
structure Codec where
  encode : Bytes → Bytes × Option Bytes
  decode : Bytes → Option Bytes

/-- Errors a write can report: `ErrNoCodec` (framewriter.go:93), an error of `codec.Encode`
(framewriter.go:109-112), or whatever `writeFrameBytes` returned (framewriter.go:140). -/
inductive FwErr (ε : Type) where
  | noCodec
  | codec
  | write (e : ε)
deriving Repr, DecidableEq

/-- framewriter.go:18-23 `defaultFrameWriter`. `fbw` (the connection) is a parameter of the operations;
`resp` is the pointer to the registered response, if any. -/
structure DFW where
  wbuf : Bytes
  resp : Option Nat := none
  checkExist : Bool := false
deriving Repr, DecidableEq

/-- framewriter.go:29 `headerSize` -/
def headerSize : Nat := 16

namespace DFW

/-- framewriter.go:32-34: a writer made by `fwPool.New`: `headerSize` zero bytes. -/
def new : DFW := { wbuf := List.replicate headerSize 0 }

/-- framewriter.go:37-42 `newFrameWriter` applied to the object taken from the pool: only `fbw` and `checkExist` are set. -/
def fromPool (d : DFW) : DFW := { d with checkExist := false }

/-- framewriter.go:44-48 `Finalize`: clears `fbw`, `resp` and puts the object (with its `wbuf`) back into the pool. -/
def finalize (d : DFW) : DFW := { d with resp := none }

/-- framewriter.go:51-55 `StartWrite` -/
def startWrite (d : DFW) (requestID : UInt64) (cmd : Cmd) (flags : FrameFlag) : DFW :=
  let b1 := putAt d.wbuf 4 (putUint64 requestID)
  let cmdAndFlags : UInt32 := (flags.toUInt32 <<< 24) + (cmd &&& (0xffffff : UInt32))
  { d with wbuf := putAt b1 12 (putUint32 cmdAndFlags) }

/-- framewriter.go:57-60 `Cmd` -/
def cmd (d : DFW) : Cmd :=
  ((d.wbuf.getD 13 0).toUInt32 <<< 16) ||| ((d.wbuf.getD 14 0).toUInt32 <<< 8) ||| (d.wbuf.getD 15 0).toUInt32

/-- framewriter.go:62-64 `SetCmd` -/
def setCmd (d : DFW) (c : Cmd) : DFW :=
  { d with wbuf := putAt d.wbuf 13 [(c >>> 16).toUInt8, (c >>> 8).toUInt8, c.toUInt8] }

/-- framewriter.go:66-69 `RequestID` -/
def requestID (d : DFW) : UInt64 := getUint64 (d.wbuf.drop 4)

/-- framewriter.go:71-73 `SetRequestID` -/
def setRequestID (d : DFW) (id : UInt64) : DFW := { d with wbuf := putAt d.wbuf 4 (putUint64 id) }

/-- framewriter.go:75-77 `Flags` -/
def flags (d : DFW) : FrameFlag := d.wbuf.getD 12 0

/-- framewriter.go:79-81 `SetFlags` -/
def setFlags (d : DFW) (f : FrameFlag) : DFW := { d with wbuf := putAt d.wbuf 12 [f] }

/-- framewriter.go:87-89 `Payload` -/
def payload (d : DFW) : Bytes := d.wbuf.drop 16

/-- framewriter.go:182 `WriteBytes` -/
def writeBytes (d : DFW) (v : Bytes) : DFW := { d with wbuf := d.wbuf ++ v }
/-- framewriter.go:162-164 `WriteUint64` -/
def writeUint64 (d : DFW) (v : UInt64) : DFW := d.writeBytes (putUint64 v)
/-- framewriter.go:167-169 `WriteUint32` -/
def writeUint32 (d : DFW) (v : UInt32) : DFW := d.writeBytes (putUint32 v)
/-- framewriter.go:172-174 `WriteUint16` -/
def writeUint16 (d : DFW) (v : UInt16) : DFW := d.writeBytes [(v >>> 8).toUInt8, v.toUInt8]
/-- framewriter.go:177-179 `WriteUint8` -/
def writeUint8 (d : DFW) (v : UInt8) : DFW := d.writeBytes [v]

/-- framewriter.go:133-138: the length of everything after the first four bytes, written into them
(`byte(length>>24)`, ... truncate). -/
def fillLength (d : DFW) : DFW :=
  let length := d.wbuf.length - 4
  let bs : Bytes :=
    [UInt8.ofNat (length >>> 24), UInt8.ofNat (length >>> 16), UInt8.ofNat (length >>> 8), UInt8.ofNat length]
  { d with wbuf := putAt d.wbuf 0 bs }

/-- framewriter.go:145-147 `Length` -/
def length (d : DFW) : Nat := (getUint32 d.wbuf).toNat

/-- What an `EndWrite`-like call did: the writer afterwards, the bytes handed to `writeFrameBytes` (if it got
that far) and the error returned. -/
structure EndResult (ε : Type) where
  dfw : DFW
  submitted : Option DFW
  err : Option (FwErr ε)

/-- framewriter.go:131-143 `endWrite`; `write` stands for `fbw.writeFrameBytes`. -/
def endWriteRaw {ε} (write : DFW → Option ε) (d : DFW) : EndResult ε :=
  let d1 := d.fillLength
  { dfw := { d1 with wbuf := d1.wbuf.take 16 }, submitted := some d1, err := (write d1).map .write }

/-- framewriter.go:97-124 `EndWrite`; `codec` stands for `fbw.getCodec()` (`none` = nil). -/
def endWrite {ε} (codec : Option Codec) (write : DFW → Option ε) (d : DFW) : EndResult ε :=
  let payloadLength := d.payload.length
  if payloadLength = 0 then
    endWriteRaw write (d.setFlags (FrameFlag.toNonCodec d.flags))
  else if FrameFlag.isCodec d.flags then
    match codec with
    | none => { dfw := d, submitted := none, err := some .noCodec }
    | some c =>
      -- codec.Encode(dfw.Payload()): the argument aliases wbuf[16:]
      let (buf', enc) := c.encode d.payload
      let d' : DFW := { d with wbuf := d.wbuf.take 16 ++ buf' }
      match enc with
      | none => { dfw := d', submitted := none, err := some .codec }
      | some e =>
        if e.length > payloadLength then
          endWriteRaw write (d'.setFlags (FrameFlag.toNonCodec d'.flags))
        else
          endWriteRaw write ({ d' with wbuf := d'.wbuf.take 16 }.writeBytes e)
  else endWriteRaw write d

/-- framewriter.go:126-129 `EndWriteCompressed` -/
def endWriteCompressed {ε} (write : DFW → Option ε) (d : DFW) : EndResult ε :=
  endWriteRaw write (d.setFlags (FrameFlag.toCodec d.flags))

/-- framewriter.go:149-154 `StreamEndWrite` (= `defaultStreamWriter.EndWrite`, framewriter.go:199-201) -/
def streamEndWrite {ε} (codec : Option Codec) (write : DFW → Option ε) (d : DFW) (end_ : Bool) : EndResult ε :=
  let d := if end_ then d.setFlags (FrameFlag.toEndStream d.flags) else d
  d.endWrite codec write

/-- framewriter.go:156-159 `ResetFrame` -/
def resetFrame {ε} (codec : Option Codec) (write : DFW → Option ε) (d : DFW) (requestID : UInt64) (reason : Cmd) :
    EndResult ε :=
  (d.startWrite requestID reason StreamRstFlag).endWrite codec write

/-- framewriter.go:207-212 `defaultStreamWriter.ResetFrame` -/
def streamResetFrame {ε} (codec : Option Codec) (write : DFW → Option ε) (d : DFW) (reason : Cmd) : EndResult ε :=
  d.resetFrame codec write d.requestID reason

end DFW
end Qrpc
