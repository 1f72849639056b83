import Verif.Model.Reader
import Verif.Model.FrameWriter
/-!
# framereader.go: `readFrame`; frame.go: `Frame`
-/
namespace Qrpc

/-- frame.go:9-16 `Frame` (the `Stream` pointer is attached by `TryBind`, see `Model/Stream.lean`; a nil payload is `[]`). -/
structure Frame where
  requestID : UInt64
  flags : FrameFlag
  cmd : Cmd
  payload : Bytes
deriving Repr, DecidableEq

/-- frame.go:37-40, 43-46 -/
def Frame.fromClient (f : Frame) : Bool := f.requestID % 2 == 1
def Frame.fromServer (f : Frame) : Bool := f.requestID % 2 == 0

/-- Errors of `readFrame`. -/
inductive FrameErr where
  | read (e : ReadErr)
  | tooLarge        -- ErrFrameTooLarge, framereader.go:17
  | invalidSize     -- ErrInvalidFrameSize, framereader.go:15
  | noCodec         -- ErrNoCodec, framewriter.go:93
  | codec           -- error of codec.Decode
deriving Repr, DecidableEq

/-- framereader.go:22-28 `defaultFrameReader`: the configuration part. `maxFrameSize` is a Go `int`. -/
structure FrameReaderCfg where
  maxFrameSize : Int
  codec : Option Codec

/-- serveconn.go:21-22 `DefaultMaxFrameSize` -/
def defaultMaxFrameSize : Int := 10 * 1024 * 1024

/-- serveconn.go:167-173: the reader configuration of a server connection. -/
def serveReaderCfg (bindingMaxFrameSize : Int) (codec : Option Codec) : FrameReaderCfg :=
  { maxFrameSize := if bindingMaxFrameSize > 0 then bindingMaxFrameSize else defaultMaxFrameSize, codec }

/-- framereader.go:31-33 `newFrameReader`: the client's reader has no limit. -/
def clientReaderCfg (codec : Option Codec) : FrameReaderCfg := { maxFrameSize := 0, codec }

/-- Parsed header, framereader.go:91-95. -/
structure Header where
  size : UInt32
  requestID : UInt64
  cmd : Cmd
  flags : FrameFlag
deriving Repr, DecidableEq

/-- framereader.go:91-95 -/
def parseHeader (header : Bytes) : Header :=
  let cmdAndFlags := getUint32 (header.drop 12)
  { size := getUint32 header
    requestID := getUint64 (header.drop 4)
    cmd := cmdAndFlags &&& 0xffffff
    flags := (cmdAndFlags >>> 24).toUInt8 }

/-- framereader.go:98-104: the size checks; `ok n` is the length passed to `make([]byte, size-12)` (0 = not called). -/
def checkSize (cfg : FrameReaderCfg) (size : UInt32) : Except FrameErr Nat :=
  if cfg.maxFrameSize > 0 ∧ size > UInt32.ofNat cfg.maxFrameSize.toNat then .error .tooLarge
  else if size < 12 then .error .invalidSize
  else .ok (size - 12).toNat

/-- framereader.go:83-127 `readFrame` -/
def readFrame (cfg : FrameReaderCfg) (s : Src) : Except FrameErr Frame × Src :=
  match readBytes 16 s with
  | (.error e, s1) => (.error (.read e), s1)
  | (.ok header, s1) =>
    let h := parseHeader header
    match checkSize cfg h.size with
    | .error e => (.error e, s1)
    | .ok 0 => (.ok { requestID := h.requestID, cmd := h.cmd, flags := h.flags, payload := [] }, s1)
    | .ok n =>
      match readBytes n s1 with
      | (.error e, s2) => (.error (.read e), s2)
      | (.ok payload, s2) =>
        if FrameFlag.isCodec h.flags then
          match cfg.codec with
          | none => (.error .noCodec, s2)
          | some c =>
            match c.decode payload with
            | none => (.error .codec, s2)
            | some p => (.ok { requestID := h.requestID, cmd := h.cmd, flags := h.flags, payload := p }, s2)
        else (.ok { requestID := h.requestID, cmd := h.cmd, flags := h.flags, payload := payload }, s2)

/-- `n` consecutive `readFrame` calls (the loop `goto start` of framereader.go:40-77 without the stream logic). -/
def readN (cfg : FrameReaderCfg) : Nat → Src → Except FrameErr (List Frame) × Src
  | 0, s => (.ok [], s)
  | n + 1, s =>
    match readFrame cfg s with
    | (.error e, s1) => (.error e, s1)
    | (.ok f, s1) =>
      match readN cfg n s1 with
      | (.error e, s2) => (.error e, s2)
      | (.ok fs, s2) => (.ok (f :: fs), s2)

end Qrpc
