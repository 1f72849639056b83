import Verif.Model.WsConn
import Verif.Model.FrameReader
/-!
# reader.go and framereader.go over the connection of ws/server/conn.go

`Reader` and `defaultFrameReader` know their connection only as a `net.Conn`. Model/Reader.lean gives them a connection whose reads are
listed; here they read from `WsConn`, by its own `read`.
-/
namespace Qrpc

/-- reader.go:14-19: the unread part of the `bufio.Reader` and the overlay's connection. -/
structure WsSrc where
  buf : Bytes
  conn : WsConn
deriving Repr, DecidableEq

/-- Go `bufio.Reader.Read(p)` with `len p = n > 0`, as `bufioRead`. -/
def bufioReadW (n : Nat) (s : WsSrc) : Except ReadErr Bytes × WsSrc :=
  if s.buf = [] then
    if readBufSize ≤ n then
      match s.conn.read n with
      | (.error e, c) => (.error e, { s with conn := c })
      | (.ok b, c) => (.ok b, { s with conn := c })
    else
      match s.conn.read readBufSize with
      | (.error e, c) => (.error e, { s with conn := c })
      | (.ok b, c) => (.ok (b.take n), { buf := b.drop n, conn := c })
  else (.ok (s.buf.take n), { s with buf := s.buf.drop n })

/-- Go `io.ReadFull`, as `readFullAux`. Each `Read` returns at least one byte or an error, so that `fuel` rounds are enough when it is not
below the number of bytes asked for (`readBytesW`). -/
def readFullW : (fuel n : Nat) → WsSrc → Bytes → Except ReadErr Bytes × WsSrc
  | _, 0, s, got => (.ok got, s)
  | 0, _ + 1, s, _ => (.error .unexpectedEOF, s)
  | fuel + 1, n + 1, s, got =>
    match bufioReadW (n + 1) s with
    | (.error .eof, s') => (.error (if got = [] then .eof else .unexpectedEOF), s')
    | (.error e, s') => (.error e, s')
    | (.ok b, s') => readFullW fuel (n + 1 - b.length) s' (got ++ b)

/-- reader.go:72-113, as `readBytes`. -/
def readBytesW (n : Nat) (s : WsSrc) : Except ReadErr Bytes × WsSrc := readFullW n n s []

/-- framereader.go:83-127, as `readFrame`. -/
def readFrameW (cfg : FrameReaderCfg) (s : WsSrc) : Except FrameErr Frame × WsSrc :=
  match readBytesW 16 s with
  | (.error e, s1) => (.error (.read e), s1)
  | (.ok header, s1) =>
    let h := parseHeader header
    match checkSize cfg h.size with
    | .error e => (.error e, s1)
    | .ok 0 => (.ok { requestID := h.requestID, cmd := h.cmd, flags := h.flags, payload := [] }, s1)
    | .ok n =>
      match readBytesW n s1 with
      | (.error e, s2) => (.error (.read e), s2)
      | (.ok payload, s2) =>
        if FrameFlag.isCodec h.flags then
          match cfg.codec with
          | none => (.error .noCodec, s2)
          | some c =>
            match c.decode payload with
            | none => (.error .codec, s2)
            | some p => (.ok { requestID := h.requestID, cmd := h.cmd, flags := h.flags, payload := p }, s2)
        else (.ok { requestID := h.requestID, cmd := h.cmd, flags := h.flags, payload := payload }, s2)

/-- `n` consecutive `readFrame` calls. -/
def readNW (cfg : FrameReaderCfg) : Nat → WsSrc → Except FrameErr (List Frame) × WsSrc
  | 0, s => (.ok [], s)
  | n + 1, s =>
    match readFrameW cfg s with
    | (.error e, s1) => (.error e, s1)
    | (.ok f, s1) =>
      match readNW cfg n s1 with
      | (.error e, s2) => (.error e, s2)
      | (.ok fs, s2) => (.ok (f :: fs), s2)

end Qrpc
