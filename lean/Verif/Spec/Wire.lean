import Verif.Model.FrameReader
/-!
# Independent description of the wire format (README "Packet format" / tool/packet/main.go)

Nothing here uses shifts, masks or the model's writer: numbers are laid out most significant byte first by division.
-/
namespace Qrpc.Spec
open Qrpc

/-- `v` as `n` bytes, most significant first. -/
def be : Nat → Nat → Bytes
  | 0, _ => []
  | n + 1, v => UInt8.ofNat (v / 256 ^ n) :: be n v

/-- The frame layout: 4-byte size of what follows, 8-byte request id, 1 byte of flags, 3 bytes of command, payload. -/
def layout (id : UInt64) (cmd : UInt32) (flags : UInt8) (payload : Bytes) : Bytes :=
  be 4 (12 + payload.length) ++ (be 8 id.toNat ++ (flags :: (be 3 cmd.toNat ++ payload)))

/-- Bytes a source will deliver before its first error / its end. -/
def segBytes : List Seg → Bytes
  | [] => []
  | .err _ :: _ => []
  | .data b :: rest => b ++ segBytes rest

/-- How a list of segments ends: peer close, or an error. -/
def segEnd : List Seg → ReadErr
  | [] => .eof
  | .err c :: _ => .conn c
  | .data _ :: rest => segEnd rest

/-- All bytes still to come from a reader. -/
def srcBytes (s : Src) : Bytes := s.buf ++ segBytes s.conn
/-- What comes after them. -/
def srcEnd (s : Src) : ReadErr := segEnd s.conn

end Qrpc.Spec
