/-!
# Byte strings and big-endian integers

Go `[]byte` is `List UInt8`. `encoding/binary.BigEndian` (Go standard library, used by
`framewriter.go:52-54,66-72`, `framereader.go:91-93`, `reader.go:68`) is modelled with the same shifts and ors.
-/
namespace Qrpc

/-- Go `[]byte`. -/
abbrev Bytes := List UInt8

/-- `binary.BigEndian.PutUint32` (used at framewriter.go:54). -/
def putUint32 (v : UInt32) : Bytes :=
  [(v >>> 24).toUInt8, (v >>> 16).toUInt8, (v >>> 8).toUInt8, v.toUInt8]

/-- `binary.BigEndian.PutUint64` (used at framewriter.go:52, 72). -/
def putUint64 (v : UInt64) : Bytes :=
  [(v >>> 56).toUInt8, (v >>> 48).toUInt8, (v >>> 40).toUInt8, (v >>> 32).toUInt8,
   (v >>> 24).toUInt8, (v >>> 16).toUInt8, (v >>> 8).toUInt8, v.toUInt8]

/-- `binary.BigEndian.Uint32` (used at framereader.go:91, 93; reader.go:68). The Go function panics on a
slice shorter than 4; every use in the model is on a slice of at least 4 bytes, the `0` is unreachable. -/
def getUint32 : Bytes → UInt32
  | b0 :: b1 :: b2 :: b3 :: _ =>
    b3.toUInt32 ||| (b2.toUInt32 <<< 8) ||| (b1.toUInt32 <<< 16) ||| (b0.toUInt32 <<< 24)
  | _ => 0

/-- `binary.BigEndian.Uint64` (used at framereader.go:92, framewriter.go:67). As above for short slices. -/
def getUint64 : Bytes → UInt64
  | b0 :: b1 :: b2 :: b3 :: b4 :: b5 :: b6 :: b7 :: _ =>
    b7.toUInt64 ||| (b6.toUInt64 <<< 8) ||| (b5.toUInt64 <<< 16) ||| (b4.toUInt64 <<< 24) |||
    (b3.toUInt64 <<< 32) ||| (b2.toUInt64 <<< 40) ||| (b1.toUInt64 <<< 48) ||| (b0.toUInt64 <<< 56)
  | _ => 0

/-- In-place overwrite of `buf[off : off+len(bs)]`, the effect of `PutUintNN(buf[off:], _)` and of
`append(buf[:off], bs...)` on a slice whose capacity already covers the region (framewriter.go:52-54, 63, 80, 134-138). -/
def putAt (buf : Bytes) (off : Nat) (bs : Bytes) : Bytes :=
  buf.take off ++ bs ++ buf.drop (off + bs.length)

end Qrpc
