import Verif.Model.Bytes
/-!
# codegen/pb/rpc.pb.go: encoding and decoding of RpcRequest

A Go `int` is an `Int`; the additions that can overflow (223, 252, 280, 298, 301, 365, 396) are reduced with `wrap64`. Indices
into the input are kept as a position and the bytes from that position on. A run-time panic (index or slice bounds out of range)
is the result `panic`; `stack` is the number of nested calls of skipRpc that fit on the stack: one more kills the process (`fatal`).
Error texts are reduced to a constructor.

Simplified: the three copies of the length loop (205-218, 234-247, 263-276; the last one accumulates in an `int` instead of a
`uint64`) and the one at 351-364 are one function, followed by the conversion to `int`.
-/
namespace Qrpc

inductive PbErr where
  | overflow      -- ErrIntOverflowRpc
  | eof           -- io.ErrUnexpectedEOF
  | endGroup      -- 194
  | illegalTag    -- 197
  | wrongWire     -- 202, 231, 260
  | invalidLen    -- ErrInvalidLengthRpc
  | illegalWire   -- 405
deriving DecidableEq, Repr

inductive PbRes (α : Type) where
  | ok (a : α) | err (e : PbErr) | panic | fatal
deriving DecidableEq, Repr

structure RpcReq where
  ns : Bytes
  method : Bytes
  params : Bytes
  unrec : Bytes       -- XXX_unrecognized
deriving DecidableEq, Repr

def RpcReq.zero : RpcReq := { ns := [], method := [], params := [], unrec := [] }

/-- Two's complement 64-bit integers. -/
def wrap64 (x : Int) : Int := Int.bmod x (2 ^ 64)

/-! ## Encoding -/

/-- sovRpc (158-167); `fuel` bounds the iterations (a uint64 takes at most 10). -/
def sov : Nat → UInt64 → Nat
  | 0, _ => 0
  | fuel + 1, x => if x >>> 7 = 0 then 1 else 1 + sov fuel (x >>> 7)

def sovField (b : Bytes) : Nat := if b.length > 0 then 1 + b.length + sov 10 (UInt64.ofNat b.length) else 0

/-- Size (137-156). -/
def RpcReq.size (m : RpcReq) : Nat := sovField m.ns + sovField m.method + sovField m.params + m.unrec.length

/-- The buffer and the index `i`; `none` after a run-time panic. -/
abbrev PbBuf := Option (Bytes × Nat)

/-- `dAtA[i] = b; i++`. -/
def PbBuf.byte (s : PbBuf) (b : UInt8) : PbBuf :=
  match s with
  | some (buf, i) => if i < buf.length then some (buf.set i b, i + 1) else none
  | none => none

/-- `i += copy(dAtA[i:], src)`. -/
def PbBuf.copy (s : PbBuf) (src : Bytes) : PbBuf :=
  match s with
  | some (buf, i) =>
    if i ≤ buf.length then
      let n := min (buf.length - i) src.length
      some (putAt buf i (src.take n), i + n)
    else none
  | none => none

/-- encodeVarintRpc (128-136). -/
def PbBuf.varint : Nat → PbBuf → UInt64 → PbBuf
  | 0, s, v => s.byte v.toUInt8
  | fuel + 1, s, v =>
    if v ≥ 128 then PbBuf.varint fuel (s.byte ((v &&& 0x7f) ||| 0x80).toUInt8) (v >>> 7) else s.byte v.toUInt8

/-- 104-109 and its copies. -/
def PbBuf.field (s : PbBuf) (tag : UInt8) (b : Bytes) : PbBuf :=
  if b.length > 0 then PbBuf.copy (PbBuf.varint 9 (s.byte tag) (UInt64.ofNat b.length)) b else s

/-- MarshalTo (99-126). -/
def RpcReq.marshalTo (m : RpcReq) (buf : Bytes) : PbBuf :=
  PbBuf.copy (PbBuf.field (PbBuf.field (PbBuf.field (some (buf, 0)) 0x0a m.ns) 0x12 m.method) 0x1a m.params) m.unrec

/-- Marshal (89-97); `none` is a run-time panic. -/
def RpcReq.marshal (m : RpcReq) : Option Bytes :=
  (m.marshalTo (List.replicate m.size 0)).map fun (buf, n) => buf.take n

/-! ## Decoding -/

/-- 177-190 and its copies: the value and the remaining bytes. -/
def pbVarint : Bytes → Nat → UInt64 → PbRes (UInt64 × Bytes)
  | d, shift, acc =>
    if shift ≥ 64 then .err .overflow
    else match d with
      | [] => .err .eof
      | b :: d =>
        let acc := acc ||| ((b.toUInt64 &&& 0x7f) <<< UInt64.ofNat shift)
        if b < 0x80 then .ok (acc, d) else pbVarint d (shift + 7) acc

/-- 333-344: skipping a varint. -/
def pbSkipVarint : Bytes → Nat → PbRes Bytes
  | d, shift =>
    if shift ≥ 64 then .err .overflow
    else match d with
      | [] => .err .eof
      | b :: d => if b < 0x80 then .ok d else pbSkipVarint d (shift + 7)

/-- The group loop of skipRpc (371-397); `d` are the bytes from index `pos` on, `l` the length of the slice. -/
def pbGroup (skip : Bytes → PbRes Int) (l : Nat) : Nat → Nat → Bytes → PbRes Int
  | 0, _, _ => .err .eof
  | fuel + 1, pos, d =>
    match pbVarint d 0 0 with
    | .err e => .err e
    | .panic => .panic
    | .fatal => .fatal
    | .ok (w, d') =>
      if w &&& 7 = 4 then .ok ((pos + (d.length - d'.length) : Nat) : Int)
      else match skip d with
        | .err e => .err e
        | .panic => .panic
        | .fatal => .fatal
        | .ok next =>
          let i := wrap64 (pos + next)
          if i < 0 then .panic                       -- dAtA[iNdEx] with a negative index (381)
          else if i ≥ l then .err .eof
          else pbGroup skip l fuel i.toNat (d.drop (i.toNat - pos))

/-- skipRpc (311-409). -/
def pbSkip : Nat → Bytes → PbRes Int
  | 0, _ => .fatal
  | stack + 1, d =>
    if d.length = 0 then .panic                      -- 408
    else match pbVarint d 0 0 with
      | .err e => .err e
      | .panic => .panic
      | .fatal => .fatal
      | .ok (wire, d') =>
        let pos : Nat := d.length - d'.length
        match (wire &&& 7).toNat with
        | 0 => match pbSkipVarint d' 0 with
          | .err e => .err e
          | .panic => .panic
          | .fatal => .fatal
          | .ok d'' => .ok (d.length - d''.length : Nat)
        | 1 => .ok (pos + 8 : Nat)
        | 2 => match pbVarint d' 0 0 with
          | .err e => .err e
          | .panic => .panic
          | .fatal => .fatal
          | .ok (n, d'') =>
            if n.toInt64.toInt < 0 then .err .invalidLen
            else .ok (wrap64 (((d.length - d''.length : Nat) : Int) + n.toInt64.toInt))
        | 3 => pbGroup (pbSkip stack) d.length (d'.length + 1) pos d'
        | 4 => .ok pos
        | 5 => .ok (pos + 4 : Nat)
        | _ => .err .illegalWire

/-- 200-288: a length-delimited field; `d` are the bytes from index `pos` on. The contents, the new index and the rest. -/
def pbBytes (l pos : Nat) (d : Bytes) : PbRes (Bytes × Nat × Bytes) :=
  match pbVarint d 0 0 with
  | .err e => .err e
  | .panic => .panic
  | .fatal => .fatal
  | .ok (n, d') =>
    let i := pos + (d.length - d'.length)
    if n.toInt64.toInt < 0 then .err .invalidLen
    else
      let post := wrap64 (i + n.toInt64.toInt)
      if post > l then .err .eof
      else if post < i then .panic                   -- slice bounds out of range (227, 256, 284)
      else .ok (d'.take (post.toNat - i), post.toNat, d'.drop (post.toNat - i))

/-- The loop of Unmarshal (174-304). -/
def pbLoop (stack l : Nat) : Nat → RpcReq → Nat → Bytes → PbRes RpcReq
  | 0, m, _, _ => .ok m
  | fuel + 1, m, pos, d =>
    if pos ≥ l then .ok m
    else match pbVarint d 0 0 with
      | .err e => .err e
      | .panic => .panic
      | .fatal => .fatal
      | .ok (wire, d') =>
        let fieldNum := (wire >>> 3).toUInt32.toInt32.toInt
        let wireType := wire &&& 7
        let i := pos + (d.length - d'.length)
        if wireType = 4 then .err .endGroup
        else if fieldNum ≤ 0 then .err .illegalTag
        else if fieldNum = 1 ∨ fieldNum = 2 ∨ fieldNum = 3 then
          if wireType ≠ 2 then .err .wrongWire
          else match pbBytes l i d' with
            | .err e => .err e
            | .panic => .panic
            | .fatal => .fatal
            | .ok (b, i, d) =>
              pbLoop stack l fuel
                (if fieldNum = 1 then { m with ns := b } else if fieldNum = 2 then { m with method := b } else { m with params := b })
                i d
        else match pbSkip stack d with
          | .err e => .err e
          | .panic => .panic
          | .fatal => .fatal
          | .ok skippy =>
            if skippy < 0 then .err .invalidLen
            else
              let i := wrap64 (pos + skippy)
              if i > l then .err .eof
              else if i < pos then .panic            -- slice bounds out of range (301)
              else pbLoop stack l fuel { m with unrec := m.unrec ++ d.take (i.toNat - pos) } i.toNat (d.drop (i.toNat - pos))

/-- Unmarshal (171-310) into a zero message. -/
def pbUnmarshal (stack : Nat) (d : Bytes) : PbRes RpcReq := pbLoop stack d.length d.length .zero 0 d

end Qrpc
