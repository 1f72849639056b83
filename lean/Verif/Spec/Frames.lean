import Verif.Spec.Wire
/-!
# Frames as a user sees them

A user-level frame: what is passed to `StartWrite` and the pieces passed to `WriteBytes`.
-/
namespace Qrpc.Spec
open Qrpc

structure UFrame where
  id : UInt64
  cmd : Cmd
  flags : FrameFlag
  chunks : List Bytes
deriving Repr, DecidableEq

/-- The payload the user means. -/
def UFrame.payload (u : UFrame) : Bytes := u.chunks.flatten

/-- The user meant to use the codec: bit 5. -/
def UFrame.wantsCodec (u : UFrame) : Bool := u.flags.toNat.testBit 5

/-- The frame the other side must see. -/
def UFrame.expected (u : UFrame) : Frame :=
  { requestID := u.id, flags := u.flags, cmd := UInt32.ofNat (u.cmd.toNat % 2 ^ 24), payload := u.payload }

/-- The calls `StartWrite`, `WriteBytes`*, `EndWrite` on a writer whose connection accepts the frame. -/
def writeUFrame (codec : Option Codec) (d : DFW) (u : UFrame) : DFW.EndResult Empty :=
  (u.chunks.foldl DFW.writeBytes (d.startWrite u.id u.cmd u.flags)).endWrite codec (fun _ => none)

/-- Writing several frames one after the other with the same writer; the bytes put on the wire and whether every
`EndWrite` returned nil. -/
def writeUFrames (codec : Option Codec) : DFW → List UFrame → Bytes × Bool
  | _, [] => ([], true)
  | d, u :: us =>
    let r := writeUFrame codec d u
    let rest := writeUFrames codec r.dfw us
    ((match r.submitted with | some s => s.wbuf | none => []) ++ rest.1, r.err.isNone && rest.2)

end Qrpc.Spec
