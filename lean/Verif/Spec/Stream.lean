import Verif.Model.Stream
/-!
# What the log of a connection's streams says

Small, separate vocabulary for the stream properties: it only looks at the log of observations.
-/
namespace Qrpc.Spec
open Qrpc

/-- The received frame an event accounts for. -/
def resFrame : SEv → Option Frame
  | .bound _ f | .delivered _ f | .dropped _ f | .rst _ f => some f
  | _ => none

/-- Frames handed to the user for stream object `r`: `(true, f)` the first frame, returned by `ReadFrame`; `(false, f)`
a later frame, received from `FrameCh`. -/
def streamOut (r : Nat) : SEv → Option (Bool × Frame)
  | .bound r' f => if r' = r then some (true, f) else none
  | .delivered r' f => if r' = r then some (false, f) else none
  | _ => none

/-- All frames handed to the user for stream object `r`, in order. -/
def outs (r : Nat) (log : List SEv) : List (Bool × Frame) := log.filterMap (streamOut r)

/-- The stream object an event of the reader refers to. -/
def evRef : SEv → Option Nat
  | .bound r _ | .delivered r _ | .dropped r _ => some r
  | .rst r _ => r
  | _ => none

/-- The peer ended stream object `r`: a frame with the done flag was handed to the user, or a reset was processed. -/
def peerEnded (r : Nat) (log : List SEv) : Prop :=
  (∃ b f, (b, f) ∈ outs r log ∧ FrameFlag.isDone f.flags = true) ∨ ∃ f, SEv.rst (some r) f ∈ log

end Qrpc.Spec

namespace Qrpc.Spec
open Qrpc

/-- `P` holds of every event and what precedes it. -/
def EachAfter (P : List SEv → SEv → Prop) (l : List SEv) : Prop := ∀ pre e post, l = pre ++ e :: post → P pre e

/-- A frame that ends the local side of stream object `r` was accepted for sending. -/
def selfEnded (r : Nat) (log : List SEv) : Prop :=
  ∃ fl, SEv.accepted r fl ∈ log ∧ (FrameFlag.isDone fl = true ∨ FrameFlag.isRst fl = true)

/-- Outcome of a write. -/
def isOutcome : SEv → Bool
  | .accepted _ _ | .rejected _ _ | .noStream _ => true
  | _ => false

end Qrpc.Spec
