import Verif.Model.ServeWrite
/-!
# clientconn.go:62-97: the `response` object

A channel of capacity 1, one event (`SetResponse` or `Close`, clientconn.go:362, 539-543, 439-441; never both and never twice: C18,
C67), and any number of callers of `GetFrame` and `GetFrameWithContext`. A frame is represented by a number.
-/
namespace Qrpc

inductive RspPc where
  | waiting (withCtx : Bool)       -- in the receive
  | frame (f : Nat)                -- returned (frame, nil)
  | streamClosed                   -- returned ErrStreamClosed
  | ctxErr                         -- returned ctx.Err()
deriving DecidableEq, Repr

structure RspSt where
  buf : Option Nat            -- the frame in the channel
  closed : Bool
  event : Bool                -- SetResponse or Close was called
  calls : List RspPc          -- calls of GetFrame(WithContext), in the order of their beginning
deriving DecidableEq, Repr

def RspSt.init : RspSt := { buf := none, closed := false, event := false, calls := [] }

inductive RspAct where
  | get (withCtx : Bool)
  | set (f : Nat)             -- 91-93
  | close                     -- 95-97
  | recv (i : Nat)            -- 72-76, 81-85
  | ctxDone (i : Nat)         -- 86-87: the caller's context is done
deriving DecidableEq, Repr

def rspStep (s : RspSt) : RspAct → Option RspSt
  | .get c => some { s with calls := s.calls ++ [.waiting c] }
  | .set f => if s.event then none else some { s with buf := some f, event := true }
  | .close => if s.event then none else some { s with closed := true, event := true }
  | .recv i => match s.calls[i]? with
    | some (.waiting _) => match s.buf with
      | some f => some { s with buf := none, calls := s.calls.set i (.frame f) }
      | none => if s.closed then some { s with calls := s.calls.set i .streamClosed } else none
    | _ => none
  | .ctxDone i => match s.calls[i]? with
    | some (.waiting true) => some { s with calls := s.calls.set i .ctxErr }
    | _ => none

def rspRun (acts : List RspAct) : Option RspSt := runActs rspStep RspSt.init acts

end Qrpc
