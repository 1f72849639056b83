import Verif.Model.ServeWrite
/-!
# clientconn.go:523-528, 548-568: handlers of a client connection

Requests from the server, numbered in the order in which the reader hands them over, each handled in a goroutine of its own
counted in `loopWG`. A handler is an arbitrary program; what matters of it is whether and when it closes the local side of the
stream of its request (final frame or reset, `AddOutFrame`), and when it ends, by returning or by panicking - the deferred
`handleRequestPanic` recovers and goes on alike (549-555).

* `finals`: the stream's `closedSelf` is set; by the handler, or by anybody who keeps the writer.
* `rst k r`: `EndWrite` of the reset frame has returned (562). `true`: the frame was accepted by the stream, or was not needed -
  `AddOutFrame` has set `closedSelf` in both cases (stream.go:170-178) -, or the stream is gone, which it is only after both sides
  were closed (stream.go:207-214). `false`: the transport failed or the connection's context is done.

Not modelled here: what the reset waits for (`Model/ClientWG.lean`).
-/
namespace Qrpc

inductive CKPc where
  | off | running | test | resetting | over
deriving DecidableEq, Repr

structure CKSt where
  n : Nat                    -- requests handed over so far
  pc : Nat → CKPc
  closedSelf : Nat → Bool
  wg : Nat                   -- handlers counted in loopWG
  down : Bool                -- the connection's context is done or its transport failed
  panics : Nat               -- ghost: panics recovered

def CKSt.init : CKSt := ⟨0, fun _ => .off, fun _ => false, 0, false, 0⟩

inductive CKAct where
  | start                    -- 523
  | final (k : Nat)          -- the local side of stream k is closed
  | ret (k : Nat)            -- 526 returns, 527
  | panic (k : Nat)          -- 526 panics
  | test (k : Nat)           -- 558
  | rst (k : Nat) (ok : Bool) -- 560-566
  | lost                     -- the connection is lost

def ckStep (s : CKSt) : CKAct → Option CKSt
  | .start => if s.down then none else some { s with n := s.n + 1, pc := setAt s.pc s.n .running, wg := s.wg + 1 }
  | .final k => if s.pc k = .off then none else some { s with closedSelf := setAt s.closedSelf k true }
  | .ret k => if s.pc k = .running then some { s with pc := setAt s.pc k .test } else none
  | .panic k => if s.pc k = .running then some { s with pc := setAt s.pc k .test, panics := s.panics + 1 } else none
  | .test k =>
    if s.pc k = .test then
      if s.closedSelf k then some { s with pc := setAt s.pc k .over, wg := s.wg - 1 }
      else some { s with pc := setAt s.pc k .resetting }
    else none
  | .rst k ok =>
    if s.pc k = .resetting then
      if ok then some { s with pc := setAt s.pc k .over, closedSelf := setAt s.closedSelf k true, wg := s.wg - 1 }
      else some { s with pc := setAt s.pc k .over, down := true, wg := s.wg - 1 }
    else none
  | .lost => some { s with down := true }

def ckRun (acts : List CKAct) : Option CKSt := runActs ckStep CKSt.init acts

end Qrpc
