import Verif.Model.WsOverlay
/-!
# ws/server/overlay.go:39-78: the HTTP server below the WebSocket overlay

`newOverlay` starts one goroutine that runs `httpServer.Serve(l)` (73-76) and only logs its result. `Serve` of net/http retries after a
temporary error of `l.Accept`, returns after any other error, and closes `l` when it returns (documented; in its source a deferred
Close). Every TCP connection is upgraded at most once. What happens to upgraded connections is Model/WsOverlay.lean.

`ln.Accept` fails without being temporary when a `ListenFunc` listener returns a connection that is no `TCPConn`
(`ErrListenerAcceptReturnType`, server.go:386), or fails so itself.
-/
namespace Qrpc

structure WhSt where
  wo : WoSt
  http : Bool      -- httpServer.Serve is running
  tcp : Nat        -- connections it accepted
deriving DecidableEq, Repr

def WhSt.init : WhSt := ⟨WoSt.init, true, 0⟩

inductive WhAct where
  | wo (a : WoAct)
  | tcpConn
  | err (temporary : Bool)    -- l.Accept fails
deriving DecidableEq, Repr

def whStep (cap : Nat) (s : WhSt) : WhAct → Option WhSt
  | .wo a =>
    if a = .upgrade ∧ s.tcp ≤ s.wo.conns.length then none
    else match woStep cap s.wo a with
      | some w => some { s with wo := w }
      | none => none
  | .tcpConn => if s.http = true ∧ s.wo.lnClosed = false then some { s with tcp := s.tcp + 1 } else none
  | .err temporary =>
    if s.http then
      if temporary then some s else some { s with http := false, wo := { s.wo with lnClosed := true } }
    else none

abbrev whRun (cap : Nat) (acts : List WhAct) : Option WhSt := runActs (whStep cap) WhSt.init acts

end Qrpc
