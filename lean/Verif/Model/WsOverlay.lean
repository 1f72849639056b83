import Verif.Model.ServeWrite
/-!
# ws/server/overlay.go: `qrpcOverWS`, the listener of the WebSocket overlay

The HTTP server runs one goroutine per upgraded connection, which offers it to `acceptCh` (capacity `backlog` = 128); `Accept`
takes from it; `Close` cancels the context and closes the TCP listener. Connections are numbered in the order of their upgrades.
Requests may still be upgraded after `Close`: closing the listener does not close HTTP connections that exist.

Simplified: the HTTP server and the upgrade itself. After the upgrade the connection is hijacked: when the HTTP handler returns,
the HTTP server does not close it.
-/
namespace Qrpc

/-- Where an upgraded connection is. -/
inductive WoPc where
  | offering    -- overlay.go:54-57: in the select
  | queued      -- in acceptCh
  | accepted    -- returned by Accept
  | dropped     -- the HTTP handler returned because of ctx.Done()
deriving DecidableEq, Repr

structure WoSt where
  conns : List WoPc
  acceptCh : List Nat
  ctx : Bool
  lnClosed : Bool
  sent : List Nat       -- ghost: everything ever sent to acceptCh, in order
  accepts : List Nat    -- ghost: what Accept returned, in order
deriving DecidableEq, Repr

def WoSt.init : WoSt := { conns := [], acceptCh := [], ctx := false, lnClosed := false, sent := [], accepts := [] }

inductive WoAct where
  | upgrade
  | offer (c : Nat)        -- 53
  | offerDone (c : Nat)    -- 54
  | accept                 -- 81-83
  | acceptErr              -- 84-86
  | close                  -- 90-93
deriving DecidableEq, Repr

def woStep (cap : Nat) (s : WoSt) : WoAct → Option WoSt
  | .upgrade => some { s with conns := s.conns ++ [.offering] }
  | .offer c => match s.conns[c]? with
    | some .offering =>
      if s.acceptCh.length < cap then
        some { s with conns := s.conns.set c .queued, acceptCh := s.acceptCh ++ [c], sent := s.sent ++ [c] }
      else none
    | _ => none
  | .offerDone c => match s.conns[c]? with
    | some .offering => if s.ctx then some { s with conns := s.conns.set c .dropped } else none
    | _ => none
  | .accept => match s.acceptCh with
    | c :: q => some { s with conns := s.conns.set c .accepted, acceptCh := q, accepts := s.accepts ++ [c] }
    | [] => none
  | .acceptErr => if s.ctx then some s else none
  | .close => some { s with ctx := true, lnClosed := true }

def woRun (cap : Nat) (acts : List WoAct) : Option WoSt := runActs (woStep cap) WoSt.init acts

end Qrpc
