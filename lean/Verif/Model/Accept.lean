import Verif.Model.ServeWrite
/-!
# server.go:281-339, 363-408 (and 243-259): the accept loop of one listener

One goroutine runs `Serve` for one listener; the environment chooses what `ln.Listener.Accept` returns and when `Shutdown`
(server.go:515-534, see Model/Shutdown.lean) runs its critical section and closes `doneChan`. Durations are in milliseconds.
Connections are numbered in the order in which the inner listener returned them; `tcp c` says whether connection `c` implements
`TCPConn`, `reject c` whether `OnAccept` refuses it.

Simplified: `waitThrottle` (Model/Throttle.lean) is one step, enabled at any time; socket options are left out (failures are only
logged); the callbacks return; `Shutdown`'s critical section either closes the listener if it is tracked or fails and changes
nothing that this goroutine sees.
-/
namespace Qrpc

inductive AcRes where
  | ok | temp | fatal
deriving DecidableEq, Repr

structure AcConf where
  hasAccept : Bool      -- OnAccept != nil
  hasClose : Bool       -- OnClose != nil
  tcp : Nat → Bool
  reject : Nat → Bool

inductive AcPc where
  | track             -- 286
  | throttle          -- 295
  | accept            -- 296
  | check (r : AcRes) -- 297-319 (r is temp or fatal)
  | sleep (d : Nat)   -- 313, 317
  | hook (c : Nat)    -- 322-324
  | reject (c : Nat)  -- 326
  | notify (c : Nat)  -- 327-329
  | spawn (c : Nat)   -- 334
  | untrack           -- 287
  | closeLn           -- 283
  | ended
deriving DecidableEq, Repr

structure AcSt where
  pc : AcPc
  tempDelay : Nat
  lnClosed : Bool
  tracked : Bool
  done : Bool
  doneCh : Bool
  nextC : Nat
  -- ghost, latest first
  results : List AcRes
  sleeps : List Nat
  served : List Nat
  closed : List Nat
  notified : List Nat
  late : List Nat       -- accepted when `done` was already set
  everTracked : Bool    -- the listener was tracked when `done` was set
deriving DecidableEq, Repr

def AcSt.init : AcSt :=
  { pc := .track, tempDelay := 0, lnClosed := false, tracked := false, done := false, doneCh := false, nextC := 0, results := [],
    sleeps := [], served := [], closed := [], notified := [], late := [], everTracked := false }

inductive AcAct where
  | go
  | conn            -- the inner Accept returns a connection
  | err (temporary : Bool)
  | sdSect          -- Shutdown's critical section (no error)
  | sdClose         -- close(srv.doneChan)
deriving DecidableEq, Repr

def acStep (cf : AcConf) (s : AcSt) : AcAct → Option AcSt
  | .go => match s.pc with
    | .track => some { s with tracked := true, pc := .throttle }
    | .throttle => some { s with pc := .accept }
    | .accept => none
    | .check r =>
      if s.doneCh then some { s with pc := .untrack }
      else match r with
        | .temp =>
          let d := if s.tempDelay = 0 then 5 else s.tempDelay * 2
          let d := if d > 1000 then 1000 else d
          some { s with tempDelay := d, results := .temp :: s.results, pc := .sleep d }
        | _ => some { s with results := .fatal :: s.results, pc := .sleep 1000 }
    | .sleep d => some { s with sleeps := d :: s.sleeps, pc := .throttle }
    | .hook c =>
      if cf.hasAccept && cf.reject c then some { s with pc := .reject c }
      else some { s with pc := .spawn c }
    | .reject c => some { s with closed := c :: s.closed, pc := if cf.hasClose then .notify c else .throttle }
    | .notify c => some { s with notified := c :: s.notified, pc := .throttle }
    | .spawn c => some { s with served := c :: s.served, pc := .throttle }
    | .untrack => some { s with tracked := false, pc := .closeLn }
    | .closeLn => some { s with lnClosed := true, pc := .ended }
    | .ended => none
  | .conn => match s.pc with
    | .accept =>
      if s.lnClosed then none
      else
        let late := if s.done then s.nextC :: s.late else s.late
        if cf.tcp s.nextC then
          some { s with nextC := s.nextC + 1, late := late, tempDelay := 0, results := .ok :: s.results, pc := .hook s.nextC }
        else some { s with nextC := s.nextC + 1, late := late, pc := .check .fatal }   -- ErrListenerAcceptReturnType
    | _ => none
  | .err temporary => match s.pc with
    | .accept => some { s with pc := .check (if temporary then .temp else .fatal) }
    | _ => none
  | .sdSect =>
    if s.done then none
    else some { s with done := true, lnClosed := s.lnClosed || s.tracked, everTracked := s.tracked, tracked := false }
  | .sdClose => if s.done && !s.doneCh then some { s with doneCh := true } else none

def acRun (cf : AcConf) (acts : List AcAct) : Option AcSt := runActs (acStep cf) AcSt.init acts

end Qrpc
