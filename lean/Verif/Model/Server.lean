import Verif.Model.ServeWrite
/-!
# server.go:178-259, 281-339, 514-544, 596-607: the life of a whole server

`ListenAndServe` (ListenAll, then ServeAll with one `Serve` goroutine per binding in a `run.Group`), the goroutines of accepted
connections (`srv.wg`), and any number of calls of `Shutdown`, from anywhere: in particular from a request handler.
Calls of `Shutdown` and connections are numbered in the order in which they begin. A critical section of `srv.mu` is one step.

`run.Group.Run` (oklog/run, outside the repository): start all actors, wait for the first to return, interrupt every one, wait
for the others, return.

Simplified: what happens inside a connection — it may end at any time (`connEnd`), and can end once the context of its `Serve` is
cancelled (`connStop`; whether it always does is C31), but not before its handlers have returned (serveconn.go:151-163, C28), so not
while one of them is inside `Shutdown`; the delays of the accept loop (Model/Accept.lean); OnAccept; the hooks
(Model/Shutdown.lean), here one step. A listener whose `Close` fails is left as it was.
-/
namespace Qrpc

/-- One `Serve` goroutine. -/
inductive SvPc where
  | off
  | track      -- 286
  | throttle   -- 295
  | accept     -- 296
  | check      -- 297-302
  | sleep      -- 313, 317
  | spawn      -- 334
  | cancel     -- 293 (deferred)
  | untrack    -- 287 (deferred)
  | closeLn    -- 283 (deferred)
  | ended
deriving DecidableEq, Repr

/-- One call of `Shutdown`. -/
inductive ShPc where
  | lock         -- 517-532
  | closeDone    -- 534
  | hooks        -- 536-538
  | wait         -- 541
  | ok           -- returned nil
  | err          -- returned the listener's error
deriving DecidableEq, Repr

/-- `ListenAndServe`. -/
inductive MnPc where
  | listen (k : Nat)        -- 197-205: the listener of binding k
  | failed                  -- ListenAll returned the error (182-184, 206-208)
  | serve                   -- 185: ServeAll
  | first                   -- run.Group: wait for the first actor
  | interrupt (k : Nat)     -- k interrupts to go
  | inShutdown (k : Nat) (call : Nat)  -- 253: an interrupt function has called Shutdown
  | collect                 -- wait for the other actors
  | returned
deriving DecidableEq, Repr

structure SvSt where
  main : MnPc
  isOpen : Nat → Bool            -- the listener of the binding is open
  tracked : Nat → Bool           -- srv.listeners[idx] != nil
  sv : Nat → SvPc
  sctx : Nat → Bool              -- serveCtx of the binding is cancelled
  throttled : Nat → Bool
  conns : List (Nat × Bool)      -- (binding, its goroutine is running)
  calls : List (ShPc × Option Nat)  -- calls of Shutdown; `some c`: made by a handler of connection c
  done : Bool
  doneCh : Bool

def SvSt.init : SvSt :=
  { main := .listen 0, isOpen := fun _ => false, tracked := fun _ => false, sv := fun _ => .off, sctx := fun _ => false,
    throttled := fun _ => false, conns := [], calls := [], done := false, doneCh := false }

/-- Connection `c` has a handler that has not returned from Shutdown. -/
def SvSt.busy (s : SvSt) (c : Nat) : Bool :=
  s.calls.any fun x => x.2 == some c && x.1 != .ok && x.1 != .err

def SvSt.running (s : SvSt) (c : Nat) : Bool := (s.conns[c]?).any (·.2)

inductive SvAct where
  | listenOk | listenErr
  | mainGo
  | go (i : Nat)                    -- the Serve goroutine of binding i
  | acceptConn (i : Nat)
  | acceptErr (i : Nat)
  | throttle (i : Nat) (on : Bool)  -- SetThrottle, ClearThrottle
  | connEnd (c : Nat) | connStop (c : Nat)
  | shutdown (h : Option Nat)
  | sect (j : Nat) (fail : Option Nat)  -- the critical section of Shutdown; `some k`: closing listener k fails
  | callGo (j : Nat)
deriving DecidableEq, Repr

def svStep (n : Nat) (s : SvSt) : SvAct → Option SvSt
  | .listenOk => match s.main with
    | .listen k =>
      if k < n then some { s with main := if k + 1 = n then .serve else .listen (k + 1), isOpen := setAt s.isOpen k true }
      else none
    | _ => none
  | .listenErr => match s.main with
    | .listen k => if k < n then some { s with main := .failed } else none
    | _ => none
  | .mainGo => match s.main with
    | .listen k => if k < n then none else some { s with main := .serve }     -- no bindings
    | .serve =>
      if n = 0 then some { s with main := .returned }
      else some { s with main := .first, sv := fun i => if i < n then .track else s.sv i }
    | .first => if (List.range n).any (fun i => s.sv i == .ended) then some { s with main := .interrupt n } else none
    | .interrupt k =>
      if k = 0 then some { s with main := .collect }
      else some { s with main := .inShutdown (k - 1) s.calls.length, calls := s.calls ++ [(.lock, none)] }
    | .inShutdown k j =>
      if (s.calls[j]?).any (fun x => x.1 == .ok || x.1 == .err) then some { s with main := .interrupt k } else none
    | .collect => if (List.range n).all (fun i => s.sv i == .ended) then some { s with main := .returned } else none
    | _ => none
  | .go i => match s.sv i with
    | .track => some { s with sv := setAt s.sv i .throttle, tracked := setAt s.tracked i true }
    | .throttle => if s.throttled i && !s.doneCh then none else some { s with sv := setAt s.sv i .accept }
    | .check => if s.doneCh then some { s with sv := setAt s.sv i .cancel } else some { s with sv := setAt s.sv i .sleep }
    | .sleep => some { s with sv := setAt s.sv i .throttle }
    | .spawn => some { s with sv := setAt s.sv i .throttle, conns := s.conns ++ [(i, true)] }
    | .cancel => some { s with sv := setAt s.sv i .untrack, sctx := setAt s.sctx i true }
    | .untrack => some { s with sv := setAt s.sv i .closeLn, tracked := setAt s.tracked i false }
    | .closeLn => some { s with sv := setAt s.sv i .ended, isOpen := setAt s.isOpen i false }
    | _ => none
  | .acceptConn i => match s.sv i with
    | .accept => if s.isOpen i then some { s with sv := setAt s.sv i .spawn } else none
    | _ => none
  | .acceptErr i => match s.sv i with
    | .accept => some { s with sv := setAt s.sv i .check }
    | _ => none
  | .throttle i on => some { s with throttled := setAt s.throttled i on }
  | .connEnd c => match s.conns[c]? with
    | some (b, true) => if s.busy c then none else some { s with conns := s.conns.set c (b, false) }
    | _ => none
  | .connStop c => match s.conns[c]? with
    | some (b, true) => if s.sctx b && !s.busy c then some { s with conns := s.conns.set c (b, false) } else none
    | _ => none
  | .shutdown h => match h with
    | none => some { s with calls := s.calls ++ [(.lock, none)] }
    | some c => if s.running c then some { s with calls := s.calls ++ [(.lock, some c)] } else none
  | .sect j fail => match s.calls[j]? with
    | some (.lock, h) =>
      if s.done then some { s with calls := s.calls.set j (.wait, h) }
      else match fail with
        | none => some { s with calls := s.calls.set j (.closeDone, h), done := true
                                isOpen := fun i => s.isOpen i && !(decide (i < n) && s.tracked i)
                                tracked := fun i => s.tracked i && !decide (i < n) }
        | some k =>
          if k < n ∧ s.tracked k = true then
            some { s with calls := s.calls.set j (.err, h)
                          isOpen := fun i => s.isOpen i && !(decide (i < k) && s.tracked i)
                          tracked := fun i => s.tracked i && !decide (i < k) }
          else none
    | _ => none
  | .callGo j => match s.calls[j]? with
    | some (.closeDone, h) => some { s with calls := s.calls.set j (.hooks, h), doneCh := true }
    | some (.hooks, h) => some { s with calls := s.calls.set j (.wait, h) }
    | some (.wait, h) => if s.conns.all (fun x => !x.2) then some { s with calls := s.calls.set j (.ok, h) } else none
    | _ => none

/-- A server with `n` bindings. -/
def svRun (n : Nat) (acts : List SvAct) : Option SvSt := runActs (svStep n) SvSt.init acts

end Qrpc
