import Verif.Model.ServeWrite
/-!
# server.go:514-559, 596-607: Shutdown and OnShutdown

Any number of goroutines call `Shutdown` and `OnShutdown`. A critical section of `srv.mu` is one step; so is a call of a hook.
Hooks are numbered in the order of their registration. Whether `closeListenersLocked` fails is a choice of the environment.
`Shutdown` reads `shutdownFunc` without the lock (536); `hooks` is read at that moment.

Simplified: `srv.wg.Wait()` (a goroutine may leave when all connections have ended: environment).
-/
namespace Qrpc

inductive SdPc where
  | idle
  | lock            -- 518-532
  | closeDone       -- 534
  | range           -- 536: evaluation of srv.shutdownFunc
  | run (l : List Nat)   -- 536-538
  | wait            -- 541
  | onLock          -- 550-558
  | onCall (f : Nat)     -- 552
deriving DecidableEq, Repr

inductive SdRet where
  | ok | listenerErr
deriving DecidableEq, Repr

structure SdSt where
  done : Bool
  hooks : List Nat       -- shutdownFunc
  nextF : Nat            -- hooks registered so far
  doneCloses : Nat       -- close(srv.doneChan)
  called : List Nat      -- ghost
  rets : List SdRet      -- ghost: results of Shutdown
  runner : Nat           -- ghost: the goroutine that set done
  caller : Nat → Nat     -- ghost: the goroutine that registers a hook after done
  pc : Nat → SdPc

def SdSt.init : SdSt :=
  { done := false, hooks := [], nextF := 0, doneCloses := 0, called := [], rets := [], runner := 0, caller := fun _ => 0,
    pc := fun _ => .idle }

inductive SdAct where
  | shutdown (i : Nat) | onShutdown (i : Nat)
  | sect (i : Nat) (lnErr : Bool)   -- the critical section of Shutdown
  | go (i : Nat)
deriving DecidableEq, Repr

def sdStep (s : SdSt) : SdAct → Option SdSt
  | .shutdown i => match s.pc i with
    | .idle => some { s with pc := setAt s.pc i .lock }
    | _ => none
  | .onShutdown i => match s.pc i with
    | .idle => some { s with pc := setAt s.pc i .onLock }
    | _ => none
  | .sect i lnErr => match s.pc i with
    | .lock =>
      if s.done then some { s with pc := setAt s.pc i .wait }
      else if lnErr then some { s with rets := s.rets ++ [.listenerErr], pc := setAt s.pc i .idle }
      else some { s with done := true, runner := i, pc := setAt s.pc i .closeDone }
    | _ => none
  | .go i => match s.pc i with
    | .closeDone => some { s with doneCloses := s.doneCloses + 1, pc := setAt s.pc i .range }
    | .range => some { s with pc := setAt s.pc i (.run s.hooks) }
    | .run l => match l with
      | f :: rest => some { s with called := s.called ++ [f], pc := setAt s.pc i (.run rest) }
      | [] => some { s with pc := setAt s.pc i .wait }
    | .wait => some { s with rets := s.rets ++ [.ok], pc := setAt s.pc i .idle }
    | .onLock =>
      if s.done then
        some { s with nextF := s.nextF + 1, caller := setAt s.caller s.nextF i, pc := setAt s.pc i (.onCall s.nextF) }
      else some { s with nextF := s.nextF + 1, hooks := s.hooks ++ [s.nextF], pc := setAt s.pc i .idle }
    | .onCall f => some { s with called := s.called ++ [f], pc := setAt s.pc i .idle }
    | _ => none

def sdRun (acts : List SdAct) : Option SdSt := runActs sdStep SdSt.init acts

end Qrpc
