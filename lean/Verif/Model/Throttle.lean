import Verif.Model.ServeWrite
/-!
# server.go:609-642: throttling

`throttle[idx]` is an `atomic.Value` holding `{on, ch}`. Any number of controllers call `SetThrottle` and `ClearThrottle`, any
number of loops call `waitThrottle`. Channels are numbered in the order of their creation. Closing a channel twice panics.

Simplified: the `doneCh` case of `waitThrottle` (a waiter may leave at any time because the server or connection ends).
-/
namespace Qrpc

inductive ThPc where
  | idle
  | setLoad | setStore          -- 623-630
  | clrLoad | clrClose (ch : Nat) | clrStore   -- 635-641
  | crashed                     -- close of a closed channel
deriving DecidableEq, Repr

inductive ThW where
  | idle
  | load               -- 611-613
  | wait (ch : Nat)    -- 614-617
deriving DecidableEq, Repr

structure ThSt where
  cur : Option (Bool × Nat)   -- the atomic.Value
  next : Nat                  -- channels made
  closed : Nat → Bool
  pc : Nat → ThPc             -- controllers
  w : Nat → ThW               -- waiters

def ThSt.init : ThSt := { cur := none, next := 0, closed := fun _ => false, pc := fun _ => .idle, w := fun _ => .idle }

inductive ThAct where
  | set (i : Nat) | clear (i : Nat)   -- a controller calls SetThrottle / ClearThrottle
  | go (i : Nat)
  | wait (j : Nat)                    -- a loop calls waitThrottle
  | wGo (j : Nat)
deriving DecidableEq, Repr

def thStep (s : ThSt) : ThAct → Option ThSt
  | .set i => match s.pc i with
    | .idle => some { s with pc := setAt s.pc i .setLoad }
    | _ => none
  | .clear i => match s.pc i with
    | .idle => some { s with pc := setAt s.pc i .clrLoad }
    | _ => none
  | .go i => match s.pc i with
    | .setLoad => match s.cur with
      | some (true, _) => some { s with pc := setAt s.pc i .idle }
      | _ => some { s with pc := setAt s.pc i .setStore }
    | .setStore => some { s with cur := some (true, s.next), next := s.next + 1, pc := setAt s.pc i .idle }
    | .clrLoad => match s.cur with
      | none => some { s with pc := setAt s.pc i .idle }
      | some (_, ch) => some { s with pc := setAt s.pc i (.clrClose ch) }
    | .clrClose ch =>
      if s.closed ch then some { s with pc := setAt s.pc i .crashed }
      else some { s with closed := setAt s.closed ch true, pc := setAt s.pc i .clrStore }
    | .clrStore => some { s with cur := some (false, s.next), next := s.next + 1, pc := setAt s.pc i .idle }
    | _ => none
  | .wait j => match s.w j with
    | .idle => some { s with w := setAt s.w j .load }
    | _ => none
  | .wGo j => match s.w j with
    | .load => match s.cur with
      | some (true, ch) => some { s with w := setAt s.w j (.wait ch) }
      | _ => some { s with w := setAt s.w j .idle }
    | .wait ch => if s.closed ch then some { s with w := setAt s.w j .idle } else none
    | .idle => none

def thRun (acts : List ThAct) : Option ThSt := runActs thStep ThSt.init acts

end Qrpc
