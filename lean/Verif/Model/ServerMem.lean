import Verif.Model.Mem
/-!
# server.go: who accesses the fields of a Server, and when

`type Server` (server.go:127-148): "manages below: mu". The model runs any number of goroutines that have the server (the ones that call its
methods, those of `Serve` and of the connections, handlers), each of which may call `ListenAll`, `ServeAll`, `BindingConfig`, `Serve` (as
far as `trackListener`), `Shutdown` and `OnShutdown`, also from within a hook, and records every access to a field that is not immutable
together with the synchronising operations (Model/Mem.lean). A call is in a phase, with the accesses it has still to make there.

Left out, since they cannot race: `id2Conn`, `activeConn`, `throttle`, `pushID`, `wg` (all synchronise themselves), `upTime`, `doneChan`,
`closeRateLimiter` (immutable). `hooks` is `shutdownFunc` with its elements, `ln` the field of the bindings, `listeners` the slice's elements.
That a goroutine gets the server from another is a `go` event, which stands for any synchronisation.
-/
namespace Qrpc

inductive NX where
  | listeners | done | hooks | ln
deriving DecidableEq, Repr

inductive NO where
  | mu
deriving DecidableEq, Repr

abbrev NEv := MemEv Nat NO NX

structure NAcc where
  x : NX
  w : Bool
  line : Nat
deriving DecidableEq, Repr

inductive NSync where
  | none | lock (l : Nat) | unlock (l : Nat)
deriving DecidableEq, Repr

inductive NPh where
  | add | add1 | serve | rem | rem1          -- Serve: trackListener 286, the accept loop, trackListener 287; 410-418
  | sh | sh1 | sh2 | shW | sh3 | sh4 | hook   -- Shutdown, 515-544; running the hooks
  | os | os1 | os2 | osF                      -- OnShutdown, 547-559; running f
  | la | sa | bc                              -- ListenAll (194-236), ServeAll (244-259), BindingConfig (239-241)
  | done
deriving DecidableEq, Repr

def NPh.block : NPh → List NAcc
  | .add1 => [⟨.listeners, true, 414⟩]
  | .rem1 => [⟨.listeners, true, 416⟩]
  | .sh1 => [⟨.done, false, 518⟩]
  | .sh2 => [⟨.listeners, false, 597⟩]
  | .shW => [⟨.listeners, true, 604⟩]
  | .sh3 => [⟨.done, true, 531⟩]
  | .sh4 => [⟨.hooks, false, 536⟩]
  | .os1 => [⟨.done, false, 550⟩]
  | .os2 => [⟨.hooks, true, 556⟩]
  | .la => [⟨.ln, false, 197⟩, ⟨.ln, true, 220⟩]
  | .sa => [⟨.ln, false, 249⟩]
  | .bc => [⟨.ln, false, 240⟩]
  | .add | .serve | .rem | .sh | .hook | .os | .osF | .done => []

/-- What may come next; with the value `done` must have for it. -/
def NPh.next : NPh → List (Option Bool × NSync × NPh)
  | .add => [(none, .lock 411, .add1)]
  | .add1 => [(none, .unlock 412, .serve)]
  | .serve => [(none, .none, .rem)]
  | .rem => [(none, .lock 411, .rem1)]
  | .rem1 => [(none, .unlock 412, .done)]
  | .sh => [(none, .lock 517, .sh1)]
  | .sh1 => [(some true, .unlock 519, .done), (some false, .none, .sh2)]
  | .sh2 => [(none, .none, .shW), (none, .unlock 526, .done), (none, .none, .sh3)]
  | .shW => [(none, .none, .sh2)]                                            -- the next listener
  | .sh3 => [(none, .unlock 532, .sh4)]
  | .sh4 => [(none, .none, .hook), (none, .none, .done)]
  | .hook => [(none, .none, .sh4)]                                           -- reads the next element
  | .os => [(none, .lock 549, .os1)]
  | .os1 => [(some true, .unlock 551, .osF), (some false, .none, .os2)]
  | .os2 => [(none, .unlock 557, .done)]
  | .osF => [(none, .none, .done)]
  | .la => [(none, .none, .la), (none, .none, .done)]                        -- the next binding
  | .sa | .bc => [(none, .none, .done)]
  | .done => []

/-- Foreign code runs here (hooks, the callbacks of the accept loop). -/
def NPh.calls : NPh → Bool
  | .hook | .osF | .serve => true
  | _ => false

def NPh.entry : NPh → Bool
  | .add | .sh | .os | .la | .sa | .bc => true
  | _ => false

structure NFr where
  ph : NPh
  todo : List NAcc
deriving DecidableEq, Repr

structure NSt where
  tr : List NEv
  mu : Option Nat                             -- who holds srv.mu
  done : Bool                                 -- srv.done
  stk : Nat → List NFr                        -- the calls each goroutine is in, innermost first
  us : List Nat                               -- the goroutines that have the server
  wild : Bool                                 -- ListenAll was running when somebody else had the server too

inductive NAct where
  | acc (g : Nat) | mv (g k : Nat) | call (g : Nat) (p : NPh) | ret (g : Nat)
  | share (g j : Nat)                         -- g starts j, or hands it the server
deriving DecidableEq, Repr

def NSt.emit (s : NSt) (g : Nat) (op : MemOp Nat NO NX) (line : Nat) : NSt := { s with tr := s.tr ++ [⟨g, op, line⟩] }

def setN (f : Nat → List NFr) (g : Nat) (l : List NFr) : Nat → List NFr := fun g' => if g' = g then l else f g'

def NSt.put (s : NSt) (g : Nat) (l : List NFr) : NSt := { s with stk := setN s.stk g l }

def NSt.mayCall (s : NSt) (g : Nat) : Bool :=
  match s.stk g with
  | f :: _ => f.ph.calls
  | [] => s.us.contains g

def NSt.sync (s : NSt) (g : Nat) : NSync → Option NSt
  | .none => some s
  | .lock l => if s.mu = none then some { s.emit g (.acq .mu) l with mu := some g } else none
  | .unlock l => some { s.emit g (.rel .mu) l with mu := none }

def nmStep (s : NSt) : NAct → Option NSt
  | .acc g => match s.stk g with
    | ⟨p, a :: r⟩ :: fs =>
      some { (s.emit g (.acc a.x a.w false) a.line).put g (⟨p, r⟩ :: fs) with done := s.done || (a.x == .done && a.w) }
    | _ => none
  | .mv g k => match s.stk g with
    | ⟨p, []⟩ :: fs => match p.next[k]? with
      | some (c, y, p') => if c = none ∨ c = some s.done then (s.sync g y).map fun s' => s'.put g (⟨p', p'.block⟩ :: fs) else none
      | none => none
    | _ => none
  | .call g p => if s.mayCall g ∧ p.entry then
      some { s.put g (⟨p, p.block⟩ :: s.stk g) with wild := s.wild || (p == .la && s.us != [0]) }
    else none
  | .ret g => match s.stk g with
    | ⟨.done, _⟩ :: fs => some (s.put g fs)
    | _ => none
  | .share g j => if s.mayCall g ∧ !s.us.contains j then some { s.emit g (.go j) 0 with us := j :: s.us } else none

/-- `NewServer` (server.go:155-176), by goroutine 0; `ln` stands for the bindings that the caller has made (168). -/
def nmInit : List NEv :=
  [⟨0, .acc .listeners true false, 170⟩, ⟨0, .acc .done true false, 167⟩, ⟨0, .acc .hooks true false, 167⟩, ⟨0, .acc .ln true false, 168⟩]

def NSt.init : NSt := { tr := nmInit, mu := none, done := false, stk := fun _ => [], us := [0], wild := false }

def nmRun (acts : List NAct) : Option NSt := runActs nmStep NSt.init acts

end Qrpc
