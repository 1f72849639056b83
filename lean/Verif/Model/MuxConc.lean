import Verif.Model.Mux
import Verif.Model.Mem
import Verif.Model.ServeWrite
/-!
# server.go:69-124: the multiplexer used by many goroutines at once

`Handle` and `ServeQRPC` in single steps, by any number of goroutines: connections that dispatch requests, and whoever registers handlers,
also while requests are served and from within handlers. `mux.mu` is a `sync.RWMutex`: a writer excludes everybody, readers only writers.
Each access to the map is recorded with the synchronising operations around it (Model/Mem.lean): what is done before `Unlock` happens before
what follows a later `Lock` or `RLock`, what is done before `RUnlock` only before what follows a later `Lock`; hence two objects.

What a dispatched request calls comes after `RUnlock` (115) and does not use the multiplexer any more; the call is over for it. A
goroutine in there may call `Handle` and `ServeQRPC` again.
-/
namespace Qrpc

/-- A call of the multiplexer. -/
inductive MqOp (ρ : Type) where
  | handle (q : Reg ρ)
  | serve (cmd : Cmd) (r : ρ)

/-- Its outcome: for `Handle` (other than `ok`: it panics), and for `ServeQRPC` what it calls. -/
inductive MqRes where
  | reg (o : HandleRes)
  | ran (l : List MEv)
deriving DecidableEq, Repr

inductive MqPc (ρ : Type) where
  | idle
  | hCheck (q : Reg ρ)                                   -- 87-93
  | hLock (q : Reg ρ) (h : Nat)                          -- 95
  | hMake (q : Reg ρ) (h : Nat)                          -- 98-100
  | hFind (q : Reg ρ) (h : Nat)                          -- 101-103
  | hPut (q : Reg ρ) (h : Nat)                           -- 105
  | hUnlock (q : Reg ρ) (o : HandleRes)                  -- 96
  | sLock (cmd : Cmd) (r : ρ)                            -- 113
  | sFind (cmd : Cmd) (r : ρ)                            -- 114
  | sUnlock (cmd : Cmd) (r : ρ) (e : Option (HEntry ρ))  -- 115
  | ret (op : MqOp ρ) (res : MqRes)

/-- What is observed: a call begins, a call ends; ghost: the moment at which it takes effect. -/
inductive MqEv (ρ : Type) where
  | inv (op : MqOp ρ)
  | eff (op : MqOp ρ) (res : MqRes)
  | ret (op : MqOp ρ) (res : MqRes)

inductive MqO where
  | w | r        -- what Unlock, and what RUnlock, makes visible
deriving DecidableEq, Repr

abbrev MqMem := MemEv Nat MqO Unit

structure MqSt (ρ : Type) where
  m : MuxMap ρ
  nil : Bool                   -- mux.m == nil
  w : Option Nat               -- the writer
  rs : List Nat                -- the readers
  us : List Nat                -- goroutines that have the multiplexer
  pc : Nat → MqPc ρ
  hist : List (Nat × MqEv ρ)
  tr : List MqMem

inductive MqAct (ρ : Type) where
  | call (g : Nat) (op : MqOp ρ)
  | go (g : Nat)
  | share (g j : Nat)

variable {ρ : Type}

def MqSt.emit (s : MqSt ρ) (g : Nat) (op : MemOp Nat MqO Unit) (line : Nat) : MqSt ρ := { s with tr := s.tr ++ [⟨g, op, line⟩] }

def MqSt.at (s : MqSt ρ) (g : Nat) (p : MqPc ρ) : MqSt ρ := { s with pc := setAt s.pc g p }

def MqSt.note (s : MqSt ρ) (g : Nat) (e : MqEv ρ) : MqSt ρ := { s with hist := s.hist ++ [(g, e)] }

/-- 117-123: what the dispatched request calls. -/
def entryRuns (r : ρ) : Option (HEntry ρ) → List MEv
  | none => [.close]
  | some e => runMws r e.handler e.mws

def mqGo (s : MqSt ρ) (g : Nat) : Option (MqSt ρ) :=
  match s.pc g with
  | .idle => none
  | .hCheck q => match q.handler with
    | none => some ((s.note g (.eff (.handle q) (.reg .nilHandler))).at g (.ret (.handle q) (.reg .nilHandler)))
    | some h =>
      if q.cmd > MaxCmd then some ((s.note g (.eff (.handle q) (.reg .tooBig))).at g (.ret (.handle q) (.reg .tooBig)))
      else some (s.at g (.hLock q h))
  | .hLock q h =>
    if s.w = none ∧ s.rs = [] then some ({ (s.emit g (.acq .w) 95).emit g (.acq .r) 95 with w := some g }.at g (.hMake q h)) else none
  | .hMake q h =>
    let s1 := s.emit g (.acc () false false) 98
    if s.nil then some ({ s1.emit g (.acc () true false) 99 with nil := false }.at g (.hFind q h)) else some (s1.at g (.hFind q h))
  | .hFind q h =>
    let s1 := s.emit g (.acc () false false) 101
    if (s.m q.cmd).isSome then some ((s1.note g (.eff (.handle q) (.reg .dup))).at g (.hUnlock q .dup))
    else some (s1.at g (.hPut q h))
  | .hPut q h =>
    some (({ s.emit g (.acc () true false) 105 with
      m := fun c => if c = q.cmd.routing then some ⟨h, q.mws⟩ else s.m c }.note g (.eff (.handle q) (.reg .ok))).at g (.hUnlock q .ok))
  | .hUnlock q o => some ({ s.emit g (.rel .w) 96 with w := none }.at g (.ret (.handle q) (.reg o)))
  | .sLock cmd r => if s.w = none then some ({ s.emit g (.acq .w) 113 with rs := g :: s.rs }.at g (.sFind cmd r)) else none
  | .sFind cmd r =>
    some (((s.emit g (.acc () false false) 114).note g (.eff (.serve cmd r) (.ran (entryRuns r (s.m cmd.routing))))).at g
      (.sUnlock cmd r (s.m cmd.routing)))
  | .sUnlock cmd r e =>
    some ({ s.emit g (.rel .r) 115 with rs := s.rs.filter (· != g) }.at g (.ret (.serve cmd r) (.ran (entryRuns r e))))
  | .ret op res => some ((s.note g (.ret op res)).at g .idle)

def mqStep (s : MqSt ρ) : MqAct ρ → Option (MqSt ρ)
  | .call g op => match s.pc g with
    | .idle =>
      if g ∈ s.us then some ((s.note g (.inv op)).at g (match op with
        | .handle q => .hCheck q
        | .serve cmd r => .sLock cmd r))
      else none
    | _ => none
  | .go g => mqGo s g
  | .share g j => match s.pc g with
    | .idle => if g ∈ s.us ∧ j ∉ s.us then some { s.emit g (.go j) 0 with us := j :: s.us } else none
    | _ => none

/-- `NewServeMux` (77) by goroutine 0. -/
def MqSt.init : MqSt ρ :=
  { m := muxEmpty, nil := true, w := none, rs := [], us := [0], pc := fun _ => .idle, hist := [], tr := [⟨0, .acc () true false, 77⟩] }

def mqRun (acts : List (MqAct ρ)) : Option (MqSt ρ) := runActs mqStep MqSt.init acts

end Qrpc
