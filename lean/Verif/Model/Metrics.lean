import Verif.Model.ServeRead
/-!
# serveconn.go: metrics

`instrument` (227-248) as called by `handleRequestPanic` (255-256), on top of the read side of a server connection
(`Model/ServeRead.lean`). Every step of that model carries what it does not look at: the command of a frame that is read, and how a
handler ends (`none`: it returned; `some v`: it panicked with a value printed as `v`).

Simplified: a counter or histogram of `go-kit/metrics` is the list of increments and observations with their label values; the label
`method` is the command itself (`strconv.Itoa` is injective, and `int` has 64 bits); the seconds observed are left out.
-/
namespace Qrpc

/-- Label values: `method`, `error`. -/
abbrev Lvs := UInt32 × Bytes

structure MtConf where
  counter : Bool   -- binding.CounterMetric != nil
  latency : Bool   -- binding.LatencyMetric != nil

structure MtSt where
  r : RSt
  cmds : List UInt32               -- the command of every frame of r.arr
  err : Nat → Option Bytes         -- what recover() returns for frame k
  counts : List Lvs
  observed : List Lvs
  done : List Nat                  -- ghost: the frames `instrument` was called for

def MtSt.init (t0 : Nat) : MtSt := ⟨RSt.init t0, [], fun _ => none, [], [], []⟩

/-- serveconn.go:234, `fmt.Sprintf("%v", err)`; the nil interface is printed as `<nil>`. -/
def errStr : Option Bytes → Bytes
  | none => [0x3c, 0x6e, 0x69, 0x6c, 0x3e]
  | some v => v

/-- serveconn.go:227-248 -/
def instrument (m : MtConf) (s : MtSt) (k : Nat) (cmd : UInt32) (err : Option Bytes) : MtSt :=
  if m.counter = false ∧ m.latency = false then { s with done := s.done ++ [k] }
  else
    let s := { s with done := s.done ++ [k] }
    let s := if m.counter then { s with counts := s.counts ++ [(cmd, errStr err)] } else s
    if m.latency = false then s
    else { s with observed := s.observed ++ [(cmd, errStr err)] }

structure MtAct where
  act : RAct
  cmd : UInt32
  err : Option Bytes

/-- The frame whose handler is ended by `a`. -/
def RAct.ends (r : RSt) : RAct → Option Nat
  | .hEnd k => some k
  | .mEnd => match r.main with
    | .handling k => some k
    | _ => none
  | _ => none

/-- The frame for which `a` passes serveconn.go:251-256. -/
def RAct.instruments (r : RSt) : RAct → Option Nat
  | .hDec k => some k
  | .mGo => match r.main with
    | .cleanup k => some k
    | _ => none
  | _ => none

def mtStep (c : RConf) (m : MtConf) (s : MtSt) (x : MtAct) : Option MtSt :=
  match rdStep c s.r x.act with
  | none => none
  | some r =>
    let s' := { s with
      r := r
      cmds := if s.r.arr.length < r.arr.length then s.cmds ++ [x.cmd] else s.cmds
      err := fun k => if x.act.ends s.r = some k then x.err else s.err k }
    match x.act.instruments s.r with
    | some k => some (instrument m s' k (s.cmds.getD k 0) (s.err k))
    | none => some s'

abbrev mtRun (c : RConf) (m : MtConf) (t0 : Nat) (acts : List MtAct) : Option MtSt := runActs (mtStep c m) (MtSt.init t0) acts

end Qrpc
