import Verif.Model.Walk
import Verif.Model.ServeStart
import Verif.Model.FrameWriter
/-!
# README.md:283-304: a handler that pushes a message to all connections

The documented way to push: the handler takes a push id (`GetPushID`), walks over the connections (`WalkConn`), starts a goroutine
for each, which writes the push with the writer it was given (`GetWriter`, serveconn.go:286-289), waits for these goroutines and then
answers its request. Any number of such handlers run at the same time (each on its own goroutine, which is also the walker of
`Model/Walk.lean`), on a server where everything of `Model/Walk.lean` happens besides: connections come, get ids, displace each
other and close, other walks and other push ids are under way. Every connection has the write path of `Model/ServeStart.lean`, from
before it is served, with any other writers, and is closed at any moment.

`wg.Add(1)` happens before the goroutine starts and `wg.Done()` when its function has returned (`util.GoFunc`, a dependency: as
its documentation says). Simplified: the registry and the write path of a connection close independently of each other, so that
there are more executions here than of the code. Not modelled: the answer's own write (an ordinary one, C106), panics.
-/
namespace Qrpc

/-- What `StartWrite(id, cmd, PushFlag)`, `WriteBytes(payload)` and `EndWrite()` hand to the connection (README.md:293-295). -/
def pushBytes (cmd : Cmd) (payload : Bytes) (id : UInt64) : Bytes :=
  match (((DFW.new.fromPool.startWrite id cmd PushFlag).writeBytes payload).endWrite none (fun _ => (none : Option Unit))).submitted with
  | some d => d.wbuf
  | none => []

def pushFrame (cmd : Cmd) (payload : Bytes) (id : UInt64) : SFrame := ⟨pushBytes cmd payload id, false, false, true, false⟩

/-- Where a handler is. -/
inductive BcPc where
  | idle
  | id (p : UInt64)                                 -- README.md:288
  | walk (p : UInt64)                               -- 290
  | wait (p : UInt64) (w : Walk) (to1 : QSt)        -- 299; ghost: the walk and the registry when it ended
  | answer (p : UInt64) (w : Walk) (to1 : QSt)      -- 301

/-- Where a goroutine started for a connection is: not begun, calling `writeFrameBytes` as the connection's writer `j`, the same with
its frame in the queue as number `t`, or finished (with the number its frame had got). -/
inductive GorPc where
  | new | called (j : Nat) | queued (j t : Nat) | done (t : Option Nat)
deriving DecidableEq

def GorPc.finished : GorPc → Bool
  | .done _ => true
  | _ => false

/-- README.md:291: started by handler `i` for connection `c`. -/
structure Gor where
  i : Nat
  c : Nat
  p : UInt64
  pc : GorPc
deriving DecidableEq

structure BcSt where
  wk : WkSt
  g : Nat → G0St
  pc : Nat → BcPc
  gors : List Gor
  begun : List (Nat × UInt64)   -- ghost: the handlers that got a push id, and that id, in order

def BcSt.init : BcSt := ⟨WkSt.init, fun _ => G0St.init, fun _ => .idle, [], []⟩

inductive BcAct where
  | wk (a : WkAct)             -- anything else on the server
  | g (c : Nat) (a : G0Act)    -- anything else on a connection, and the further steps of a goroutine's write
  | begin (i : Nat) | walk (i : Nat) | visit (i c : Nat) | walkEnd (i : Nat)
  | call (n j : Nat) | enq (n : Nat) | ret (n : Nat)
  | answer (i : Nat)

/-- The goroutine whose walk it is, if the action is one of a walk. -/
def WkAct.walker : WkAct → Option Nat
  | .walk i | .visit i _ _ | .walkEnd i | .byID i _ | .next i => some i
  | _ => none

/-- Is the goroutine writing as the connection's writer `j`? -/
def Gor.writes (x : Gor) (c j : Nat) : Bool := x.c == c && match x.pc with
  | .called k | .queued k _ => k == j
  | _ => false

/-- Is it doing so with its frame not in the queue yet? -/
def Gor.enters (x : Gor) (c j : Nat) : Bool := x.c == c && x.pc == .called j

/-- The steps on a connection that are the goroutines' own. -/
def BcSt.owns (s : BcSt) (c : Nat) : G0Act → Bool
  | .g (.call j _) => s.gors.any (·.writes c j)
  | .g (.enq j) => s.gors.any (·.enters c j)
  | _ => false

def bcStep (cap : Nat) (cmd : Cmd) (payload : Bytes) (s : BcSt) : BcAct → Option BcSt
  | .wk a => match a.walker with
    | some i => match s.pc i with
      | .idle | .answer _ _ _ => (wkStep s.wk a).map fun wk => { s with wk := wk }
      | _ => none
    | none => (wkStep s.wk a).map fun wk => { s with wk := wk }
  | .g c a =>
    if s.owns c a then none
    else (g0Step cap (s.g c) a).map fun g => { s with g := setAt s.g c g }
  -- README.md:288
  | .begin i => match s.pc i, s.wk.pc i with
    | .idle, .idle => (wkStep s.wk .pushID).map fun wk =>
      { s with wk := wk, pc := setAt s.pc i (.id wk.push), begun := s.begun ++ [(i, wk.push)] }
    | _, _ => none
  -- 290
  | .walk i => match s.pc i with
    | .id p => (wkStep s.wk (.walk i)).map fun wk => { s with wk := wk, pc := setAt s.pc i (.walk p) }
    | _ => none
  -- 291, 297
  | .visit i c => match s.pc i with
    | .walk p => (wkStep s.wk (.visit i c false)).map fun wk => { s with wk := wk, gors := s.gors ++ [⟨i, c, p, .new⟩] }
    | _ => none
  | .walkEnd i => match s.pc i, s.wk.pc i with
    | .walk p, .walk w => (wkStep s.wk (.walkEnd i)).map fun wk => { s with wk := wk, pc := setAt s.pc i (.wait p w s.wk.q) }
    | _, _ => none
  -- 293-295
  | .call n j => match s.gors[n]? with
    | some x => match x.pc with
      | .new =>
        if s.gors.any (·.writes x.c j) then none
        else (g0Step cap (s.g x.c) (.g (.call j (pushFrame cmd payload x.p)))).map fun g =>
          { s with g := setAt s.g x.c g, gors := s.gors.set n { x with pc := .called j } }
      | _ => none
    | none => none
  | .enq n => match s.gors[n]? with
    | some x => match x.pc with
      | .called j => (g0Step cap (s.g x.c) (.g (.enq j))).map fun g =>
          { s with g := setAt s.g x.c g, gors := s.gors.set n { x with pc := .queued j (s.g x.c).g.frames.length } }
      | _ => none
    | none => none
  -- 295: EndWrite has returned; wg.Done
  | .ret n => match s.gors[n]? with
    | some x => match x.pc with
      | .called j => if (s.g x.c).g.pc j = .idle then some { s with gors := s.gors.set n { x with pc := .done none } } else none
      | .queued j t => if (s.g x.c).g.pc j = .idle then some { s with gors := s.gors.set n { x with pc := .done (some t) } } else none
      | _ => none
    | none => none
  -- 299, 301
  | .answer i => match s.pc i with
    | .wait p w to1 =>
      if ∀ x ∈ s.gors, x.i = i → x.pc.finished = true then some { s with pc := setAt s.pc i (.answer p w to1) } else none
    | _ => none

abbrev bcRun (cap : Nat) (cmd : Cmd) (payload : Bytes) (acts : List BcAct) : Option BcSt :=
  runActs (bcStep cap cmd payload) BcSt.init acts

end Qrpc
