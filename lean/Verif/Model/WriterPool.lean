import Verif.Model.FrameWriter
/-!
# The pool of frame writers (framewriter.go:32-48) and its users

Writers are handed out (`newFrameWriter`: clientconn.go:360, 571, serveconn.go:175, 216, 288, 737), used, and possibly returned
(`Finalize`). A handle names a handed-out writer. `sync.Pool` may return any object put back earlier or a new one;
the action says which. The result of the connection's `writeFrameBytes` is irrelevant here: `endWrite` truncates the buffer
in either case (framewriter.go:140-141).
-/
namespace Qrpc

inductive PAct where
  | get (h : Nat) (which : Option Nat)      -- newFrameWriter; `some i`: reuse the i-th pooled object
  | start (h : Nat) (id : UInt64) (cmd : Cmd) (flags : FrameFlag)
  | write (h : Nat) (v : Bytes)
  | endWrite (h : Nat)
  | reset (h : Nat) (id : UInt64) (reason : Cmd)
  | finalize (h : Nat)
  | mark (h : Nat) (resp : Option Nat) (checkExist : Bool)  -- the owner sets the two fields (clientconn.go:322, 362; serveconn.go:715, 739)
deriving Repr, DecidableEq

structure PoolSt where
  free : List DFW
  live : Nat → Option DFW

def PoolSt.init : PoolSt := { free := [], live := fun _ => none }

def PoolSt.set (s : PoolSt) (h : Nat) (d : Option DFW) : PoolSt :=
  { s with live := fun k => if k = h then d else s.live k }

/-- One action: new state and the frame submitted to a connection, if any. `none`: the action is not possible. -/
def poolStep (codec : Option Codec) (s : PoolSt) : PAct → Option (PoolSt × Option DFW)
  | .get h which =>
    match s.live h with
    | some _ => none
    | none =>
      match which with
      | none => some (s.set h (some DFW.new.fromPool), none)
      | some i =>
        match s.free[i]? with
        | none => none
        | some d => some ({ s with free := s.free.eraseIdx i }.set h (some d.fromPool), none)
  | .start h id c f => (s.live h).map fun d => (s.set h (some (d.startWrite id c f)), none)
  | .write h v => (s.live h).map fun d => (s.set h (some (d.writeBytes v)), none)
  | .endWrite h => (s.live h).map fun d =>
      let r := d.endWrite codec (fun _ => (none : Option Empty))
      (s.set h (some r.dfw), r.submitted)
  | .reset h id reason => (s.live h).map fun d =>
      let r := d.resetFrame codec (fun _ => (none : Option Empty)) id reason
      (s.set h (some r.dfw), r.submitted)
  | .finalize h => (s.live h).map fun d => ({ s with free := d.finalize :: s.free }.set h none, none)
  | .mark h r ce => (s.live h).map fun d => (s.set h (some { d with resp := r, checkExist := ce }), none)

/-- A whole history: each submitted frame together with the actions up to and including the one that submitted it. -/
def poolRun (codec : Option Codec) : PoolSt → List PAct → List PAct → Option (List (List PAct × DFW))
  | _, _, [] => some []
  | s, past, a :: as =>
    match poolStep codec s a with
    | none => none
    | some (s', sub) =>
      match poolRun codec s' (past ++ [a]) as with
      | none => none
      | some rest => some ((match sub with | some d => [(past ++ [a], d)] | none => []) ++ rest)

end Qrpc
