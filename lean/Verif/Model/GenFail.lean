import Verif.Model.Run
import Verif.Model.Codegen
import Verif.Model.ChannelMem
/-!
# codegen/service_handler.go:32-68: several calls of a generated service on one connection

`ServeQRPC` runs in a goroutine per call (serveconn.go:213-219). It writes its answer with `EndWrite`, whose result it ignores, and after a failure (the request cannot be
decoded, there is no such method, or the method returned an error) it calls `frame.Close()` (40, 51, 60), which closes the connection with all its calls
(frame.go:78-83, serveconn.go:754-797).

One call's doings are `genServe` (Model/Codegen.lean), split here into the write and the Close. A write either comes before the Close of the transport
connection (`answer`) or fails (`lost`). Left out are the requests' way to the handlers, how writes are collected, and panics, after which a reset is sent (C28).
-/
namespace Qrpc

structure GfReq where
  id : UInt64
  cmd : Cmd
  payload : Bytes

structure GfConf where
  codec : Option Codec
  stack : Nat
  etext : PbErr → Bytes
  errCmd : Cmd
  callback : Bytes → Option (Bytes → CallRes)
  req : Nat → GfReq

def GfConf.res (cf : GfConf) (i : Nat) : ServeOut :=
  genServe cf.codec (fun _ => (none : Option Unit)) cf.stack cf.etext cf.errCmd cf.callback DFW.new (cf.req i).id (cf.req i).cmd (cf.req i).payload

inductive GfPc where
  | none | run | failing | done
deriving DecidableEq, Repr

structure GfSt where
  pc : Nat → GfPc
  closed : Bool
  out : List (Nat × Bytes)           -- the frames taken by the transport, with the call they answer

inductive GfAct where
  | start (i : Nat) | answer (i : Nat) | lost (i : Nat) | close (i : Nat)
  | drop                             -- anything else that closes the connection
deriving DecidableEq, Repr

def gfOut (i : Nat) (l : List DFW) : List (Nat × Bytes) := l.map fun f => (i, f.wbuf)

def gfStep (cf : GfConf) (s : GfSt) : GfAct → Option GfSt
  | .start i => if s.pc i = .none then some { s with pc := setC s.pc i .run } else none
  -- 37-39, 48-50, 57-59, 64-66
  | .answer i => if s.pc i = .run ∧ s.closed = false then
      some { s with pc := setC s.pc i (if (cf.res i).closed then .failing else .done), out := s.out ++ gfOut i (cf.res i).frames } else none
  | .lost i => if s.pc i = .run ∧ s.closed = true then
      some { s with pc := setC s.pc i (if (cf.res i).closed then .failing else .done) } else none
  -- 40, 51, 60
  | .close i => if s.pc i = .failing then some { s with pc := setC s.pc i .done, closed := true } else none
  | .drop => some { s with closed := true }

def GfSt.init : GfSt := { pc := fun _ => .none, closed := false, out := [] }

abbrev gfRun (cf : GfConf) (acts : List GfAct) : Option GfSt := runActs (gfStep cf) GfSt.init acts

end Qrpc
