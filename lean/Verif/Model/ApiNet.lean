import Verif.Model.Api
import Verif.Model.EndToEnd
import Verif.Model.FirstFrame
/-!
# api.go over its connections

The API of `Model/Api.lean` together with the connections it dials, each an instance of `Model/EndToEnd.lean` (a client connection with its
peer). `Request` (api.go:142, 163, 174, 223) and `GetFrameWithContext` (148, 168, 181, 229) are no longer choices of the environment:

* nobody but calls of the API makes requests on its connections (they are not handed out). Goroutine `i` of the API is caller `i` of every
  connection; it makes its request when it has got to `Request` there, with the frame of this call (`apiFrame`);
* `Request` returns to it when caller `i` has come back to rest there (clientconn.go:351-418): nil if the result it received was nil, and an
  error otherwise;
* `GetFrameWithContext` returns a frame if the response object of that request has got it (clientconn.go:71-97; how the wait goes is
  Model/Response.lean), or fails, at any time (the end of the caller's context or of the response);
* handlers for requests of the server (the `Handler` of the configuration, if any) submit frames with even ids;
* `Close` is called on a connection by the API only (185, 262).

Which bytes a request consists of is fixed when it is made, in Model/Client.lean, and its id only later; here both are connected when the id
is drawn. The endpoint of a call is an index, as in `Model/Api.lean`. A connection may make steps before it was dialled (nobody uses it).
-/
namespace Qrpc

/-- The frame of `conn.Request(cmd, NBFlag, payload)` with request id `id` (api.go:142, clientconn.go:328-334). -/
def apiFrame (id : UInt64) (cmd : Cmd) (payload : Bytes) : Bytes :=
  match (clientRequest none (fun _ => (none : Option Unit)) DFW.new id 0 cmd NBFlag payload).submitted with
  | some d => d.wbuf
  | none => []

/-- A call that returned a frame: goroutine, arguments (`one`: the endpoint, for CallOne), the endpoint, connection and request used, and
the frame. -/
structure ANRes where
  i : Nat
  cmd : Cmd
  payload : Bytes
  one : Option Nat
  idx : Nat
  con : Nat
  req : Nat
  frame : InFrame
deriving DecidableEq, Repr

/-- Where the request of a goroutine is. -/
inductive Rq where
  | no                 -- it makes none
  | asked              -- inside Request, not submitted
  | sub (t : Nat)      -- submitted, as number `t` of its connection
deriving DecidableEq, Repr

structure ANSt where
  api : ASt
  con : Nat → ESt
  arg : Nat → Cmd × Bytes × Option Nat     -- arguments of the current call of each goroutine
  rq : Nat → Rq                            -- its request
  tries : Nat → List (Nat × Nat)           -- ghost: requests submitted by the current call (connection, number), last first
  out : List ANRes                         -- ghost: what was returned

inductive ANAct where
  | call (i idx : Nat) (cmd : Cmd) (payload : Bytes)
  | callOne (i idx : Nat) (cmd : Cmd) (payload : Bytes)
  | api (a : AAct)                         -- a step of the API that is none of the others
  | con (c : Nat) (a : EAct)               -- a step of a connection and its peer
  | sent (i : Nat)                         -- Request returned nil
  | failed (i : Nat)                       -- Request returned an error
  | got (i : Nat) (f : InFrame)            -- GetFrameWithContext returned a frame

/-- A step of connection `c`: the steps of callers are those of the goroutines of the API. -/
def anCon (conf : CConf) (s : ANSt) (c : Nat) (a : EAct) : Option ANSt :=
  match a with
  | .cl (.request i push b) => match s.api.pc i, s.rq i with
    | .req _ _ c' _, .no =>
      if c' = c ∧ push = false then
        (eStep conf (s.con c) a).map fun e => { s with con := setAt s.con c e, rq := setAt s.rq i .asked }
      else none
    | _, _ => none
  | .cl (.go i) => match (s.con c).c.pc i with
    | .genId _ b =>
      if b = apiFrame (clientRid ((s.con c).c.ridGen + 1)) (s.arg i).1 (s.arg i).2.1 then
        (eStep conf (s.con c) a).map fun e => { s with con := setAt s.con c e }
      else none
    | _ => (eStep conf (s.con c) a).map fun e => { s with con := setAt s.con c e }
  | .cl (.enq i) => match (s.con c).c.pc i with
    | .enq f _ =>
      if f.resp then
        (eStep conf (s.con c) a).map fun e => { s with
          con := setAt s.con c e
          rq := setAt s.rq i (.sub (s.con c).c.frames.length)
          tries := setAt s.tries i ((c, (s.con c).c.frames.length) :: s.tries i) }
      else (eStep conf (s.con c) a).map fun e => { s with con := setAt s.con c e }
    | _ => none
  | .cl (.send i f) =>
    if f.rid % 2 = 0 ∧ s.rq i = .no then (eStep conf (s.con c) a).map fun e => { s with con := setAt s.con c e } else none
  | .cl .close =>
    if s.api.cClosed c then (eStep conf (s.con c) a).map fun e => { s with con := setAt s.con c e } else none
  | a => (eStep conf (s.con c) a).map fun e => { s with con := setAt s.con c e }

def anStep (conf : CConf) (s : ANSt) : ANAct → Option ANSt
  | .call i idx cmd payload =>
    (aStep s.api (.call i idx)).map fun a => { s with api := a, arg := setAt s.arg i (cmd, payload, none), tries := setAt s.tries i [] }
  | .callOne i idx cmd payload =>
    (aStep s.api (.callOne i idx)).map fun a => { s with api := a, arg := setAt s.arg i (cmd, payload, some idx), tries := setAt s.tries i [] }
  | .api a =>
    match a with
    | .call .. | .callOne .. => none
    | .res i ok => match s.api.pc i with
      | .ncDial .. => (aStep s.api (.res i ok)).map fun a => { s with api := a }
      | .wait .. => if ok then none else (aStep s.api (.res i false)).map fun a => { s with api := a, rq := setAt s.rq i .no }
      | _ => none
    | a => (aStep s.api a).map fun a => { s with api := a }
  | .con c a => anCon conf s c a
  | .sent i => match s.api.pc i, s.rq i with
    | .req _ _ c _, .sub t =>
      if (s.con c).c.pc i = .idle ∧ (t, .ok) ∈ (s.con c).c.rets then (aStep s.api (.res i true)).map fun a => { s with api := a } else none
    | _, _ => none
  | .failed i => match s.api.pc i, s.rq i with
    | .req _ _ c _, .asked =>
      if (s.con c).c.pc i = .idle then (aStep s.api (.res i false)).map fun a => { s with api := a, rq := setAt s.rq i .no } else none
    | .req _ _ c _, .sub t =>
      if (s.con c).c.pc i = .idle ∧ (t, .ok) ∉ (s.con c).c.rets then
        (aStep s.api (.res i false)).map fun a => { s with api := a, rq := setAt s.rq i .no }
      else none
    | _, _ => none
  | .got i f => match s.api.pc i, s.rq i with
    | .wait _ idx c, .sub t =>
      if .frame f ∈ (s.con c).c.revs t then
        (aStep s.api (.res i true)).map fun a => { s with
          api := a, rq := setAt s.rq i .no, out := s.out ++ [⟨i, (s.arg i).1, (s.arg i).2.1, (s.arg i).2.2, idx, c, t, f⟩] }
      else none
    | _, _ => none

def ANSt.init (n : Nat) (ok : Nat → Bool) : ANSt :=
  { api := ASt.init n ok, con := fun _ => ESt.init true, arg := fun _ => (0, [], none), rq := fun _ => .no, tries := fun _ => [], out := [] }

def anRun (conf : CConf) (n : Nat) (ok : Nat → Bool) (acts : List ANAct) : Option ANSt := runActs (anStep conf) (ANSt.init n ok) acts

end Qrpc
