import Verif.Model.FrameWriter
import Verif.Model.Pb
/-!
# codegen/client.go: Client.Request; codegen/service_handler.go: FQMethod, ServiceHandler.ServeQRPC

The outcome of `Connection.Request` and of `GetFrameWithContext` is a choice of the environment, per attempt. `int` is 64 bits
wide (`genPos`) unless said otherwise (`genPos32`). Strings are byte strings. Errors are their texts.

The generator (generator.go) and the encoding of parameters and results inside the generated methods are in
Model/Generator.lean.
-/
namespace Qrpc

/-! ## Client -/

/-- What happens to one attempt. -/
inductive GenTry where
  | refused                              -- Request returned an error (53-56)
  | noAnswer                             -- GetFrameWithContext returned an error (57-58)
  | answer (cmd : Cmd) (payload : Bytes)
deriving DecidableEq, Repr

inductive GenResult where
  | serviceNA                            -- 74
  | failed                               -- 58-61
  | remote (text : Bytes)                -- 63-66
  | ok (out : Bytes)                     -- 68-71
deriving DecidableEq, Repr

/-- What Request did: connections on which Request was called, in order; those that accepted the request; those on which
ResetFrame was called (60); the result. -/
structure GenOut where
  tried : List Nat
  sent : List Nat
  reset : List Nat
  result : GenResult
deriving DecidableEq, Repr

/-- client.go:52: `j := (i + int(idx)) % len(client.conns)`. -/
def genPos (n : Nat) (idx : UInt32) (i : Nat) : Nat := (i + idx.toNat) % n

/-- The same on a platform where `int` has 32 bits: the conversion and the sum wrap and `%` takes the sign of the dividend. -/
def genPos32 (n : Nat) (idx : UInt32) (i : Nat) : Int := Int.tmod (Int.bmod (i + Int.bmod idx.toNat (2 ^ 32)) (2 ^ 32)) n

/-- client.go:51-72, from iteration `i` on with `k` iterations left. -/
def genLoop (errCmd : Cmd) (n : Nat) (idx : UInt32) (env : Nat → GenTry) : Nat → Nat → GenOut
  | 0, _ => { tried := [], sent := [], reset := [], result := .serviceNA }
  | k + 1, i =>
    let j := genPos n idx i
    match env i with
    | .refused =>
      let r := genLoop errCmd n idx env k (i + 1)
      { r with tried := j :: r.tried }
    | .noAnswer => { tried := [j], sent := [j], reset := [j], result := .failed }
    | .answer cmd p => { tried := [j], sent := [j], reset := [], result := if cmd = errCmd then .remote p else .ok p }

/-- client.go:37-76: the new counter and what happened, `n` connections, counter `c` before. -/
def genRequest (errCmd : Cmd) (n : Nat) (c : UInt32) (env : Nat → GenTry) : UInt32 × GenOut :=
  let idx := c + 1
  (idx, genLoop errCmd n idx env n 0)

/-! ## Server -/

/-- service_handler.go:27-29. -/
def fqMethod (ns method : Bytes) : Bytes := ns ++ 0x3a :: method

/-- A MethodCall's outcome; a panic is caught by the connection, see handleRequestPanic (Model/ServeRead.lean). -/
inductive CallRes where
  | ok (out : Bytes) | err (text : Bytes) | panic
deriving DecidableEq, Repr

inductive Crash where
  | panic | fatal
deriving DecidableEq, Repr

/-- What one call of ServeQRPC did: frames handed to the connection, the call made (key and parameters), whether the connection was
closed, and whether the call ended in a panic or killed the process. -/
structure ServeOut where
  frames : List DFW
  call : Option (Bytes × Bytes)
  closed : Bool
  crash : Option Crash

/-- 37-39 and the like: one response frame. -/
def genReply {ε} (codec : Option Codec) (write : DFW → Option ε) (w : DFW) (id : UInt64) (cmd : Cmd) (p : Bytes) : List DFW :=
  ((((w.startWrite id cmd 0).writeBytes p).endWrite codec write).submitted).toList

/-- service_handler.go:32-68. `etext` gives the text of a decoding error. -/
def genServe {ε} (codec : Option Codec) (write : DFW → Option ε) (stack : Nat) (etext : PbErr → Bytes) (errCmd : Cmd)
    (callback : Bytes → Option (Bytes → CallRes)) (w : DFW) (id : UInt64) (cmd : Cmd) (payload : Bytes) : ServeOut :=
  match pbUnmarshal stack payload with
  | .panic => { frames := [], call := none, closed := false, crash := some .panic }
  | .fatal => { frames := [], call := none, closed := false, crash := some .fatal }
  | .err e => { frames := genReply codec write w id errCmd (etext e), call := none, closed := true, crash := none }
  | .ok m =>
    let key := fqMethod m.ns m.method
    match callback key with
    | none => { frames := genReply codec write w id errCmd "no such service".toUTF8.toList, call := none, closed := true, crash := none }
    | some f =>
      match f m.params with
      | .panic => { frames := [], call := some (key, m.params), closed := false, crash := some .panic }
      | .err t => { frames := genReply codec write w id errCmd t, call := some (key, m.params), closed := true, crash := none }
      | .ok out => { frames := genReply codec write w id cmd out, call := some (key, m.params), closed := false, crash := none }

/-- The callback table made by the assignments `m.callback[FQMethod(ns, name)] = f` of the generated code (generator.go:272, 319),
in that order. -/
def genTable (l : List (Bytes × Bytes × (Bytes → CallRes))) : Bytes → Option (Bytes → CallRes) :=
  l.foldl (fun t e k => if k = fqMethod e.1 e.2.1 then some e.2.2 else t k) (fun _ => none)

end Qrpc
