import Verif.Model.Codegen
import Verif.Model.FrameReader
/-!
# codegen/generator.go: what is registered, and what the generated methods do

The generator prints Go source. Modelled are: which services it accepts (45-96), the headers of the methods it prints (215, 401), whether
`Output` succeeds (438-457), and the meaning of the printed client methods (383-428) and of the printed callbacks of the main
service (270-303). The remaining text (interfaces, constructors, imports) is not.

A Go type is described by what the generator asks `reflect` about it and by its two encodings: its own Marshal/Unmarshal and
encoding/json. Values of all types live in one type `V`, a value of a Go type being whatever its encodings say. Maps are lists without
repeated keys; the order is the order of iteration, which Go leaves open, so results hold for every order.

`format.Source` is modelled as failing when a method header has no parameter list, and when a type name is missing; it may fail for other
reasons, which are ignored.
-/
namespace Qrpc

/-- ASCII text. -/
def ascii (s : String) : Bytes := s.toList.map fun c => UInt8.ofNat c.toNat

/-! ## protoc-gen-gogo's `generator.CamelCase` (used at generator.go:41, 67) -/

def isLowerB (c : UInt8) : Bool := 0x61 ≤ c && c ≤ 0x7a
def isDigitB (c : UInt8) : Bool := 0x30 ≤ c && c ≤ 0x39
def headLower : Bytes → Bool
  | [] => false
  | c :: _ => isLowerB c

/-- The loop of CamelCase; `run` says that the inner loop, which copies lower-case letters, is running. -/
def camelLoop : Bool → Bytes → Bytes
  | _, [] => []
  | run, c :: r =>
    if run && isLowerB c then c :: camelLoop true r
    else if c == 0x5f && headLower r then camelLoop false r
    else if isDigitB c then c :: camelLoop false r
    else (if isLowerB c then c ^^^ 0x20 else c) :: camelLoop true r

def camelCase : Bytes → Bytes
  | [] => []
  | c :: r => if c = 0x5f then 0x58 :: camelLoop false r else camelLoop false (c :: r)

/-! ## Registration -/

/-- An encoding of the values of a Go type; decoding works on an existing value and may leave it half filled. Errors are texts. -/
structure GoEnc (V : Type) where
  marshal : V → Except Bytes Bytes
  unmarshal : Bytes → V → V × Option Bytes

/-- A Go type: `Name()`, whether a pointer to it implements `Marshaler` (io.go:4-7), its two encodings, its zero value and
SetError (io.go:10-12; for output types). -/
structure GoType (V : Type) where
  name : Bytes
  ptrMarshaler : Bool
  own : GoEnc V
  json : GoEnc V
  zero : V
  setError : Bytes → V → V

/-- A method as `util.ScanMethods` returns it: name, number of inputs, whether the first implements context.Context, whether a pointer to the
first implements Marshaler, second input, number of outputs, first output, whether a pointer to it implements Output. -/
structure GoMethod (V : Type) where
  name : Bytes
  nIn : Nat
  ctxOk : Bool
  ctxPtrMarshaler : Bool
  inT : GoType V
  nOut : Nat
  outT : GoType V
  outOk : Bool

/-- generator.go:79-96; `false` is a panic. -/
def checkFuncIO {V} (m : GoMethod V) : Bool := m.nIn = 2 && m.ctxOk && m.nOut = 1 && m.outOk

structure Gen (V : Type) where
  serviceName : Bytes
  services : List (Bytes × List (GoMethod V))

/-- generator.go:40-42 -/
def Gen.new {V} (serviceName : Bytes) : Gen V := { serviceName := camelCase serviceName, services := [] }

/-- generator.go:58-73; `none` is a panic. -/
def Gen.registerSub' {V} (g : Gen V) (ns : Bytes) (methods : List (GoMethod V)) : Option (Gen V) :=
  if methods = [] then none
  else if methods.all checkFuncIO then
    let ns := camelCase ns
    if ns ∈ g.services.map (·.1) then none else some { g with services := g.services ++ [(ns, methods)] }
  else none

/-- generator.go:45-48 -/
def Gen.register {V} (g : Gen V) (methods : List (GoMethod V)) : Option (Gen V) := g.registerSub' [] methods

/-- generator.go:51-56 -/
def Gen.registerSub {V} (g : Gen V) (ns : Bytes) (methods : List (GoMethod V)) : Option (Gen V) :=
  if ns = [] then none else g.registerSub' ns methods

/-! ## The printed headers -/

/-- generator.go:363; `none` is the panic of `s[:1]`. `strings.ToLower` of the first byte: ASCII letters only, other bytes are not valid
names here. -/
def unexport : Bytes → Option Bytes
  | [] => none
  | c :: r => some ((if 0x41 ≤ c ∧ c ≤ 0x5a then c ^^^ 0x20 else c) :: r)

/-- generator.go:215 -/
def subHeader (svc ns : Bytes) : Bytes := ascii "func (c " ++ svc ++ ascii "Client) " ++ ns ++ ascii "Client {"

/-- generator.go:401, up to the parameters (`rest`). -/
def methodHeader (svc ns name rest : Bytes) : Bytes := ascii "func (c " ++ svc ++ ns ++ ascii "Client)" ++ name ++ ascii "(ctx " ++ rest

/-- A byte of a Go identifier; bytes of non-ASCII letters included. -/
def isIdent (c : UInt8) : Bool := isLowerB c || isDigitB c || (0x41 ≤ c && c ≤ 0x5a) || c == 0x5f || 0x80 ≤ c

/-- Go's grammar of a method declaration, as far as needed: `func (` receiver `)` name `(`; the receiver is all up to the first `)`. -/
def headerOk (l : Bytes) : Bool :=
  (ascii "func (").isPrefixOf l &&
    let l := (l.drop 6).dropWhile (· != 0x29)
    let l := (l.drop 1).dropWhile (· == 0x20)
    let name := l.takeWhile isIdent
    name != [] && (l.dropWhile isIdent).head? == some 0x28

/-- generator.go:172-457: the headers printed by `Generate`; `none` if `unexport` panics. -/
def Gen.headers {V} (g : Gen V) (rest : GoMethod V → Bytes) : Option (List Bytes) :=
  (unexport g.serviceName).map fun svc =>
    (g.services.filter (·.1 = [])).flatMap (fun s => s.2.map fun m => methodHeader svc [] m.name (rest m)) ++
    (g.services.filter (·.1 ≠ [])).map (fun s => subHeader svc s.1) ++
    (g.services.filter (·.1 ≠ [])).flatMap (fun s => s.2.map fun m => methodHeader svc s.1 m.name (rest m))

/-- `Generate` followed by `Output` produces a file: `format.Source` accepts the headers and every named type has a name. -/
def Gen.outputs {V} (g : Gen V) (rest : GoMethod V → Bytes) : Bool :=
  match g.headers rest with
  | none => false
  | some hs => hs.all headerOk && g.services.all fun s => s.2.all fun m => m.inT.name != [] && m.outT.name != []

/-! ## The generated methods -/

/-- generator.go:284-288, 386, 403-407: the encoding chosen for the input, by client and callback alike. -/
def GoMethod.inEnc {V} (m : GoMethod V) : GoEnc V := if m.inT.ptrMarshaler then m.inT.own else m.inT.json

/-- generator.go:387, 418-422: the encoding with which the client decodes the output. -/
def GoMethod.outDec {V} (m : GoMethod V) : GoEnc V := if m.outT.ptrMarshaler then m.outT.own else m.outT.json

/-- generator.go:274-276, 293-297: the encoding with which the callback encodes the output. `outTypes` is `FuncInputTypes(method)`: the
question is asked of the method's first input, the context. -/
def GoMethod.outEnc {V} (m : GoMethod V) : GoEnc V := if m.ctxPtrMarshaler then m.outT.own else m.outT.json

/-- generator.go:401-427: the printed client method; `req` is `cc.Request(ctx, ns, name, ·)`. -/
def cliMethod {V} (m : GoMethod V) (req : Bytes → Except Bytes Bytes) (input : V) : V :=
  match m.inEnc.marshal input with
  | .error e => m.outT.setError e m.outT.zero
  | .ok inBytes => match req inBytes with
    | .error e => m.outT.setError e m.outT.zero
    | .ok outBytes => match m.outDec.unmarshal outBytes m.outT.zero with
      | (output, none) => output
      | (output, some e) => m.outT.setError e output

/-- generator.go:272-301: the printed callback; `impl` is the service's method. A panic of `impl` is `none`. -/
def srvMethod {V} (m : GoMethod V) (impl : V → Option V) (inBytes : Bytes) : CallRes :=
  match m.inEnc.unmarshal inBytes m.inT.zero with
  | (_, some e) => .err e
  | (input, none) => match impl input with
    | none => .panic
    | some output => match m.outEnc.marshal output with
      | .error e => .err e
      | .ok out => .ok out

/-- generator.go:270-303: the table filled by the printed `Register`, the namespace being empty. -/
def srvTable {V} (ms : List (GoMethod V)) (impl : Bytes → V → Option V) : List (Bytes × Bytes × (Bytes → CallRes)) :=
  ms.map fun m => ([], m.name, srvMethod m (impl m.name))

/-- client.go:37-75 with one connection: the request is encoded, handed to the service handler, and the frame read from what it wrote is
taken; `deliver` is the network and the client's reader (`none`: no answer arrives, and the context ends). -/
def genNet {ε} (codec : Option Codec) (write : DFW → Option ε) (stack : Nat) (etext : PbErr → Bytes) (errCmd : Cmd)
    (table : List (Bytes × Bytes × (Bytes → CallRes))) (w : DFW) (id : UInt64) (cmd : Cmd) (deliver : DFW → Option Frame)
    (ns name inBytes : Bytes) : Except Bytes Bytes :=
  match RpcReq.marshal { ns := ns, method := name, params := inBytes, unrec := [] } with
  | none => .error (ascii "marshal")
  | some d => match (genServe codec write stack etext errCmd (genTable table) w id cmd d).frames with
    | fr :: _ => match deliver fr with
      | some f => if f.cmd = errCmd then .error f.payload else .ok f.payload
      | none => .error (ascii "context canceled")
    | [] => .error (ascii "context canceled")

end Qrpc
