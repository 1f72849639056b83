import Verif.Model.Bytes
/-!
# channel/encode.go: how a message becomes bytes

A Go type `T` may declare `Marshal() ([]byte, error)` on `T` or on `*T` and `Unmarshal([]byte) error` on `*T` (on `T` it could change
nothing of the caller's; allowed all the same). `msg.(interface{ Marshal() … })` finds methods declared on `T` for a `T` and for a `*T`, those declared
on `*T` only for a `*T`. `encoding/json` itself is a parameter; it takes values and pointers alike, and decodes only into pointers.
A nil pointer is left out.
-/
namespace Qrpc

/-- Where a method is declared. -/
inductive Recv where
  | no | onValue | onPtr
deriving DecidableEq, Repr

/-- The dynamic type of an `interface{}` argument. -/
inductive ArgKind where
  | value | ptr
deriving DecidableEq, Repr

/-- The method set of the argument contains the method. -/
def Recv.inSet : Recv → ArgKind → Bool
  | .no, _ => false
  | .onValue, _ => true
  | .onPtr, .ptr => true
  | .onPtr, .value => false

/-- A message type with its methods and what `encoding/json` does with it. `none` results are errors. -/
structure MsgType (α : Type) where
  marshalRecv : Recv
  unmarshalRecv : Recv
  ownEnc : α → Option Bytes
  ownDec : Bytes → Option α
  jsonEnc : α → Option Bytes
  jsonDec : Bytes → Option α

/-- encode.go:6-14 -/
def chMarshal {α : Type} (t : MsgType α) (k : ArgKind) (msg : α) : Option Bytes :=
  if t.marshalRecv.inSet k then t.ownEnc msg else t.jsonEnc msg

/-- encode.go:17-25: the new content of `*msg`; `none`: an error. `Unmarshal` on a value, or declared on the value, leaves the
caller's variable as it is (`old`). -/
def chUnmarshal {α : Type} (t : MsgType α) (k : ArgKind) (bytes : Bytes) (old : α) : Option α :=
  if t.unmarshalRecv.inSet k then
    match t.ownDec bytes with
    | none => none
    | some m => if t.unmarshalRecv = .onPtr then some m else some old
  else match k with
    | .value => none            -- json: InvalidUnmarshalError
    | .ptr => t.jsonDec bytes

end Qrpc
