import Verif.Model.Run
/-!
# The Go memory model, as far as it is needed to speak of data races

An execution is a list of events: accesses to variables, and the synchronising operations, each by some goroutine. The operations of the
library are broken down into the following, as the Go memory model (https://go.dev/ref/mem) says:

* `rel o`, `acq o`: what is done before a `rel o` happens before what is done after every later `acq o`. Unlocking and locking a mutex;
  cancelling a context and receiving from its `Done`; `WaitGroup.Done` and the return of `Wait`; sending a value and receiving it; giving
  back and taking the only token of a channel of capacity one; `sync.Pool`'s Put of an object and the Get that returns it; storing a value
  in an atomic variable or in a `sync.Map` and loading it.
* `go g`: the go statement that starts `g`.

Every event carries the line of the source it stands for.
-/
namespace Qrpc

inductive MemOp (G O X : Type) where
  | acc (x : X) (write atomic : Bool)
  | acq (o : O)
  | rel (o : O)
  | go (g : G)
deriving DecidableEq, Repr

structure MemEv (G O X : Type) where
  g : G
  op : MemOp G O X
  line : Nat
deriving DecidableEq, Repr

namespace Spec
variable {G O X : Type}

/-- `i` happens before `j`. -/
inductive HB (tr : List (MemEv G O X)) : Nat → Nat → Prop
  | program {i j : Nat} {a b : MemEv G O X} : i < j → tr[i]? = some a → tr[j]? = some b → a.g = b.g → HB tr i j
  | sync {i j : Nat} {a b : MemEv G O X} {o : O} : i < j → tr[i]? = some a → tr[j]? = some b → a.op = .rel o → b.op = .acq o → HB tr i j
  | start {i j : Nat} {a b : MemEv G O X} : i < j → tr[i]? = some a → tr[j]? = some b → a.op = .go b.g → HB tr i j
  | trans {i j k : Nat} : HB tr i j → HB tr j k → HB tr i k

/-- Two accesses to the same variable of which one writes, and not both by atomic operations. -/
def Conflict (x : X) (a b : MemEv G O X) : Prop :=
  ∃ w v p q, a.op = .acc x w p ∧ b.op = .acc x v q ∧ (w = true ∨ v = true) ∧ ¬ (p = true ∧ q = true)

/-- A data race on `x`: two conflicting accesses of which neither happens before the other (`i < j`, so `j` does not happen
before `i`). -/
def Race (tr : List (MemEv G O X)) (x : X) (i j : Nat) : Prop :=
  i < j ∧ (∃ a b, tr[i]? = some a ∧ tr[j]? = some b ∧ Conflict x a b) ∧ ¬ HB tr i j

def RaceFree (tr : List (MemEv G O X)) (x : X) : Prop := ∀ i j, ¬ Race tr x i j

end Spec
end Qrpc
