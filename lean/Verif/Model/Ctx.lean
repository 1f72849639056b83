import Verif.Model.ServeWrite
/-!
# Contexts of a server: server.go:292, 434-438; stream.go:89-93

`context.WithCancel` as used by qrpc: `Serve` makes a context, every connection derives one from it, every stream derives one
from that of its connection. The standard library (go 1.11+, context.go: `propagateCancel`, `cancelCtx.cancel`) keeps in every
context the list of its children; `cancel` marks the context and calls `cancel` on each child, and a context derived from a
cancelled one is cancelled at once. This is modelled here because "closing cancels every handler context" depends on it.

Contexts are numbered in the order of their creation; the first one (0) is the one of `Serve`.

Simplified: cancelling is one step (the code holds locks; a reader may see the parent cancelled before the child).
-/
namespace Qrpc

structure XSt where
  n : Nat                    -- contexts created
  kids : Nat → List Nat      -- cancelCtx.children
  done : Nat → Bool          -- cancelCtx.err != nil
  parent : Nat → Option Nat  -- ghost: derived from
  cancelled : List Nat       -- ghost: calls of a CancelFunc

/-- `cancelCtx.cancel`: nothing if cancelled already; otherwise mark and cancel the children. -/
def cancelCtx (kids : Nat → List Nat) : Nat → (Nat → Bool) → Nat → (Nat → Bool)
  | 0, d, _ => d
  | fuel + 1, d, c => if d c then d else (kids c).foldl (cancelCtx kids fuel) (setAt d c true)

def XSt.init : XSt :=
  { n := 1, kids := fun _ => [], done := fun _ => false, parent := fun _ => none, cancelled := [] }

inductive XAct where
  | derive (p : Nat)    -- context.WithCancel(p)
  | cancel (c : Nat)

def xStep (s : XSt) : XAct → Option XSt
  | .derive p =>
    if p < s.n then
      if s.done p then
        some { s with n := s.n + 1, done := setAt s.done s.n true, parent := setAt s.parent s.n (some p) }
      else
        some { s with n := s.n + 1, kids := setAt s.kids p (s.kids p ++ [s.n]), parent := setAt s.parent s.n (some p) }
    else none
  | .cancel c =>
    if c < s.n then
      -- children are removed from the map of their parent; here they stay, which makes no difference: they are cancelled
      some { s with done := cancelCtx s.kids (s.n + 1 - c) s.done c, cancelled := s.cancelled ++ [c] }
    else none

def xRun (acts : List XAct) : Option XSt := runActs xStep XSt.init acts

end Qrpc
