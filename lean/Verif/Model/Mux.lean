import Verif.Model.Flags
/-!
# server.go:69-124, middleware.go: the request multiplexer

Handlers and middleware are numbered; a middleware is a number and its verdict on a request. `ServeQRPC` returns the list of
what it calls, in order. The map is a function; registrations are serialised by `mux.mu` (a panic releases it, the unlock is
deferred).
-/
namespace Qrpc

inductive MEv where
  | mw (i : Nat)       -- a middleware is called
  | handler (h : Nat)  -- the handler is called
  | close              -- r.Close(): the connection is closed (frame.go:76-92)
deriving DecidableEq, Repr

structure MwFn (ρ : Type) where
  name : Nat
  pass : ρ → Bool

structure HEntry (ρ : Type) where
  handler : Nat
  mws : List (MwFn ρ)

inductive HandleRes where
  | ok | nilHandler | tooBig | dup
deriving DecidableEq, Repr

abbrev MuxMap (ρ : Type) := Cmd → Option (HEntry ρ)

/-- server.go:86-106 `Handle`; middleware.go:4-10 `HandlerWithMW` (no middleware: the handler itself, which behaves the same). -/
def muxHandle {ρ : Type} (m : MuxMap ρ) (cmd : Cmd) (handler : Option Nat) (mws : List (MwFn ρ)) : MuxMap ρ × HandleRes :=
  match handler with
  | none => (m, .nilHandler)
  | some h =>
    if cmd > MaxCmd then (m, .tooBig)
    else if (m cmd).isSome then (m, .dup)
    else (fun c => if c = cmd.routing then some ⟨h, mws⟩ else m c, .ok)

/-- middleware.go:17-25 -/
def runMws {ρ : Type} (r : ρ) (h : Nat) : List (MwFn ρ) → List MEv
  | [] => [.handler h]
  | f :: fs => .mw f.name :: (if f.pass r then runMws r h fs else [])

/-- server.go:110-124 `ServeQRPC` -/
def muxServe {ρ : Type} (m : MuxMap ρ) (cmd : Cmd) (r : ρ) : List MEv :=
  match m cmd.routing with
  | none => [.close]
  | some e => runMws r e.handler e.mws

/-- One call of `Handle`. -/
structure Reg (ρ : Type) where
  cmd : Cmd
  handler : Option Nat
  mws : List (MwFn ρ)

/-- A history of registrations (panics are recovered by the callers) with the outcome of each. -/
def muxRun {ρ : Type} : List (Reg ρ) → MuxMap ρ → MuxMap ρ × List HandleRes
  | [], m => (m, [])
  | r :: rs, m =>
    let (m1, o) := muxHandle m r.cmd r.handler r.mws
    let (m2, os) := muxRun rs m1
    (m2, o :: os)

def muxEmpty {ρ : Type} : MuxMap ρ := fun _ => none

end Qrpc
