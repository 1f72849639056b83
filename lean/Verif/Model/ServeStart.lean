import Verif.Model.ServeWrite
/-!
# serveconn.go:145-180: a connection that is not being served yet

`newConn` (server.go:421-444) makes a connection visible to `WalkConn` (server.go:589-594), which hands out writers for it. Only
afterwards `serve` runs, and sets `sc.inflight = 1` (serveconn.go:177, an ordinary store) before it starts the reader. Until then
the counter is 0. `Model/ServeWrite.lean` begins after that store; here is the time before.
-/
namespace Qrpc

structure G0St where
  g : GSt
  started : Bool

def G0St.init : G0St := ⟨{ GSt.init with inflight := 0 }, false⟩

inductive G0Act where
  | g (a : GAct)
  | start

/-- Is this a step of the reader, which runs only after the start? -/
def GAct.ofReader : GAct → Bool
  | .readerQuit | .readerGo => true
  | _ => false

def g0Step (cap : Nat) (s : G0St) : G0Act → Option G0St
  | .g a =>
    if a.ofReader = true ∧ s.started = false then none
    else match gStep cap s.g a with
      | some g => some { s with g := g }
      | none => none
  -- serveconn.go:177-180
  | .start => if s.started then none else some ⟨{ s.g with inflight := 1 }, true⟩

abbrev g0Run (cap : Nat) (acts : List G0Act) : Option G0St := runActs (g0Step cap) G0St.init acts

end Qrpc
