import Verif.Model.Registry
/-!
# server.go:158-160, serveconn.go:755-767: the limit on closing connections

With `MaxCloseRate` set, `Close` first waits in `limiter.Take()` (757-759) and then goes on as in Model/Registry.lean; `bindID`, which
closes the connection it displaces, does not (server.go:461-468). The limiter (go.uber.org/ratelimit) is a parameter: a predicate that
says, from the times at which Take returned so far, whether another Take may return now. Time is a number that never decreases.
-/
namespace Qrpc

/-- May Take return now? -/
abbrev Limiter := List Nat → Nat → Bool

structure LmSt where
  q : QSt
  now : Nat
  grants : List (Nat × Nat)    -- Take returned: when, and for which connection's Close

def LmSt.init : LmSt := ⟨QSt.init, 0, []⟩

inductive LmAct where
  | tick (d : Nat)
  | reg (a : QAct)

def lmStep (lim : Limiter) (s : LmSt) : LmAct → Option LmSt
  | .tick d => some { s with now := s.now + d }
  | .reg a => match a with
    -- serveconn.go:757-761: Take returns, untrack is called
    | .close i v =>
      if lim (s.grants.map (·.1)) s.now then
        (qStep s.q (.close i v)).map fun q => { s with q := q, grants := s.grants ++ [(s.now, v)] }
      else none
    | a => (qStep s.q a).map fun q => { s with q := q }

abbrev lmRun (lim : Limiter) (acts : List LmAct) : Option LmSt := runActs (lmStep lim) LmSt.init acts

end Qrpc
