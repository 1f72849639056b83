import Verif.Model.Api
import Verif.Model.Run
/-!
# Whose are the slices given to a constructor?

In Go the caller of a constructor keeps the slices it gave, and may change their elements afterwards, or use them again. `NewAPI`
(api.go:30-63) copies the endpoints (44-45) and keeps the weights (48); `NewConnectionWithReconnect` (clientconn.go:153-176) copies and
shuffles the addresses; `codegen.NewClient` (codegen/client.go:22-31) makes a slice of its own for each address; `NewServer`
(server.go:155-177) keeps the bindings (167), and changes them in place (163), as `ListenAll` does (194-236: the listeners).

The model has the caller's arrays, any number of these objects, and a caller that assigns to its arrays at any moment. Strings
(endpoints, addresses) are numbers; of a binding there are the size of the write queue, the listener, and (as a number) the rest. `rand` gives
any draw below the total, and any permutation. A weight not given means an array nobody else has (32-37).
Not modelled: `append` by the caller to a slice with spare capacity (it changes no element within the length given).
-/
namespace Qrpc

structure Slot where
  write : Int                -- WriteFrameChSize
  ln : Option Nat
  rest : Nat
deriving DecidableEq, Repr

structure ApiO where
  eps : List Nat             -- api.go:44-45
  ws : Option Nat            -- 48: the caller's array; none: one of its own, all ones
  total : Int                -- 31-42
  given : List Nat × Option (List Int)   -- ghost: what the caller had in the slices
deriving DecidableEq, Repr

structure ConnO where
  addrs : List Nat
  idx : Nat
  given : List Nat           -- ghost
deriving DecidableEq, Repr

structure SrvO where
  ref : Nat                  -- server.go:167: the caller's array
deriving DecidableEq, Repr

inductive ArgEv where
  | picked (k idx t : Nat) (ep : Option Nat)        -- api k, the index chosen with the draw t, and the endpoint it means
  | dialled (k : Nat) (a : Nat)                     -- connection k
  | opened (k i l : Nat)                            -- server k, binding i, listener l
  | served (k i : Nat) (l : Option Nat)             -- Serve(binding.ln, i)
deriving DecidableEq, Repr

structure ArgSt where
  strs : Nat → List Nat
  ints : Nat → List Int
  binds : Nat → List Slot
  apis : List ApiO
  conns : List ConnO
  srvs : List SrvO
  log : List ArgEv

def ArgSt.init (strs : Nat → List Nat) (ints : Nat → List Int) (binds : Nat → List Slot) : ArgSt := ⟨strs, ints, binds, [], [], [], []⟩

inductive ArgAct where
  | setStr (r i : Nat) (v : Nat) | setInt (r i : Nat) (v : Int) | setBind (r i : Nat) (v : Slot)     -- the caller assigns to an element
  | newApi (r : Nat) (w : Option Nat) | call (k t : Nat)
  | newConn (r : Nat) (l : List Nat) | dial (k : Nat)
  | newSrv (r : Nat) | listen (k i l : Nat) | serve (k i : Nat)
deriving DecidableEq, Repr

def ArgEv.opens (l : Nat) : ArgEv → Bool
  | .opened _ _ l' => l' == l
  | _ => false

/-- server.go:161-164. -/
def Slot.atLeast1 (b : Slot) : Slot := if b.write < 1 then { b with write := 1 } else b

/-- The weights api `a` sees. -/
def ArgSt.weights (s : ArgSt) (a : ApiO) : List Int := match a.ws with
  | some r => s.ints r
  | none => List.replicate a.eps.length 1

def argStep (s : ArgSt) : ArgAct → Option ArgSt
  | .setStr r i v => some { s with strs := setAt s.strs r ((s.strs r).set i v) }
  | .setInt r i v => some { s with ints := setAt s.ints r ((s.ints r).set i v) }
  | .setBind r i v => some { s with binds := setAt s.binds r ((s.binds r).set i v) }
  -- api.go:30-63
  | .newApi r w => some { s with apis := s.apis ++
      [⟨s.strs r, w, (apiWeights (s.strs r).length (w.map s.ints)).sum, (s.strs r, w.map s.ints)⟩] }
  -- 238-250, 209
  | .call k t => match s.apis[k]? with
    | some a =>
      if (t : Int) < a.total then
        some { s with log := s.log ++ [.picked k (getIdx (s.weights a) t).1 t a.eps[(getIdx (s.weights a) t).1]?] }
      else none
    | none => none
  -- clientconn.go:154-170; an empty list panics (167)
  | .newConn r l => if l.Perm (s.strs r) then match l.getLast? with
      | some a => some { s with conns := s.conns ++ [⟨l, 0, s.strs r⟩], log := s.log ++ [.dialled s.conns.length a] }
      | none => none
    else none
  -- 267-268
  | .dial k => match s.conns[k]? with
    | some c => match c.addrs[c.idx % c.addrs.length]? with
      | some a => some { s with conns := s.conns.set k { c with idx := c.idx + 1 }, log := s.log ++ [.dialled k a] }
      | none => none
    | none => none
  -- server.go:157-165, 167
  | .newSrv r => some { s with binds := setAt s.binds r ((s.binds r).map Slot.atLeast1), srvs := s.srvs ++ [⟨r⟩] }
  -- 218-232, for one binding
  | .listen k i l => match s.srvs[k]? with
    | some v => match (s.binds v.ref)[i]? with
      | some b =>
        if s.log.any (·.opens l) then none
        else some { s with binds := setAt s.binds v.ref ((s.binds v.ref).set i { b with ln := some l }), log := s.log ++ [.opened k i l] }
      | none => none
    | none => none
  -- 247-250
  | .serve k i => match s.srvs[k]? with
    | some v => match (s.binds v.ref)[i]? with
      | some b => some { s with log := s.log ++ [.served k i b.ln] }
      | none => none
    | none => none

abbrev argRun (s0 : ArgSt) (acts : List ArgAct) : Option ArgSt := runActs argStep s0 acts

end Qrpc
