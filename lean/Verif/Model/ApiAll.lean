import Verif.Model.Api
/-!
# api.go: NewAPI, CallOne's lookup, CallAll, and calls by weight

`Model/Api.lean` takes the index of the endpoint as given. Here it is computed: by `getIdx` from the caller's weights (66-75,
238-250), by the map built in NewAPI (46-60, 124-132), or by CallAll's loop (97-115). An index outside the list of endpoints makes
`api.endpoints[idx]` (209) panic; there `api.mu` is held (152) and not released by a `defer`.

Endpoints are numbers instead of strings. Not modelled: `rand` (any draw below the total is possible); a caller that changes the
slice of weights afterwards (NewAPI copies the endpoints, 44-45, but not the weights; see `Model/Args.lean`); overflow of the sum of the weights.
-/
namespace Qrpc

structure ApiConf where
  eps : List Nat
  ws : Option (List Int)

/-- api.go:32-42. -/
def ApiConf.weights (c : ApiConf) : List Int := apiWeights c.eps.length c.ws
def ApiConf.total (c : ApiConf) : Int := c.weights.sum

/-- api.go:47-60: later entries overwrite earlier ones. -/
def idxMapFrom (k : Nat) (m : Nat → Option Nat) : List Nat → Nat → Option Nat
  | [], e => m e
  | x :: xs, e => idxMapFrom (k + 1) (fun e => if e = x then some k else m e) xs e

def ApiConf.idxMap (c : ApiConf) (e : Nat) : Option Nat := idxMapFrom 0 (fun _ => none) c.eps e

inductive EpAct where
  | call (i : Nat) (t : Nat)          -- t: what rand.Intn returns
  | callOne (i : Nat) (ep : Nat)
  | other (a : AAct)                  -- anything but the beginning of a call
deriving DecidableEq, Repr

def AAct.isCall : AAct → Bool
  | .call _ _ | .callOne _ _ => true
  | _ => false

/-- Is this goroutine about to evaluate `api.endpoints[idx]` with `idx` out of range? -/
def APc.outOfRange (n : Nat) : APc → Bool
  | .ncDial _ idx => n ≤ idx
  | _ => false

def epStep (c : ApiConf) (s : ASt) : EpAct → Option ASt
  -- 82, 238-250
  | .call i t => if (t : Int) < c.total then aStep s (.call i (getIdx c.weights t).1) else none
  -- 127-130
  | .callOne i ep => match c.idxMap ep with
    | some idx => aStep s (.callOne i idx)
    | none => match s.pc i with
      | .idle => some s      -- returns ErrEndPointNotExists, nothing else happens
      | _ => none
  | .other a =>
    if a.isCall then none
    else match a with
      | .res i ok =>
        if (s.pc i).outOfRange c.eps.length then some { s with pc := setAt s.pc i .panicked }   -- 209
        else aStep s (.res i ok)
      | a => aStep s a

abbrev epRun (c : ApiConf) (ok : Nat → Bool) (acts : List EpAct) : Option ASt :=
  runActs (epStep c) (ASt.init c.eps.length ok) acts

/-! ## CallAll (97-115) -/

/-- Store in a map. -/
def mapPut {R : Type} (m : Nat → Option R) (k : Nat) (r : R) : Nat → Option R := fun e => if e = k then some r else m e

/-- The calls of the endpoints finish in some order (a permutation of the indices); each stores its result. -/
def callAll {R : Type} (eps : List Nat) (res : Nat → R) (order : List Nat) : Nat → Option R :=
  order.foldl (fun m i => match eps[i]? with
    | some e => mapPut m e (res i)
    | none => m) (fun _ => none)

end Qrpc
