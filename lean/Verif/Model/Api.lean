import Verif.Model.ServeWrite
/-!
# api.go: defaultAPI

`getIdx` (238-250) is a function of the draw. Calls and Close are a transition system: any number of goroutines, one step per
operation on the mutex, on one of the two maps or on a connection. A connection is a number; the outcomes of `Request`, of
`NewConnection` and of `GetFrameWithContext` are choices of the environment (see Model/Client.lean and Model/Dial.lean for what
they do).

Every write to the maps happens under `mu` (NewAPI's happen before the API is shared), so "load, compare, delete" of
safeCloseDeleteConn (188-191) and the load of safeStoreConnLocked (197) are one step with the operation that follows.

Simplified: endpoints are their indices (CallOne's lookup in `idxMap` is left out: an unknown endpoint is refused at once; equal
endpoint strings share the last index); CallAll is one callViaIdx per endpoint, i.e. several goroutines calling CallOne;
`activeConns.Range` of callViaActiveConns picks any entry or none.
-/
namespace Qrpc

/-! ## getIdx -/

/-- api.go:240-246. -/
def getIdxLoop (target : Int) : Int → Nat → List Int → Option Nat
  | _, _, [] => none
  | sum, idx, w :: ws => if sum + w > target then some idx else getIdxLoop target (sum + w) (idx + 1) ws

/-- api.go:238-250: the result for the draw `target`, and whether the fallback branch (248) was taken. -/
def getIdx (weights : List Int) (target : Int) : Nat × Bool :=
  match getIdxLoop target 0 0 weights with
  | some i => (i, false)
  | none => (0, true)

/-- api.go:32-42: `weights == nil` means all weights 1. -/
def apiWeights (endpoints : Nat) : Option (List Int) → List Int
  | none => List.replicate endpoints 1
  | some w => w

/-! ## Calls and Close -/

inductive AMode where
  | one      -- CallOne, or an element of CallAll
  | first    -- Call: callViaIdx
  | second   -- Call: callViaActiveConns
deriving DecidableEq, Repr

inductive APc where
  | idle
  | load (m : AMode) (idx : Nat)                       -- 136
  | req (m : AMode) (idx c : Nat) (nc : Bool)          -- 142, 163, 174, 223; nc: callWithoutConn after a failure
  | cls (m : AMode) (idx c : Nat) (nc : Bool)          -- 185
  | delLock (m : AMode) (idx c : Nat) (nc : Bool)      -- 186
  | del1 (m : AMode) (idx c : Nat) (nc : Bool)         -- 189-192
  | del2 (m : AMode) (idx c : Nat) (nc : Bool)         -- 193
  | delUn (m : AMode) (idx : Nat) (nc : Bool)          -- 187
  | ncLock (m : AMode) (idx : Nat)                     -- 152
  | ncLoad (m : AMode) (idx : Nat)                     -- 153
  | ncCheck (m : AMode) (idx : Nat)                    -- 206
  | ncDial (m : AMode) (idx : Nat)                     -- 209
  | ncErr (m : AMode) (idx : Nat)                      -- 158-159
  | ncSt1 (m : AMode) (idx c : Nat)                    -- 197-201
  | ncSt2 (m : AMode) (idx c : Nat)                    -- 202
  | ncUn (m : AMode) (idx c : Nat)                     -- 162, 171
  | wait (m : AMode) (idx c : Nat)                     -- GetFrameWithContext
  | range                                              -- 221
  | clLock                                             -- 258
  | clRange                                            -- 261
  | clLoop (l : List Nat)                              -- 262
  | clUn                                               -- 259
  | panicked
deriving DecidableEq, Repr

inductive ARet where
  | result (i : Nat) | err (i : Nat) | closeOk (i : Nat) | closeErr (i : Nat)
deriving DecidableEq, Repr

structure ASt where
  conns : Nat → Option Nat
  active : Nat → Option Nat
  mu : Option Nat
  owner : Nat                -- ghost: the last goroutine that locked mu
  closed : Bool
  nextC : Nat
  made : Nat → Bool          -- ghost: dialled successfully
  cClosed : Nat → Bool       -- ghost: the API called Close on the connection
  home : Nat → Nat           -- ghost: the endpoint it was dialled for
  done : Bool                -- ghost: a Close has returned nil
  madeAfter : List Nat       -- ghost: dialled after that
  log : List ARet            -- ghost
  sends : Nat → Nat          -- ghost: successful Requests of the current call
  respErr : Nat → Bool       -- ghost: a GetFrameWithContext of the current call failed
  isCall : Nat → Bool        -- ghost: the current (or last) call is Call, not CallOne
  closer : Nat               -- ghost: the goroutine that won the CAS of Close
  pc : Nat → APc

/-- NewAPI with `n` endpoints; `ok i` says whether the first dial of endpoint `i` succeeded. -/
def ASt.init (n : Nat) (ok : Nat → Bool) : ASt :=
  { conns := fun i => if i < n && ok i then some i else none
    active := fun i => if i < n && ok i then some i else none
    mu := none, owner := 0, closed := false, nextC := n, made := fun i => i < n && ok i, cClosed := fun _ => false, home := fun i => i,
    done := false, madeAfter := [], log := [],
    sends := fun _ => 0, respErr := fun _ => false, isCall := fun _ => false, closer := 0, pc := fun _ => .idle }

inductive AAct where
  | call (i idx : Nat) | callOne (i idx : Nat) | close (i : Nat)
  | go (i : Nat)
  | res (i : Nat) (ok : Bool)        -- outcome of Request, NewConnection or GetFrameWithContext
  | pick (i : Nat) (c : Option Nat)  -- what Range visits
deriving DecidableEq, Repr

/-- Where a call goes on after an error. -/
def ASt.fail (s : ASt) (i : Nat) : AMode → ASt
  | .first => { s with pc := setAt s.pc i .range }
  | _ => { s with log := s.log ++ [.err i], pc := setAt s.pc i .idle }

def aStep (s : ASt) : AAct → Option ASt
  | .call i idx => match s.pc i with
    | .idle => some { s with sends := setAt s.sends i 0, respErr := setAt s.respErr i false, isCall := setAt s.isCall i true,
                             pc := setAt s.pc i (.load .first idx) }
    | _ => none
  | .callOne i idx => match s.pc i with
    | .idle => some { s with sends := setAt s.sends i 0, respErr := setAt s.respErr i false, isCall := setAt s.isCall i false,
                             pc := setAt s.pc i (.load .one idx) }
    | _ => none
  | .close i => match s.pc i with
    | .idle =>
      if s.closed then some { s with log := s.log ++ [.closeErr i] }
      else some { s with closed := true, closer := i, pc := setAt s.pc i .clLock }
    | _ => none
  | .pick i c => match s.pc i with
    | .range => match c with
      | none => some { s with log := s.log ++ [.err i], pc := setAt s.pc i .idle }
      | some c => match s.active c with
        | some idx => some { s with pc := setAt s.pc i (.req .second idx c true) }
        | none => none
    | _ => none
  | .res i ok => match s.pc i with
    | .req m idx c nc =>
      if ok then some { s with sends := setAt s.sends i (s.sends i + 1), pc := setAt s.pc i (.wait m idx c) }
      else some { s with pc := setAt s.pc i (.cls m idx c nc) }
    | .ncDial m idx =>
      if ok then
        some { s with nextC := s.nextC + 1, made := setAt s.made s.nextC true,
                      home := setAt s.home s.nextC idx, madeAfter := if s.done then s.nextC :: s.madeAfter else s.madeAfter,
                      pc := setAt s.pc i (.ncSt1 m idx s.nextC) }
      else some { s with pc := setAt s.pc i (.ncErr m idx) }
    | .wait m _ _ =>
      if ok then some { s with log := s.log ++ [.result i], pc := setAt s.pc i .idle }
      else some ({ s with respErr := setAt s.respErr i true }.fail i m)
    | _ => none
  | .go i => match s.pc i with
    | .load m idx => match s.conns idx with
      | some c => some { s with pc := setAt s.pc i (.req m idx c true) }
      | none => some { s with pc := setAt s.pc i (.ncLock m idx) }
    | .cls m idx c nc => some { s with cClosed := setAt s.cClosed c true, pc := setAt s.pc i (.delLock m idx c nc) }
    | .delLock m idx c nc =>
      if s.mu = none then some { s with mu := some i, owner := i, pc := setAt s.pc i (.del1 m idx c nc) } else none
    | .del1 m idx c nc =>
      if s.conns idx = some c then some { s with conns := setAt s.conns idx none, pc := setAt s.pc i (.del2 m idx c nc) }
      else some { s with pc := setAt s.pc i (.del2 m idx c nc) }
    | .del2 m idx c nc => some { s with active := setAt s.active c none, pc := setAt s.pc i (.delUn m idx nc) }
    | .delUn m idx nc =>
      if nc then some { s with mu := none, pc := setAt s.pc i (.ncLock m idx) }
      else some ({ s with mu := none }.fail i m)
    | .ncLock m idx =>
      if s.mu = none then some { s with mu := some i, owner := i, pc := setAt s.pc i (.ncLoad m idx) } else none
    | .ncLoad m idx => match s.conns idx with
      | some c => some { s with pc := setAt s.pc i (.ncUn m idx c) }
      | none => some { s with pc := setAt s.pc i (.ncCheck m idx) }
    | .ncCheck m idx =>
      if s.closed then some { s with pc := setAt s.pc i (.ncErr m idx) }
      else some { s with pc := setAt s.pc i (.ncDial m idx) }
    | .ncErr m _ => some ({ s with mu := none }.fail i m)
    | .ncSt1 m idx c => match s.conns idx with
      | some _ => some { s with pc := setAt s.pc i .panicked }
      | none => some { s with conns := setAt s.conns idx (some c), pc := setAt s.pc i (.ncSt2 m idx c) }
    | .ncSt2 m idx c => some { s with active := setAt s.active c (some idx), pc := setAt s.pc i (.ncUn m idx c) }
    | .ncUn m idx c => some { s with mu := none, pc := setAt s.pc i (.req m idx c false) }
    | .clLock => if s.mu = none then some { s with mu := some i, owner := i, pc := setAt s.pc i .clRange } else none
    | .clRange =>
      some { s with pc := setAt s.pc i (.clLoop ((List.range s.nextC).filter (fun c => (s.active c).isSome))) }
    | .clLoop l => match l with
      | c :: l => some { s with cClosed := setAt s.cClosed c true, pc := setAt s.pc i (.clLoop l) }
      | [] => some { s with pc := setAt s.pc i .clUn }
    | .clUn => some { s with mu := none, done := true, log := s.log ++ [.closeOk i], pc := setAt s.pc i .idle }
    | _ => none

def aRun (n : Nat) (ok : Nat → Bool) (acts : List AAct) : Option ASt := runActs aStep (ASt.init n ok) acts

end Qrpc
