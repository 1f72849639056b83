import Verif.Model.Registry
/-!
# server.go: walking over the connections, push ids

`WalkConn` (588-594), `WalkConnByID` (567-576), `GetConnectionInfoByID` (579-586) and `GetPushID` (562-565), called by any number
of goroutines while connections come, get their ids and go (`Model/Registry.lean`; `newConn` stores a connection in `activeConn`
when its context is complete, server.go:434-441, so the type assertions on the context value in 573, 585 and 592 hold).

`sync.Map.Range` promises: no key is visited twice; a key that is in the map during the whole call is visited, unless the
function stops it; a key that is visited was in the map at some moment of the call. Nothing else is assumed about it. What the
functions given by the user do is not modelled, except whether they stop the walk (the registry steps are interleaved anyhow).
-/
namespace Qrpc

/-- A call of WalkConn. -/
structure Walk where
  from0 : QSt               -- ghost: the registry when the call began
  seen : Nat → Bool         -- ghost: in activeConn at some moment since then
  whole : Nat → Bool        -- ghost: in activeConn at every moment since then
  visited : List Nat

/-- What a call of `WalkConnByID` has done: (index in the list of ids, connection), and the rest of the list. -/
structure WalkID where
  from0 : QSt               -- ghost: the registry when the call began
  ids : List Nat
  pos : Nat
  hits : List (Nat × Nat)

inductive WkPc where
  | idle
  | walk (w : Walk)
  | byID (w : WalkID)

inductive WkEv where
  | walked (w : Walk) (to1 : QSt) (stopped : Bool)   -- WalkConn returned
  | walkedID (w : WalkID) (to1 : QSt)                  -- WalkConnByID returned
  | info (id : Nat) (c : Option Nat) (at0 : QSt)     -- GetConnectionInfoByID returned; ghost: the registry then
  | pushID (x : UInt64)                              -- GetPushID returned

structure WkSt where
  q : QSt
  push : UInt64
  pc : Nat → WkPc
  log : List WkEv

def WkSt.init : WkSt := ⟨QSt.init, 0, fun _ => .idle, []⟩

inductive WkAct where
  | reg (a : QAct)
  | walk (i : Nat) | visit (i c : Nat) (stop : Bool) | walkEnd (i : Nat)
  | byID (i : Nat) (ids : List Nat) | next (i : Nat)
  | info (id : Nat)
  | pushID

/-- Every walk sees the registry change. -/
def WkPc.observe (q : QSt) : WkPc → WkPc
  | .walk w => .walk { w with seen := fun c => w.seen c || q.active c, whole := fun c => w.whole c && q.active c }
  | p => p

def wkStep (s : WkSt) : WkAct → Option WkSt
  | .reg a => match qStep s.q a with
    | some q => some { s with q := q, pc := fun i => (s.pc i).observe q }
    | none => none
  -- server.go:590
  | .walk i => match s.pc i with
    | .idle => some { s with pc := setAt s.pc i (.walk ⟨s.q, s.q.active, s.q.active, []⟩) }
    | _ => none
  -- 591-592
  | .visit i c stop => match s.pc i with
    | .walk w =>
      if w.seen c ∧ c ∉ w.visited then
        if stop then
          some { s with pc := setAt s.pc i .idle, log := s.log ++ [.walked { w with visited := w.visited ++ [c] } s.q true] }
        else some { s with pc := setAt s.pc i (.walk { w with visited := w.visited ++ [c] }) }
      else none
    | _ => none
  | .walkEnd i => match s.pc i with
    | .walk w =>
      if ∀ c < s.q.n, w.whole c → c ∈ w.visited then
        some { s with pc := setAt s.pc i .idle, log := s.log ++ [.walked w s.q false] }
      else none
    | _ => none
  -- 568
  | .byID i ids => match s.pc i with
    | .idle => some { s with pc := setAt s.pc i (.byID ⟨s.q, ids, 0, []⟩) }
    | _ => none
  -- 569-574
  | .next i => match s.pc i with
    | .byID w => match w.ids[w.pos]? with
      | some id => match s.q.tbl id with
        | some c => some { s with pc := setAt s.pc i (.byID ⟨w.from0, w.ids, w.pos + 1, w.hits ++ [(w.pos, c)]⟩) }
        | none => some { s with pc := setAt s.pc i (.byID ⟨w.from0, w.ids, w.pos + 1, w.hits⟩) }
      | none => some { s with pc := setAt s.pc i .idle, log := s.log ++ [.walkedID w s.q] }
    | _ => none
  -- 580-585
  | .info id => some { s with log := s.log ++ [.info id (s.q.tbl id) s.q] }
  -- 563
  | .pushID => some { s with push := s.push + 1, log := s.log ++ [.pushID (s.push + 1)] }

abbrev wkRun (acts : List WkAct) : Option WkSt := runActs wkStep WkSt.init acts

end Qrpc
