import Verif.Model.ServeWrite
/-!
# server.go, serveconn.go: registration, kicking and closing of server connections

Transition system of any number of goroutines calling `SetID` (serveconn.go:96-109, server.go:450-489 `bindID`), `Close`
(serveconn.go:755-795) and `NotifyWhenClose` (122-133) on any number of connections of one binding. Every atomic operation,
`sync.Map` operation, channel operation and critical section is one step.

* Connections and ids are numbers; the empty id is not used (SetID refuses it).
* Callbacks registered with `NotifyWhenClose` are numbered in the order of their registration; a call of a callback or of
  `OnKickCB` is one step.
* `kickOrder` is a package variable; other bindings only increase it (`bump`).

Simplified: `rwc.Close`, metrics, and the rate limiter in `Close` have no effect here; the responses closed by `closeUntracked`
are in `Model/ServeResp.lean`.
-/
namespace Qrpc

/-- Why a connection is being closed: `Close`, or `SetID(id)` of connection `c` displacing it. -/
inductive QK where
  | close
  | kick (c id : Nat)
deriving DecidableEq, Repr

inductive QPc where
  | idle
  | notifyLock (v : Nat)                    -- serveconn.go:123-132
  | callNow (t : Nat)                       -- 127
  | setLock (c id : Nat)                    -- 100-106
  | bind (c id : Nat) (kick : Bool)         -- server.go:455 LoadOrStore
  | loadKo (c id : Nat) (kick : Bool)       -- 487
  | addKick (c id : Nat)                    -- 481
  | utCas (v : Nat) (k : QK)                -- 493
  | utGetId (v : Nat) (k : QK)              -- 499
  | utDel (v : Nat) (k : QK) (id : Option Nat)  -- 500-502
  | utActive (v : Nat) (k : QK)             -- 503
  | utKick (v : Nat) (k : QK)               -- 505-509
  | utCloseCh (v : Nat) (k : QK)            -- 510
  | utWait (v : Nat) (k : QK)               -- server.go:464, serveconn.go:763
  | cuLock (v : Nat) (k : QK)               -- serveconn.go:773-784
  | cuCancel (v : Nat) (k : QK) (cbs : List Nat)  -- 786
  | cuNotify (v : Nat) (k : QK) (cbs : List Nat)  -- 790-792
deriving DecidableEq, Repr

inductive QEv where
  | setRet (c id : Nat) (kick : Bool) (ko : Nat)  -- SetID returned
  | setPanic (c : Nat)                            -- SetID called twice
  | displaced (c v id : Nat)                      -- bindID of c found v registered under id
  | stored (c id : Nat)                           -- bindID of c stored c
  | closeRet (v : Nat)                            -- a Close call returned
deriving DecidableEq, Repr

structure QSt where
  n : Nat                    -- connections created so far
  untrack : Nat → Bool
  untracks : Nat → Nat       -- ghost: successful compare-and-swaps
  chCloses : Nat → Nat       -- closes of untrackedCh
  idOf : Nat → Option Nat
  tbl : Nat → Option Nat     -- id2Conn
  active : Nat → Bool        -- activeConn
  closed : Nat → Bool
  cancelled : Nat → Bool
  notify : Nat → List Nat
  nextT : Nat
  regOf : Nat → Nat          -- ghost: the connection of a callback
  called : List Nat          -- ghost: callbacks called
  kicks : Nat → Nat          -- ghost: calls of OnKickCB
  ko : Nat
  stored : Nat → Bool        -- ghost: LoadOrStore of this connection succeeded
  deleted : Nat → Bool       -- ghost: untrack of this connection is past id2Conn.Delete
  late : Bool                -- ghost: some connection was closed before or during its SetID
  owner : Nat → Nat          -- ghost: the goroutine that untracked this connection
  setBy : Nat → Nat          -- ghost: the goroutine that set the id of this connection
  keeper : Nat → Nat         -- ghost: the goroutine that took this callback for calling it
  closer : Nat → Nat         -- ghost: the goroutine that set closed
  floor : Nat → Nat          -- ghost: kickOrder + 1 when this connection last found another one registered
  log : List QEv
  pc : Nat → QPc

def QSt.init : QSt :=
  { n := 0, untrack := fun _ => false, untracks := fun _ => 0, chCloses := fun _ => 0, idOf := fun _ => none,
    tbl := fun _ => none, active := fun _ => false, closed := fun _ => false, cancelled := fun _ => false,
    notify := fun _ => [], nextT := 0, regOf := fun _ => 0, called := [], kicks := fun _ => 0, ko := 0,
    stored := fun _ => false, deleted := fun _ => false, late := false, owner := fun _ => 0, setBy := fun _ => 0,
    keeper := fun _ => 0, closer := fun _ => 0, floor := fun _ => 0, log := [], pc := fun _ => .idle }

inductive QAct where
  | newConn
  | setID (i c id : Nat)
  | close (i v : Nat)
  | notify (i v : Nat)
  | go (i : Nat)
  | bump
deriving DecidableEq, Repr

def qStep (s : QSt) : QAct → Option QSt
  -- server.go:441 newConn: activeConn.Store
  | .newConn => some { s with n := s.n + 1, active := setAt s.active s.n true }
  | .bump => some { s with ko := s.ko + 1 }
  | .setID i c id => match s.pc i with
    | .idle => if c < s.n then some { s with pc := setAt s.pc i (.setLock c id) } else none
    | _ => none
  | .close i v => match s.pc i with
    | .idle => if v < s.n then some { s with pc := setAt s.pc i (.utCas v .close) } else none
    | _ => none
  | .notify i v => match s.pc i with
    | .idle => if v < s.n then some { s with pc := setAt s.pc i (.notifyLock v) } else none
    | _ => none
  | .go i => match s.pc i with
    | .idle => none
    | .notifyLock v =>
      if s.closed v then
        some { s with nextT := s.nextT + 1, regOf := setAt s.regOf s.nextT v
                      keeper := setAt s.keeper s.nextT i, pc := setAt s.pc i (.callNow s.nextT) }
      else
        some { s with nextT := s.nextT + 1, regOf := setAt s.regOf s.nextT v
                      notify := setAt s.notify v (s.notify v ++ [s.nextT]), pc := setAt s.pc i .idle }
    | .callNow t => some { s with called := s.called ++ [t], pc := setAt s.pc i .idle }
    | .setLock c id => match s.idOf c with
      | some _ => some { s with log := s.log ++ [.setPanic c], pc := setAt s.pc i .idle }
      | none =>
        some { s with idOf := setAt s.idOf c (some id), late := s.late || s.untrack c, setBy := setAt s.setBy c i
                      pc := setAt s.pc i (.bind c id false) }
    | .bind c id kick => match s.tbl id with
      | none =>
        some { s with tbl := setAt s.tbl id (some c), stored := setAt s.stored c true, log := s.log ++ [.stored c id]
                      pc := setAt s.pc i (.loadKo c id kick) }
      | some v =>
        if v = c then some { s with log := s.log ++ [.setRet c id kick 0], pc := setAt s.pc i .idle }
        else
          some { s with log := s.log ++ [.displaced c v id], floor := setAt s.floor c (s.ko + 1)
                        pc := setAt s.pc i (.utCas v (.kick c id)) }
    | .loadKo c id kick => some { s with log := s.log ++ [.setRet c id kick s.ko], pc := setAt s.pc i .idle }
    | .addKick c id => some { s with ko := s.ko + 1, pc := setAt s.pc i (.bind c id true) }
    | .utCas v k =>
      if s.untrack v then some { s with pc := setAt s.pc i (.utWait v k) }
      else
        some { s with untrack := setAt s.untrack v true, untracks := setAt s.untracks v (s.untracks v + 1)
                      late := s.late || ((s.idOf v).isSome && !s.stored v), owner := setAt s.owner v i
                      pc := setAt s.pc i (.utGetId v k) }
    | .utGetId v k => some { s with pc := setAt s.pc i (.utDel v k (s.idOf v)) }
    | .utDel v k id => match id with
      | some id =>
        some { s with tbl := setAt s.tbl id none, deleted := setAt s.deleted v true, pc := setAt s.pc i (.utActive v k) }
      | none => some { s with deleted := setAt s.deleted v true, pc := setAt s.pc i (.utActive v k) }
    | .utActive v k => match k with
      | .close => some { s with active := setAt s.active v false, pc := setAt s.pc i (.utCloseCh v k) }
      | .kick _ _ => some { s with active := setAt s.active v false, pc := setAt s.pc i (.utKick v k) }
    | .utKick v k => some { s with kicks := setAt s.kicks v (s.kicks v + 1), pc := setAt s.pc i (.utCloseCh v k) }
    | .utCloseCh v k => some { s with chCloses := setAt s.chCloses v (s.chCloses v + 1), pc := setAt s.pc i (.cuLock v k) }
    | .utWait v k => if s.chCloses v = 0 then none else some { s with pc := setAt s.pc i (.cuLock v k) }
    | .cuLock v k =>
      if s.closed v then
        match k with
        | .close => some { s with log := s.log ++ [.closeRet v], pc := setAt s.pc i .idle }
        | .kick c id => some { s with pc := setAt s.pc i (.addKick c id) }
      else
        some { s with closed := setAt s.closed v true, notify := setAt s.notify v []
                      keeper := fun t => if t ∈ s.notify v then i else s.keeper t, closer := setAt s.closer v i
                      pc := setAt s.pc i (.cuCancel v k (s.notify v)) }
    | .cuCancel v k cbs => some { s with cancelled := setAt s.cancelled v true, pc := setAt s.pc i (.cuNotify v k cbs) }
    | .cuNotify v k cbs => match cbs with
      | t :: rest => some { s with called := s.called ++ [t], pc := setAt s.pc i (.cuNotify v k rest) }
      | [] => match k with
        | .close => some { s with log := s.log ++ [.closeRet v], pc := setAt s.pc i .idle }
        | .kick c id => some { s with pc := setAt s.pc i (.addKick c id) }

/-- A server from its start. -/
abbrev qRun (acts : List QAct) : Option QSt := runActs qStep QSt.init acts

end Qrpc
