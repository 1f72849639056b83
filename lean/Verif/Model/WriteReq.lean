import Verif.Model.Run
import Verif.Model.ServeWrite
/-!
# serveconn.go:307-310, 448-541, clientconn.go:380-416: the write requests shared by all connections

`writeFrameBytes` takes a `writeFrameRequest` from `wfrPool`, a pool shared by all server and client connections of the process, puts its frame
into it, sends it to the connection's `writeFrameCh`, waits for the result and gives the request back. The goroutine that writes for a connection
(the client's `writeFrames`, or the server's writer that has `wlockCh`) receives requests, reads their `dfw` fields and sends one result to each.
ServeWrite and Client give every write its own request; this module shows that they may.

`result` is a channel of capacity 1. A write is identified with its frame; a result is identified with the frame it belongs to. Channels are
multisets here: order plays no role for this property.
-/
namespace Qrpc

/-- A table with one entry changed. -/
def setAt2 (f : Nat → Nat → Nat) (c o x : Nat) : Nat → Nat → Nat := fun c' o' => if c' = c ∧ o' = o then x else f c' o'

/-- Where a call of `writeFrameBytes` is; `o` is its request. -/
inductive WqP where
  | idle
  | got (o : Nat)      -- has a request, not sent yet
  | sent (o : Nat)     -- waits for the result
  | done (r : Nat)     -- returned the result of frame r
  | left               -- returned because the connection ended; the request is not given back
deriving DecidableEq

structure WqSt where
  n : Nat                      -- requests made so far
  pool : Nat → Nat             -- how often a request is in the pool
  dfw : Nat → Option Nat       -- request.dfw
  res : Nat → Option Nat       -- what request.result holds
  nil : Nat → Bool             -- request.result = nil
  queue : Nat → Nat → Nat      -- how often a request is in connection c's writeFrameCh
  batch : Nat → Nat → Nat      -- how often it is in c's cachedRequests, to be answered
  toNil : Nat → Bool           -- a writer is about to execute `request.result = nil`
  lost : Nat → Bool            -- ghost: dropped unanswered because the connection ended
  home : Nat → Nat             -- ghost: the connection to which it was sent last
  w : Nat → WqP

def WqSt.init : WqSt :=
  ⟨0, fun _ => 0, fun _ => none, fun _ => none, fun _ => false, fun _ _ => 0, fun _ _ => 0, fun _ => false, fun _ => false, fun _ => 0, fun _ => .idle⟩

inductive WqAct where
  | new (i : Nat)              -- wfrPool.Get makes a request
  | get (i o : Nat)            -- wfrPool.Get returns a used one
  | send (i c : Nat)           -- to writeFrameCh
  | leave (i : Nat)            -- the connection's context is done
  | collect (c o : Nat)        -- received, appended to cachedRequests
  | reject (c o : Nat)         -- received, answered at once
  | answer (c o : Nat)         -- a cached request is answered
  | collide (c o : Nat)        -- a cached request is answered with ErrNoNewUUID
  | setNil (o : Nat)           -- the statement after that
  | skip (c o : Nat)           -- a cached request whose channel is nil is not answered
  | forget (c o : Nat)         -- the writer returns without answering
  | take (i : Nat)             -- the write receives its result and gives the request back
  | drop (o : Nat)             -- the pool forgets a request

/-- Send the result of the frame in `request.dfw`; not possible while the channel is full or nil. -/
def WqSt.answerReq (s : WqSt) (o : Nat) : Option WqSt :=
  if s.res o = none ∧ s.nil o = false then
    match s.dfw o with
    | some f => some { s with res := setAt s.res o (some f) }
    | none => none      -- nil pointer: panics
  else none

def wqStep (s : WqSt) : WqAct → Option WqSt
  -- serveconn.go:448-450, 453-454
  | .new i => if s.w i = .idle then
      some { s with n := s.n + 1, dfw := setAt s.dfw s.n (some i), w := setAt s.w i (.got s.n) } else none
  -- 453-458: the drain of line 456 empties the channel
  | .get i o => if s.w i = .idle ∧ 0 < s.pool o then
      some { s with pool := setAt s.pool o (s.pool o - 1), dfw := setAt s.dfw o (some i), res := setAt s.res o none, w := setAt s.w i (.got o) }
    else none
  -- 461; clientconn.go:394
  | .send i c => match s.w i with
    | .got o => some { s with queue := setAt2 s.queue c o (s.queue c o + 1), home := setAt s.home o c, w := setAt s.w i (.sent o) }
    | _ => none
  -- 462-463, 536-537, 482-485; clientconn.go:390-392, 395-396, 413-414
  | .leave i => match s.w i with
    | .got _ => some { s with w := setAt s.w i .left }
    | .sent _ => some { s with w := setAt s.w i .left }
    | _ => none
  -- 632, 669; clientconn.go:609, 647, 662, 689
  | .collect c o => if 0 < s.queue c o ∧ s.dfw o ≠ none then
      some { s with queue := setAt2 s.queue c o (s.queue c o - 1), batch := setAt2 s.batch c o (s.batch c o + 1) }
    else none
  -- 632, 640, 645, 653, 664; clientconn.go:617, 622, 630, 642, 670, 675, 684
  | .reject c o => if 0 < s.queue c o then
      (s.answerReq o).map fun s => { s with queue := setAt2 s.queue c o (s.queue c o - 1) }
    else none
  -- 562, 602-617; clientconn.go:711, 726, 754-769
  | .answer c o => if 0 < s.batch c o then
      (s.answerReq o).map fun s => { s with batch := setAt2 s.batch c o (s.batch c o - 1) }
    else none
  -- 572-573; clientconn.go:733-734
  | .collide c o => if 0 < s.batch c o then
      (s.answerReq o).map fun s =>
        { s with batch := setAt2 s.batch c o (s.batch c o - 1), toNil := setAt s.toNil o true }
    else none
  -- 574; clientconn.go:735
  | .setNil o => if s.toNil o then some { s with nil := setAt s.nil o true, res := setAt s.res o none, toNil := setAt s.toNil o false } else none
  -- 606, 614; clientconn.go:758, 766
  | .skip c o => if 0 < s.batch c o ∧ s.nil o = true then
      some { s with batch := setAt2 s.batch c o (s.batch c o - 1), lost := setAt s.lost o true }
    else none
  -- 672-674; clientconn.go:703-709
  | .forget c o => if 0 < s.batch c o + s.queue c o then
      some { s with batch := setAt2 s.batch c o 0, queue := setAt2 s.queue c o 0, lost := setAt s.lost o true }
    else none
  -- 470-476, 527-530, 532-535; clientconn.go:402-405, 409-412
  | .take i => match s.w i with
    | .sent o => match s.res o with
      | some r => some { s with w := setAt s.w i (.done r), res := setAt s.res o none, dfw := setAt s.dfw o none, pool := setAt s.pool o (s.pool o + 1) }
      | none => none
    | _ => none
  | .drop o => some { s with pool := setAt s.pool o (s.pool o - 1) }

abbrev wqRun (acts : List WqAct) : Option WqSt := runActs wqStep WqSt.init acts

/-- No request id is used twice (ErrNoNewUUID never occurs). -/
def WqAct.plain : WqAct → Bool
  | .collide .. => false
  | _ => true

end Qrpc
