import Verif.Model.FrameReader
import Verif.Model.Run
/-!
# stream.go + framereader.go:40-77: streams of one connection

A transition system over all streams of one connection. Two threads use the streams: the connection's reader goroutine
(`ReadFrame`), and the one goroutine allowed to process write requests at a time (the holder of `wlockCh` on the server,
serveconn.go:467; the `writeFrames` goroutine on the client, clientconn.go:574). Every step is one atomic memory
operation, one `sync.Map` operation, one channel operation or purely local. The consumer of `FrameCh` and the
cancellation of the connection's context are environment actions.

Modelled: ConnStreams (GetStream, CreateOrGetStream, Release), Stream (TryBind, AddInFrame, closePeerIfNeeded,
AddOutFrame, ResetByPeer, afterDone, reset, Release), ReadFrame. `Release` (stream.go:63-72, 227-230) is one step: it runs
only when neither thread uses streams any more (C26).
-/
namespace Qrpc

/-- Which stream a frame belongs to: request id, and whether the push table (stream.go:23, 41) is used. -/
abbrev SKey := UInt64 × Bool

def Frame.key (f : Frame) : SKey := (f.requestID, FrameFlag.isPush f.flags)

/-- stream.go:75-87 `Stream`. `chCloses`, `doneCloses`, `removals` count the executions of `close(frameCh)`,
`close(fullCloseCh)` and `closeNotify()`; `lateReset` is a ghost: the peer's reset was processed after the writer had already
looked at `closedPeer` (or after the local side was closed by a push); `resetUnbound` is a ghost: it was processed before any
frame of the stream had been received. -/
structure Stream where
  key : SKey := (0, false)
  closedSelf : Bool := false
  closedPeer : Bool := false
  fullClosed : Bool := false
  binded : Bool := false
  chCloses : Nat := 0
  cancelled : Bool := false
  doneCloses : Nat := 0
  removals : Nat := 0
  lateReset : Bool := false
  resetUnbound : Bool := false
deriving Repr, DecidableEq

/-- Steps of `afterDone` (stream.go:207-217). -/
inductive ADPc where
  | cas      -- 209
  | cancel   -- 212
  | notify   -- 213
  | done     -- 214
deriving Repr, DecidableEq

/-- Where the reader goroutine is. -/
inductive RPc where
  | idle                                   -- about to read a frame (framereader.go:42)
  | bindTest (r : Nat) (f : Frame)         -- framereader.go:67, stream.go:108-111
  | addLoad (r : Nat) (f : Frame)          -- stream.go:132
  | addSelect (r : Nat) (f : Frame)        -- stream.go:136
  | waitDone (r : Nat) (f : Frame)         -- framereader.go:72
  | cpPush (r : Nat) (fl : FrameFlag)      -- stream.go:146-152
  | cpStorePeer (r : Nat)                  -- stream.go:153
  | cpCloseCh (r : Nat)                    -- stream.go:154
  | cpLoadSelf (r : Nat)                   -- stream.go:155
  | ad (r : Nat) (pc : ADPc)               -- afterDone called from closePeerIfNeeded
  | rstCas (r : Nat)                       -- stream.go:199
  | rstCloseCh (r : Nat)                   -- stream.go:201
  | rstCancel (r : Nat)                    -- stream.go:204
  | panicked                               -- close of a closed channel / send on a closed channel
deriving Repr, DecidableEq

/-- Where the writing goroutine is inside `AddOutFrame`. -/
inductive WPc where
  | idle
  | rstSwap (r : Nat) (fl : FrameFlag)               -- stream.go:171
  | rstLoad (r : Nat) (fl : FrameFlag) (old : Bool)  -- stream.go:173
  | loadSelf (r : Nat) (fl : FrameFlag)              -- stream.go:182
  | storeSelf (r : Nat) (fl : FrameFlag)             -- stream.go:190
  | loadPeer (r : Nat) (fl : FrameFlag)              -- stream.go:191
  | ad (r : Nat) (pc : ADPc) (fl : FrameFlag) (res : Bool)  -- afterDone (174 / 192), then `return res`
deriving Repr, DecidableEq

/-- Observations, in order. -/
inductive SEv where
  | bound (r : Nat) (f : Frame)        -- ReadFrame returns f as the first frame of stream r
  | delivered (r : Nat) (f : Frame)    -- f received from FrameCh of stream r
  | dropped (r : Nat) (f : Frame)      -- f discarded after waiting for the stream's Done (framereader.go:71-75)
  | rst (r : Option Nat) (f : Frame)   -- reset frame f processed (none: no such stream)
  | wbegin (r : Nat) (fl : FrameFlag)  -- AddOutFrame called
  | accepted (r : Nat) (fl : FrameFlag)
  | rejected (r : Nat) (fl : FrameFlag)
  | noStream (fl : FrameFlag)          -- ErrStreamNotExists / ErrRstNonExistingStream
deriving Repr, DecidableEq

structure SSt where
  tbl : SKey → Option Nat := fun _ => none
  str : Nat → Stream := fun _ => {}
  next : Nat := 0                       -- streams allocated so far: refs 0 .. next-1
  r : RPc := .idle
  w : WPc := .idle
  connCancelled : Bool := false
  released : Bool := false
  recv : List Frame := []               -- every frame read from the wire so far
  log : List SEv := []

def SSt.init : SSt := {}

def SSt.upd (s : SSt) (r : Nat) (g : Stream → Stream) : SSt :=
  { s with str := fun k => if k = r then g (s.str k) else s.str k }

/-- stream.go:38-59 `CreateOrGetStream`: one atomic `LoadOrStore`. Returns the stream's ref. -/
def SSt.createOrGet (s : SSt) (k : SKey) : SSt × Nat :=
  match s.tbl k with
  | some r => (s, r)
  | none =>
    ({ s with
        tbl := fun k' => if k' = k then some s.next else s.tbl k'
        str := fun r => if r = s.next then { key := k } else s.str r
        next := s.next + 1 }, s.next)

/-- stream.go:47-50 closeNotify: `target.Delete(requestID)`. -/
def SSt.notify (s : SSt) (r : Nat) : SSt :=
  { s with
    tbl := fun k' => if k' = (s.str r).key then none else s.tbl k'
    str := fun k => if k = r then { s.str k with removals := (s.str k).removals + 1 } else s.str k }

/-- One non-blocking step of the reader. -/
def rStep (s : SSt) : Option SSt :=
  match s.r with
  | .idle | .addSelect .. | .waitDone .. | .panicked => none
  | .bindTest r f =>
    if (s.str r).binded then some { s with r := .addLoad r f }
    else some { s.upd r (fun t => { t with binded := true }) with r := .cpPush r f.flags, log := s.log ++ [.bound r f] }
  | .addLoad r f => if (s.str r).closedPeer then some { s with r := .waitDone r f } else some { s with r := .addSelect r f }
  | .cpPush r fl =>
    let s' := if FrameFlag.isPush fl then s.upd r fun t => { t with closedSelf := true } else s
    if FrameFlag.isDone fl then some { s' with r := .cpStorePeer r } else some { s' with r := .idle }
  | .cpStorePeer r => some { s.upd r (fun t => { t with closedPeer := true }) with r := .cpCloseCh r }
  | .cpCloseCh r =>
    if (s.str r).chCloses = 0 then some { s.upd r (fun t => { t with chCloses := 1 }) with r := .cpLoadSelf r }
    else some { s with r := .panicked }
  | .cpLoadSelf r => if (s.str r).closedSelf then some { s with r := .ad r .cas } else some { s with r := .idle }
  | .ad r .cas =>
    if (s.str r).fullClosed then some { s with r := .idle }
    else some { s.upd r (fun t => { t with fullClosed := true }) with r := .ad r .cancel }
  | .ad r .cancel => some { s.upd r (fun t => { t with cancelled := true }) with r := .ad r .notify }
  | .ad r .notify => some { s.notify r with r := .ad r .done }
  | .ad r .done => some { s.upd r (fun t => { t with doneCloses := t.doneCloses + 1 }) with r := .idle }
  | .rstCas r =>
    if (s.str r).closedPeer then some { s with r := .rstCancel r }
    else
      -- ghost: will some thread still look at closedPeer for this stream?
      let pending := match s.w with
        | .rstLoad r' _ _ => r' == r
        | .loadPeer r' _ => r' == r
        | _ => false
      some { s.upd r (fun t => { t with
                closedPeer := true, lateReset := t.closedSelf && !pending, resetUnbound := !t.binded })
             with r := .rstCloseCh r }
  | .rstCloseCh r =>
    if (s.str r).chCloses = 0 then some { s.upd r (fun t => { t with chCloses := 1 }) with r := .rstCancel r }
    else some { s with r := .panicked }
  | .rstCancel r => some { s.upd r (fun t => { t with cancelled := true }) with r := .idle }

/-- One step of the writer inside `AddOutFrame`. -/
def wStep (s : SSt) : Option SSt :=
  match s.w with
  | .idle => none
  | .rstSwap r fl => some { s.upd r (fun t => { t with closedSelf := true }) with w := .rstLoad r fl (s.str r).closedSelf }
  | .rstLoad r fl old =>
    if (s.str r).closedPeer then some { s with w := .ad r .cas fl (!old) }
    else some { s with w := .idle, log := s.log ++ [.accepted r fl] }
  | .loadSelf r fl =>
    if (s.str r).closedSelf then some { s with w := .idle, log := s.log ++ [.rejected r fl] }
    else if FrameFlag.isDone fl then some { s with w := .storeSelf r fl }
    else some { s with w := .idle, log := s.log ++ [.accepted r fl] }
  | .storeSelf r fl => some { s.upd r (fun t => { t with closedSelf := true }) with w := .loadPeer r fl }
  | .loadPeer r fl =>
    if (s.str r).closedPeer then some { s with w := .ad r .cas fl true }
    else some { s with w := .idle, log := s.log ++ [.accepted r fl] }
  | .ad r .cas fl res =>
    if (s.str r).fullClosed then
      some { s with w := .idle, log := s.log ++ [if res then .accepted r fl else .rejected r fl] }
    else some { s.upd r (fun t => { t with fullClosed := true }) with w := .ad r .cancel fl res }
  | .ad r .cancel fl res => some { s.upd r (fun t => { t with cancelled := true }) with w := .ad r .notify fl res }
  | .ad r .notify fl res => some { s.notify r with w := .ad r .done fl res }
  | .ad r .done fl res =>
    some { s.upd r (fun t => { t with doneCloses := t.doneCloses + 1 }) with
            w := .idle, log := s.log ++ [if res then .accepted r fl else .rejected r fl] }

inductive SAct where
  | recv (f : Frame)                                   -- readFrame returned f; table lookup
  | rstep
  | consume                                            -- the user receives from FrameCh
  | rctx                                               -- AddInFrame's select takes <-ctx.Done()
  | rdone                                              -- <-s.Done() returns
  | wstart (id : UInt64) (fl : FrameFlag) (create : Bool)  -- lookup for a frame to be written
  | wstep
  | cancelConn
  | release
deriving Repr, DecidableEq

/-- stream.go:227-230 on one stream, uninterrupted (both threads are finished). -/
def releaseStream (t : Stream) : Stream :=
  { t with
    closedPeer := true
    chCloses := if t.closedPeer then t.chCloses else t.chCloses + 1
    cancelled := true
    fullClosed := true
    removals := if t.fullClosed then t.removals else t.removals + 1
    doneCloses := if t.fullClosed then t.doneCloses else t.doneCloses + 1 }

def sStep (s : SSt) : SAct → Option SSt
  | .recv f =>
    if s.r = .idle ∧ s.released = false then
      let s := { s with recv := s.recv ++ [f] }
      -- framereader.go:53-61
      if FrameFlag.isRst f.flags then
        match s.tbl f.key with
        | none => some { s with log := s.log ++ [.rst none f] }
        | some r => some { s with r := .rstCas r, log := s.log ++ [.rst (some r) f] }
      else
        let (s, r) := s.createOrGet f.key
        some { s with r := .bindTest r f }
    else none
  | .rstep => rStep s
  | .consume =>
    match s.r with
    | .addSelect r f =>
      if (s.str r).chCloses = 0 then some { s with r := .cpPush r f.flags, log := s.log ++ [.delivered r f] }
      else some { s with r := .panicked }
    | _ => none
  | .rctx =>
    match s.r with
    | .addSelect r f => if (s.str r).cancelled ∨ s.connCancelled then some { s with r := .waitDone r f } else none
    | _ => none
  | .rdone =>
    match s.r with
    | .waitDone r f => if (s.str r).doneCloses = 0 then none else some { s with r := .idle, log := s.log ++ [.dropped r f] }
    | _ => none
  | .wstart id fl create =>
    if s.w = .idle ∧ s.released = false then
      let key : SKey := (id, FrameFlag.isPush fl)
      if FrameFlag.isRst fl then
        match s.tbl key with
        | none => some { s with log := s.log ++ [.noStream fl] }
        | some r => some { s with w := .rstSwap r fl, log := s.log ++ [.wbegin r fl] }
      else if FrameFlag.isPush fl then none   -- push frames skip the stream logic (clientconn.go:625, serveconn.go:648)
      else if create then
        let (s, r) := s.createOrGet key
        some { s with w := .loadSelf r fl, log := s.log ++ [.wbegin r fl] }
      else
        match s.tbl key with
        | none => some { s with log := s.log ++ [.noStream fl] }
        | some r => some { s with w := .loadSelf r fl, log := s.log ++ [.wbegin r fl] }
    else none
  | .wstep => wStep s
  | .cancelConn => some { s with connCancelled := true }
  | .release =>
    if s.r = .idle ∧ s.w = .idle ∧ s.released = false then
      some { s with
        released := true
        str := fun r => if s.tbl (s.str r).key = some r then releaseStream (s.str r) else s.str r
        tbl := fun _ => none }
    else none

/-- A run of the system. -/
abbrev sRun : SSt → List SAct → Option SSt := runActs sStep

end Qrpc
