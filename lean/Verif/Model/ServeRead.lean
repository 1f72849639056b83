import Verif.Model.ServeWrite
/-!
# serveconn.go: the read side of a server connection

Transition system of the goroutines of one server connection: the reader (`readFrames`, 322-442), the main goroutine (`serve`,
145-225), the goroutines of nonblocking handlers (213-219), with `handleRequestPanic` (250-278), the request channel, the gate,
the rate limit (358-376) and the limit on inflight streams (207-212).

* `arr` lists the frames `ReadFrame` returned and the rate limit let pass, with the clock second of their arrival; frames are
  identified by their position in it.
* The environment chooses: what is read, what handlers do and when they end (return or panic), what the lookup in the response
  table finds, when the connection is closed from elsewhere, throttling, and the clock.
* Handlers are arbitrary programs; what matters of them is whether and when they close the local side of their stream
  (`hFinal`, `mFinal`), and that they end.

Simplified: `Close` (the registration part is `Model/Registry.lean`) is one step that leaves the context cancelled; the
`int32` counter does not overflow; waiting for the throttle ends whenever the throttle is off or the context is done
(`Model/Throttle.lean` has the details).
-/
namespace Qrpc

/-- What `readFrames` looks at. -/
structure RFrame where
  rid : UInt64
  push : Bool
  nonblock : Bool
deriving Repr, DecidableEq

/-- frame.go `FromServer`. -/
def RFrame.fromServer (f : RFrame) : Bool := f.rid % 2 == 0

structure RConf where
  cap : Nat       -- ReadFrameChSize
  max : Int       -- MaxInboundInflightStreamPerConn
  rate : Nat      -- MaxInboundFramePerSecond (0: off; negative values are off too)
  sub : Bool      -- SubFunc != nil

/-- The reader. -/
inductive RRd where
  | read                -- 364
  | sub                 -- 387-389 SubFunc running
  | lookup (k : Nat)    -- 394-412
  | send (k : Nat)      -- 415-418, 426-429
  | nbCheck             -- 419-423
  | gate                -- 431-435
  | throttle            -- 439
  | close               -- 378
  | exit                -- 332-354 (deferred)
  | off
deriving DecidableEq

/-- The main goroutine. -/
inductive MPc where
  | select              -- 195-198
  | handling (k : Nat)  -- 203
  | cleanup (k : Nat)   -- 251-253
  | test (k : Nat)      -- 267-268
  | rst (k : Nat)       -- 270-272
  | readMore            -- 205
  | check (k : Nat)     -- 207-212
  | spawn (k : Nat)     -- 213
  | closing             -- 158
  | waitWG              -- 159
  | onClose             -- 160-162
  | ended
deriving DecidableEq

inductive HEv where
  | start (k : Nat)     -- a handler is started for frame k
  | finish (k : Nat)    -- it returned or panicked
  | push (k : Nat)      -- SubFunc called
  | resp (k : Nat)      -- given to a local caller as response
deriving DecidableEq

structure RSt where
  now : Nat
  last : Nat
  count : Nat
  arr : List (RFrame × Nat)
  rd : RRd
  ch : List Nat
  tok : Bool            -- the gate holds a token
  main : MPc
  running : List Nat    -- nonblocking handlers
  ending : List Nat     -- handler code over, not yet at the decrement
  cleaning : List Nat   -- decremented, before the test of IsSelfClosed
  resetting : List Nat  -- sending the reset frame
  inflight : Int
  ctx : Bool
  throttled : Bool
  closedSelf : Nat → Bool
  log : List HEv
  bdone : Nat           -- ghost: decrements made for blocking frames
  finished : List Nat   -- ghost: frames whose handleRequestPanic is over
  onClosed : Nat        -- ghost: calls of OnClose

def RSt.init (t0 : Nat) : RSt :=
  { now := t0, last := 0, count := 0, arr := [], rd := .read, ch := [], tok := false, main := .select, running := [],
    ending := [], cleaning := [], resetting := [], inflight := 0, ctx := false, throttled := false,
    closedSelf := fun _ => false, log := [], bdone := 0, finished := [], onClosed := 0 }

def frameAt (arr : List (RFrame × Nat)) (k : Nat) : RFrame := (arr.getD k (⟨0, false, false⟩, 0)).1

inductive RAct where
  | rFrame (f : RFrame) | rErr
  | rLookup (found : Bool)
  | rGo | rSend | rCtx | rGate
  | mRecv | mCtx | mGo
  | mFinal | mEnd | mRst (ok : Bool)
  | hFinal (k : Nat) | hEnd (k : Nat) | hDec (k : Nat) | hTest (k : Nat) | hRst (k : Nat) (ok : Bool)
  | extClose | tick (d : Nat) | setThrottle (b : Bool)

/-- serveconn.go:366-372. -/
def rateCount (now last count : Nat) : Nat := if now = last then count + 1 else 1

def rdStep (c : RConf) (s : RSt) : RAct → Option RSt
  -- reader
  | .rFrame f => match s.rd with
    | .read =>
      if 0 < c.rate ∧ c.rate < rateCount s.now s.last s.count then
        some { s with last := s.now, count := rateCount s.now s.last s.count, rd := .close }
      else if f.push then
        if c.sub then
          some { s with last := s.now, count := rateCount s.now s.last s.count, arr := s.arr ++ [(f, s.now)], rd := .sub
                        log := s.log ++ [.push s.arr.length] }
        else some { s with last := s.now, count := rateCount s.now s.last s.count, arr := s.arr ++ [(f, s.now)] }
      else if f.fromServer then
        some { s with last := s.now, count := rateCount s.now s.last s.count, arr := s.arr ++ [(f, s.now)]
                      rd := .lookup s.arr.length }
      else
        some { s with last := s.now, count := rateCount s.now s.last s.count, arr := s.arr ++ [(f, s.now)]
                      rd := .send s.arr.length }
    | _ => none
  | .rErr => match s.rd with
    | .read => some { s with rd := .close }
    | _ => none
  | .rLookup found => match s.rd with
    | .lookup k =>
      if found then some { s with rd := .read, log := s.log ++ [.resp k] } else some { s with rd := .send k }
    | _ => none
  | .rGo => match s.rd with
    | .sub => some { s with rd := .read }
    | .nbCheck => if s.ctx then some { s with rd := .exit } else some { s with rd := .throttle }
    | .throttle => if s.throttled = false ∨ s.ctx = true then some { s with rd := .read } else none
    | .close => some { s with ctx := true, rd := .exit }
    | .exit => some { s with rd := .off }
    | _ => none
  | .rSend => match s.rd with
    | .send k =>
      if c.cap = 0 then
        match s.main with
        | .select =>
          if (frameAt s.arr k).nonblock then some { s with rd := .nbCheck, main := .check k }
          else some { s with rd := .gate, main := .handling k, log := s.log ++ [.start k] }
        | _ => none
      else if s.ch.length < c.cap then
        if (frameAt s.arr k).nonblock then some { s with rd := .nbCheck, ch := s.ch ++ [k] }
        else some { s with rd := .gate, ch := s.ch ++ [k] }
      else none
    | _ => none
  | .rCtx => match s.rd with
    | .send _ => if s.ctx then some { s with rd := .exit } else none
    | .gate => if s.ctx then some { s with rd := .exit } else none
    | _ => none
  | .rGate => match s.rd with
    | .gate => if s.tok then some { s with tok := false, rd := .throttle } else none
    | _ => none
  -- main goroutine
  | .mRecv => match s.main with
    | .select => match s.ch with
      | k :: rest =>
        if (frameAt s.arr k).nonblock then some { s with ch := rest, main := .check k }
        else some { s with ch := rest, main := .handling k, log := s.log ++ [.start k] }
      | [] => none
    | _ => none
  | .mCtx => match s.main with
    | .select => if s.ctx then some { s with main := .closing } else none
    | _ => none
  | .mFinal => match s.main with
    | .handling k => some { s with closedSelf := setAt s.closedSelf k true }
    | _ => none
  | .mEnd => match s.main with
    | .handling k => some { s with main := .cleanup k, log := s.log ++ [.finish k] }
    | _ => none
  | .mRst ok => match s.main with
    | .rst k =>
      if ok then some { s with closedSelf := setAt s.closedSelf k true, main := .readMore, finished := s.finished ++ [k] }
      else some { s with ctx := true, main := .readMore, finished := s.finished ++ [k] }
    | _ => none
  | .mGo => match s.main with
    | .cleanup k =>
      if 0 < c.max then some { s with inflight := s.inflight - 1, bdone := s.bdone + 1, main := .test k }
      else some { s with main := .test k }
    | .test k =>
      if s.closedSelf k then some { s with main := .readMore, finished := s.finished ++ [k] } else some { s with main := .rst k }
    | .readMore => if s.tok then none else some { s with tok := true, main := .select }
    | .check k =>
      if 0 < c.max then
        if c.max < s.inflight + 1 then some { s with inflight := s.inflight + 1, main := .closing }
        else some { s with inflight := s.inflight + 1, main := .spawn k }
      else some { s with main := .spawn k }
    | .spawn k => some { s with running := s.running ++ [k], log := s.log ++ [.start k], main := .select }
    | .closing => some { s with ctx := true, main := .waitWG }
    | .waitWG =>
      if s.rd = .off ∧ s.running = [] ∧ s.ending = [] ∧ s.cleaning = [] ∧ s.resetting = [] then some { s with main := .onClose }
      else none
    | .onClose => some { s with main := .ended, onClosed := s.onClosed + 1 }
    | _ => none
  -- nonblocking handlers
  | .hFinal k => if k ∈ s.running then some { s with closedSelf := setAt s.closedSelf k true } else none
  | .hEnd k =>
    if k ∈ s.running then
      some { s with running := s.running.erase k, ending := s.ending ++ [k], log := s.log ++ [.finish k] }
    else none
  | .hDec k =>
    if k ∈ s.ending then
      if 0 < c.max then
        some { s with ending := s.ending.erase k, cleaning := s.cleaning ++ [k], inflight := s.inflight - 1 }
      else some { s with ending := s.ending.erase k, cleaning := s.cleaning ++ [k] }
    else none
  | .hTest k =>
    if k ∈ s.cleaning then
      if s.closedSelf k then some { s with cleaning := s.cleaning.erase k, finished := s.finished ++ [k] }
      else some { s with cleaning := s.cleaning.erase k, resetting := s.resetting ++ [k] }
    else none
  | .hRst k ok =>
    if k ∈ s.resetting then
      if ok then
        some { s with resetting := s.resetting.erase k, finished := s.finished ++ [k], closedSelf := setAt s.closedSelf k true }
      else some { s with resetting := s.resetting.erase k, finished := s.finished ++ [k], ctx := true }
    else none
  -- environment
  | .extClose => some { s with ctx := true }
  | .tick d => some { s with now := s.now + d }
  | .setThrottle b => some { s with throttled := b }

/-- A server connection accepted at clock second `t0`. -/
def rdRun (c : RConf) (t0 : Nat) (acts : List RAct) : Option RSt := runActs (rdStep c) (RSt.init t0) acts

end Qrpc
