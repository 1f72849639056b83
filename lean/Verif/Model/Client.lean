import Verif.Model.ServeWrite
/-!
# clientconn.go: the client connection

A transition system of everything a `*Connection` does: callers of `Request`/`StreamRequest`/`EndWrite`, the `loop`
goroutine with (re)connecting, the reader and writer goroutines of the current transport connection, the table of
outstanding responses, and `Close`. Every channel operation, atomic operation and critical section of `conn.mu` is one step;
all goroutines interleave arbitrarily.

* Write requests are numbered in the order in which they enter `writeFrameCh` ("tickets", as in `Model/ServeWrite.lean`).
  The response object of a first frame is identified with the frame's ticket.
* `gen` numbers the transport connections; 0 = none so far (`loopCtx` nil).
* The environment chooses: what the streams answer (`GetStream`, `AddOutFrame`), what arrives, when transport operations fail,
  whether dials succeed, what callers and handlers do.

Simplified: `writeFrameCh` with `WriteFrameChSize = 0` (a rendezvous) is treated like capacity 1, which only adds behaviours;
the `sync.Pool` of requests; the inner contents of frames. `closeRWC` by a handler is enabled for every handled request,
although on the first transport connection it panics instead (`Props/CtxVal.lean`); this only adds behaviours.
-/
namespace Qrpc

structure CFrame where
  rid : UInt64
  bytes : Bytes
  resp : Bool          -- dfw.resp != nil
  rst : Bool
  push : Bool
  checkExist : Bool
deriving Repr, DecidableEq

/-- What the write path looks at, in the vocabulary of `serveDecide`. -/
def CFrame.toS (f : CFrame) : SFrame := ⟨f.bytes, f.resp, f.rst, f.push, f.checkExist⟩

/-- clientconn.go:611-645, first frame of a batch. -/
def clientDecideFirst (f : CFrame) (ex add : Bool) : Option SRes := serveDecide f.toS ex add

/-- clientconn.go:664-687, every further frame of a batch: `checkExist` is not looked at. -/
def clientDecideMore (f : CFrame) (ex add : Bool) : Option SRes := serveDecide { f.toS with checkExist := false } ex add

/-- A frame returned by `ReadFrame`. -/
structure InFrame where
  rid : UInt64
  push : Bool
  rst : Bool
  nonblock : Bool
deriving Repr, DecidableEq

inductive CRes where
  | ok | skip | rstNonExisting | streamNotExists | writeAfterClose | connClosed | noNewUUID | transport | ctx
deriving Repr, DecidableEq

def SRes.toC : SRes → CRes
  | .ok => .ok
  | .skip => .skip
  | .fail .rstNonExisting => .rstNonExisting
  | .fail .streamNotExists => .streamNotExists
  | .fail .writeAfterClose => .writeAfterClose
  | .fail .connClosed => .connClosed
  | .fail .transport => .transport
  | .fail .ctx => .ctx

/-- What happens to a response object. -/
inductive REv where
  | frame (f : InFrame)   -- SetResponse
  | closed                -- Close
deriving Repr, DecidableEq

/-- A caller. -/
inductive CPc where
  | idle
  | check (push : Bool) (b : Bytes)        -- clientconn.go:353
  | genId (push : Bool) (b : Bytes)        -- 358
  | load (f : CFrame)                      -- 389
  | enq (f : CFrame) (g : Nat)             -- 393-397
  | wait (t g : Nat)                       -- 400-416
deriving DecidableEq

/-- The writer goroutine. -/
inductive CWr where
  | off
  | first                 -- 608-653
  | more (n : Nat)        -- 655-698
  | register              -- 722-743
  | write                 -- 746
  | dist (stop : Bool)    -- 711, 726, 754-769
  | exit                  -- 576 (deferred cancel)
deriving DecidableEq

/-- The reader goroutine. -/
inductive CRd where
  | off
  | check                                  -- 482
  | opening                                -- 485
  | read                                   -- 489
  | lookup (f : InFrame)                   -- 504-537
  | deliver (t : Nat) (f : InFrame)        -- 539-543
  | exit                                   -- 479 (deferred cancel)
deriving DecidableEq

/-- The `loop` goroutine. -/
inductive CLp where
  | connect                 -- 261
  | dialing (count : Nat)   -- 266-303
  | dialCheck (count : Nat) -- 298-302
  | spawn                   -- 220-227
  | onConnect               -- 229-231: the callback runs
  | waitDone                -- 233
  | closeRwc                -- 234
  | onDisconnect            -- 236-238: the callback runs
  | waitWG                  -- 240
  | endLoop                 -- 241, 446-451
  | selfClose               -- 244-247
  | ended
deriving DecidableEq

/-- A lifecycle callback is called. -/
inductive CbEv where
  | connect | disconnect
deriving Repr, DecidableEq

structure CConf where
  cap : Nat           -- WriteFrameChSize
  reconnect : Bool
  naddr : Nat         -- len(addrs)
  handler : Bool      -- conf.Handler != nil

/-- One attempt of `connect`: index of the address, success, and whether the loop slept afterwards (clientconn.go:294-296). -/
structure Dial where
  addr : Nat
  ok : Bool
  slept : Bool
deriving Repr, DecidableEq

structure CSt where
  closed : Bool                     -- conn.closed
  ctx : Bool                        -- conn.ctx cancelled
  closeOks : Nat                    -- ghost: calls of Close that returned nil
  gen : Nat
  lctx : Bool                       -- the current loopCancelCtx was called
  rwc : Bool                        -- conn.rwc != nil
  loop : CLp
  wr : CWr
  rd : CRd
  handlers : Nat                    -- running handler goroutines (loopWG)
  subs : List InFrame               -- ghost: frames given to the subscriber
  handled : List InFrame            -- ghost: frames given to the handler
  refused : List InFrame            -- ghost: frames because of which the reader ended the connection (515-522)
  idx : Nat                         -- conn.idx
  dials : List Dial                 -- ghost: all attempts
  cbs : List CbEv                   -- ghost: callbacks, in the order in which they were called
  ridGen : Nat
  frames : List CFrame
  deq : Nat
  slot : Nat → Option CRes
  batch : List Nat
  toSend : List (Nat × CRes)
  sends : List Nat                  -- ghost: tickets a result was sent to, in order
  respes : List (UInt64 × Nat)
  regd : List Nat                   -- ghost: tickets whose response object was entered into respes
  revs : Nat → List REv
  crash : Bool                      -- close of / send on a closed response channel
  nilDeref : Bool                   -- reader built on a nil net.Conn
  pc : Nat → CPc
  rets : List (Nat × CRes)          -- ghost: results of committed writes
  outs : Nat → List Nat             -- ghost: tickets given to the transport, per transport connection
  wires : Nat → Bytes               -- ghost: bytes taken by the transport, per transport connection

/-- A fresh connection; `dialed`: the first dial succeeded (always true for NewConnection, 99-116). -/
def CSt.init (dialed : Bool) : CSt :=
  { closed := false, ctx := false, closeOks := 0, gen := if dialed then 1 else 0, lctx := false, rwc := dialed,
    loop := .connect, wr := .off, rd := .off, handlers := 0, subs := [], handled := [], refused := [], idx := 0, dials := [], cbs := [], ridGen := 0, frames := [], deq := 0,
    slot := fun _ => none, batch := [], toSend := [], sends := [], respes := [], regd := [], revs := fun _ => [],
    crash := false, nilDeref := false, pc := fun _ => .idle, rets := [],
    outs := fun _ => [], wires := fun _ => [] }

def cframeOf (fs : List CFrame) (t : Nat) : CFrame := fs.getD t ⟨0, [], false, false, false, false⟩

/-- The current loop context is done. -/
def CSt.done (s : CSt) : Bool := s.lctx || s.ctx

/-- clientconn.go:346-349. -/
def clientRid (g : Nat) : UInt64 := UInt64.ofNat (2 * g + 1)

/-- clientconn.go:730-742: enter the response objects of a batch; the result also lists the tickets whose id was taken. -/
def registerAll (fs : List CFrame) : List (UInt64 × Nat) → List Nat → List (UInt64 × Nat) × List Nat
  | respes, [] => (respes, [])
  | respes, t :: ts =>
    if (cframeOf fs t).resp then
      if respes.any (fun p => p.1 == (cframeOf fs t).rid) then
        ((registerAll fs respes ts).1, t :: (registerAll fs respes ts).2)
      else registerAll fs (respes ++ [((cframeOf fs t).rid, t)]) ts
    else registerAll fs respes ts

inductive CAct where
  | request (i : Nat) (push : Bool) (b : Bytes)   -- Request / StreamRequest
  | send (i : Nat) (f : CFrame)                   -- EndWrite of a stream or response writer, ResetFrame
  | go (i : Nat)
  | enq (i : Nat) | enqDone (i : Nat)
  | recv (i : Nat) | waitDone (i : Nat)
  | wDeq (ex add : Bool) | wDone | wGo | wWrite (k : Nat) (ok : Bool)
  | rFrame (f : InFrame) | rErr | rGo
  | lGo | dialOk | dialFail
  | close | cancel
  | handlerDone
  | closeRWC                  -- RequestFrame.Close of a request from the server (frame.go:76-92), by a handler or later

def cStep (c : CConf) (s : CSt) : CAct → Option CSt
  -- callers
  | .request i push b => match s.pc i with
    | .idle => if b = [] then none else some { s with pc := setAt s.pc i (.check push b) }
    | _ => none
  | .send i f => match s.pc i with
    | .idle => if f.bytes = [] ∨ f.resp = true then none else some { s with pc := setAt s.pc i (.load f) }
    | _ => none
  | .go i => match s.pc i with
    | .check push b =>
      if s.closed then some { s with pc := setAt s.pc i .idle } else some { s with pc := setAt s.pc i (.genId push b) }
    | .genId push b =>
      some { s with ridGen := s.ridGen + 1
                    pc := setAt s.pc i (.load ⟨clientRid (s.ridGen + 1), b, !push, false, push, false⟩) }
    | .load f =>
      if s.gen = 0 then some { s with pc := setAt s.pc i .idle } else some { s with pc := setAt s.pc i (.enq f s.gen) }
    | _ => none
  | .enq i => match s.pc i with
    | .enq f g =>
      if s.frames.length - s.deq < max c.cap 1 then
        some { s with pc := setAt s.pc i (.wait s.frames.length g), frames := s.frames ++ [f] }
      else none
    | _ => none
  | .enqDone i => match s.pc i with
    | .enq _ g => if g < s.gen ∨ s.done = true then some { s with pc := setAt s.pc i .idle } else none
    | _ => none
  | .recv i => match s.pc i with
    | .wait t _ => match s.slot t with
      | some r => some { s with pc := setAt s.pc i .idle, slot := setAt s.slot t none, rets := s.rets ++ [(t, r)] }
      | none => none
    | _ => none
  | .waitDone i => match s.pc i with
    | .wait _ g =>
      if c.reconnect = false ∧ (g < s.gen ∨ s.done = true) then some { s with pc := setAt s.pc i .idle } else none
    | _ => none
  -- writer goroutine
  | .wDeq ex add => match s.wr with
    | .first =>
      if s.deq < s.frames.length then
        match clientDecideFirst (cframeOf s.frames s.deq) ex add with
        | some r => some { s with deq := s.deq + 1, slot := setAt s.slot s.deq (some r.toC), sends := s.sends ++ [s.deq] }
        | none => some { s with deq := s.deq + 1, batch := [s.deq], wr := .more (c.cap - 1) }
      else none
    | .more (n + 1) =>
      if s.deq < s.frames.length then
        match clientDecideMore (cframeOf s.frames s.deq) ex add with
        | some r => some { s with deq := s.deq + 1, slot := setAt s.slot s.deq (some r.toC), sends := s.sends ++ [s.deq]
                                  wr := .more n }
        | none => some { s with deq := s.deq + 1, batch := s.batch ++ [s.deq], wr := .more n }
      else none
    | _ => none
  | .wDone => match s.wr with
    | .first => if s.done then some { s with wr := .exit } else none
    | .more (_ + 1) =>
      if s.done then
        if c.reconnect then
          some { s with wr := .dist true, batch := [], toSend := s.batch.map fun t => (t, .connClosed) }
        else some { s with wr := .exit, batch := [] }
      else none
    | _ => none
  | .wGo => match s.wr with
    | .more 0 => some { s with wr := .register }
    | .more (_ + 1) => if s.deq = s.frames.length ∧ s.done = false then some { s with wr := .register } else none
    | .register =>
      if s.rwc then
        some { s with
          wr := .write
          respes := (registerAll s.frames s.respes s.batch).1
          regd := s.regd ++ s.batch.filter fun t =>
            (cframeOf s.frames t).resp && !(registerAll s.frames s.respes s.batch).2.contains t
          slot := fun t => if t ∈ (registerAll s.frames s.respes s.batch).2 then some .noNewUUID else s.slot t
          sends := s.sends ++ (registerAll s.frames s.respes s.batch).2
          batch := s.batch.filter fun t => !(registerAll s.frames s.respes s.batch).2.contains t }
      else some { s with wr := .dist true, batch := [], toSend := s.batch.map fun t => (t, .connClosed) }
    | .dist stop => match s.toSend with
      | [] => if stop then some { s with wr := .exit } else some { s with wr := .first }
      | (t, r) :: rest =>
        if s.slot t = none then
          some { s with toSend := rest, slot := setAt s.slot t (some r), sends := s.sends ++ [t] }
        else none
    | .exit => some { s with wr := .off, lctx := true }
    | _ => none
  | .wWrite k ok => match s.wr with
    | .write =>
      if k ≤ (s.batch.map fun t => (cframeOf s.frames t).bytes).flatten.length ∧
         (ok = true → k = (s.batch.map fun t => (cframeOf s.frames t).bytes).flatten.length) then
        some { s with
          wr := .dist (!ok)
          batch := []
          outs := setAt s.outs s.gen (s.outs s.gen ++ s.batch)
          wires := setAt s.wires s.gen
            (s.wires s.gen ++ (s.batch.map fun t => (cframeOf s.frames t).bytes).flatten.take k)
          toSend := s.batch.zip
            ((batchResults ok (consume k (s.batch.map fun t => (cframeOf s.frames t).bytes))).map SRes.toC) }
      else none
    | _ => none
  -- reader goroutine
  | .rGo => match s.rd with
    | .check => if s.rwc then some { s with rd := .opening } else some { s with rd := .exit }
    | .opening => if s.rwc then some { s with rd := .read } else some { s with rd := .exit, nilDeref := true }
    | .lookup f =>
      match s.respes.find? (fun p => p.1 == f.rid) with
      | some p => some { s with respes := s.respes.filter (fun q => q.1 != f.rid), rd := .deliver p.2 f }
      | none =>
        if s.rwc = false then some { s with rd := .exit }
        else if c.handler then
          if f.rid % 2 = 0 ∧ f.nonblock = true then some { s with rd := .read, handlers := s.handlers + 1, handled := s.handled ++ [f] }
          else some { s with rd := .exit, refused := s.refused ++ [f] }
        else some { s with rd := .read }
    | .deliver t f =>
      some { s with rd := .read, crash := s.crash || !(s.revs t).isEmpty
                    revs := setAt s.revs t (s.revs t ++ [if f.rst then .closed else .frame f]) }
    | .exit => some { s with rd := .off, lctx := true }
    | _ => none
  | .rFrame f => match s.rd with
    | .read => if f.push then some { s with subs := s.subs ++ [f] } else some { s with rd := .lookup f }
    | _ => none
  | .rErr => match s.rd with
    | .read => some { s with rd := .exit }
    | _ => none
  -- loop goroutine
  | .lGo => match s.loop with
    | .connect => if s.rwc then some { s with loop := .spawn } else some { s with loop := .dialing 0 }
    | .dialCheck count => if s.ctx then some { s with loop := .ended } else some { s with loop := .dialing count }
    | .spawn => some { s with loop := .onConnect, rd := .check, wr := .first, cbs := s.cbs ++ [.connect] }
    | .onConnect => some { s with loop := .waitDone }
    | .waitDone => if s.done then some { s with loop := .closeRwc } else none
    | .closeRwc =>
      if s.rwc then
        some { s with
          loop := .onDisconnect, rwc := false, cbs := s.cbs ++ [.disconnect]
          crash := s.crash || s.respes.any (fun p => !(s.revs p.2).isEmpty)
          revs := fun t => if t ∈ s.respes.map Prod.snd then s.revs t ++ [.closed] else s.revs t
          respes := [] }
      else some { s with loop := .onDisconnect, cbs := s.cbs ++ [.disconnect] }
    | .onDisconnect => some { s with loop := .waitWG }
    | .waitWG => if s.rd = .off ∧ s.wr = .off ∧ s.handlers = 0 then some { s with loop := .endLoop } else none
    | .endLoop => if c.reconnect then some { s with loop := .connect } else some { s with loop := .selfClose }
    | .selfClose =>
      if s.closed then some { s with loop := .ended }
      else some { s with closed := true, ctx := true, closeOks := s.closeOks + 1, loop := .ended }
    | _ => none
  | .dialOk => match s.loop with
    | .dialing _ =>
      some { s with idx := s.idx + 1, dials := s.dials ++ [⟨s.idx % c.naddr, true, false⟩], rwc := true, gen := s.gen + 1
                    lctx := false, loop := .spawn }
    | _ => none
  | .dialFail => match s.loop with
    | .dialing count =>
      some { s with idx := s.idx + 1, dials := s.dials ++ [⟨s.idx % c.naddr, false, decide (count + 1 ≥ c.naddr)⟩], loop := .dialCheck (count + 1) }
    | _ => none
  -- Close
  | .close => if s.closed then some s else some { s with closed := true, closeOks := s.closeOks + 1 }
  | .cancel => if s.closed then some { s with ctx := true } else none
  | .handlerDone => if s.handlers > 0 then some { s with handlers := s.handlers - 1 } else none
  | .closeRWC =>
    if s.rwc = true ∧ s.handled ≠ [] then
      some { s with
        rwc := false
        crash := s.crash || s.respes.any (fun p => !(s.revs p.2).isEmpty)
        revs := fun t => if t ∈ s.respes.map Prod.snd then s.revs t ++ [.closed] else s.revs t
        respes := [] }
    else none

/-- A client connection from its creation. -/
def cRun (c : CConf) (dialed : Bool) (acts : List CAct) : Option CSt := runActs (cStep c) (CSt.init dialed) acts

end Qrpc
