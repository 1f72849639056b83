import Verif.Model.Run
import Verif.Model.WriteBuf
/-!
# serveconn.go:444-695: the server's write path (group commit)

Any number of goroutines call `writeFrameBytes`. A call puts its request into the FIFO channel `writeFrameCh` and then
either receives its result or takes `wlockCh`; the holder of `wlockCh` collects up to `batch` queued requests, writes them
with one vectored write and distributes the results.

* A *ticket* numbers the requests in the order in which they enter `writeFrameCh`. The channel is FIFO, so its contents are
  the tickets `deq, …, frames.length - 1`; its capacity is `WriteFrameChSize` (server.go:429), which is also the batch size
  (serveconn.go:513) and at least 1 (server.go:161-163).
* `slot t` is the channel `result` (capacity 1) of ticket `t`.
* Every channel operation, atomic operation and critical section is one step. Steps of different goroutines interleave
  arbitrarily; a `select` may take any ready case.
* The answers of the stream table (`GetStream`, `AddOutFrame`; see `Model/Stream.lean`) and of the transport are choices of
  the environment. The transport satisfies `C57_vectored`: `k` bytes of the concatenated buffers were taken, all if no error.

Simplified: metrics; the `ErrNoNewUUID` branch (serveconn.go:572-577), reachable only if two outstanding requests have the
same id, i.e. after `ridGen` wrapped (C20); the `sync.Pool` of requests.
-/
namespace Qrpc

/-- What the write path looks at in a finished frame writer. -/
structure SFrame where
  bytes : Bytes        -- dfw.GetWbuf()
  resp : Bool          -- dfw.resp != nil
  rst : Bool
  push : Bool
  checkExist : Bool
deriving Repr, DecidableEq

inductive SErr where
  | rstNonExisting | streamNotExists | writeAfterClose | connClosed | transport | ctx
deriving Repr, DecidableEq

/-- What a caller is told: nil because the frame was written, nil because it need not be sent (serveconn.go:644-647), or an
error. The two nils are distinguished only here. -/
inductive SRes where
  | ok | skip | fail (e : SErr)
deriving Repr, DecidableEq

/-- serveconn.go:633-667, the stream part of `collectWriteFrames`: `none` = the frame joins the batch. `ex`: the stream
exists; `add`: what `AddOutFrame` returns. -/
def serveDecide (f : SFrame) (ex add : Bool) : Option SRes :=
  if f.rst then
    if !ex then some (.fail .rstNonExisting)
    else if !add then some .skip
    else none
  else if f.push then none
  else if f.checkExist && !ex then some (.fail .streamNotExists)
  else if !add then some (.fail .writeAfterClose)
  else none

/-- serveconn.go:591-619 / clientconn.go:748-771: one result per request from what is left in the backing array of buffers. -/
def batchResults (ok : Bool) (left : List Bytes) : List SRes :=
  left.map fun b => if ok then .ok else if b.length != 0 then .fail .transport else .ok

/-- Where a goroutine is in `writeFrameBytes`. -/
inductive TPc where
  | idle
  | enq (f : SFrame)          -- 460-464
  | wait (t : Nat)            -- 466
  | locked (t : Nat)          -- 470
  | unlockTake (t : Nat)      -- 472
  | take (t : Nat)            -- 473
  | infl (t : Nat)            -- 480, 683
  | inflUndo                  -- 684
  | stuck                     -- 482-485
  | collect (t n : Nat)       -- 630; n iterations left
  | register (t : Nat)        -- 550-582
  | write (t : Nat)           -- 587
  | dist (t : Nat) (rel : Bool)     -- 602-617; rel = releaseWlock
  | own (t : Nat) (rel : Bool)      -- 527
  | free (rel : Bool) (t : Nat) (r : SRes)      -- 492, 692
  | release (rel : Bool) (t : Nat) (r : SRes)   -- 693
  | unlock (rel : Bool) (t : Nat) (r : SRes)    -- 505-507
deriving DecidableEq

inductive LockSt where
  | free | held (i : Nat)
  | dead      -- kept by a call that returned without releasing it
deriving DecidableEq

/-- serveconn.go:322-442, the part of the reader goroutine that matters here: it works, or it runs its deferred
`tryFreeStreams`. -/
inductive RdPc where
  | running | quitting | releasing | gone
deriving DecidableEq

structure GSt where
  frames : List SFrame        -- all requests that entered writeFrameCh, by ticket
  deq : Nat                   -- how many left it
  lock : LockSt               -- wlockCh
  pc : Nat → TPc
  batch : List Nat            -- cachedRequests without result yet
  toSend : List (Nat × SRes)  -- results being distributed
  slot : Nat → Option SRes
  ctx : Bool                  -- sc.ctx cancelled
  connClosed : Bool           -- ci.closed
  closing : Bool              -- some goroutine has started closing the connection, or Serve has returned
  inflight : Int
  reader : RdPc
  releases : Nat              -- started executions of cs.Release()
  wire : Bytes                -- bytes taken by the transport
  sent : List Nat             -- ghost: tickets of all batches handed to the transport
  broken : Bool               -- ghost: a batch write failed
  rets : List (Nat × SRes)    -- ghost: results received by callers

def GSt.init : GSt :=
  { frames := [], deq := 0, lock := .free, pc := fun _ => .idle, batch := [], toSend := [], slot := fun _ => none,
    ctx := false, connClosed := false, closing := false, inflight := 1, reader := .running, releases := 0, wire := [],
    sent := [], broken := false, rets := [] }

def setAt {α : Type} (f : Nat → α) (i : Nat) (x : α) : Nat → α := fun j => if j = i then x else f j

def frameOf (fs : List SFrame) (t : Nat) : SFrame := fs.getD t ⟨[], false, false, false, false⟩

def GSt.frame (s : GSt) (t : Nat) : SFrame := frameOf s.frames t

/-- The buffers of the batch (`cachedBuffs`). -/
def GSt.bufs (s : GSt) : List Bytes := s.batch.map fun t => (s.frame t).bytes

inductive GAct where
  | call (i : Nat) (f : SFrame)             -- a goroutine calls writeFrameBytes
  | enq (i : Nat) | enqCtx (i : Nat)        -- first select
  | lock (i : Nat) | recv (i : Nat) | waitCtx (i : Nat)   -- second select
  | go (i : Nat)                            -- the next step, when there is only one
  | deq (i : Nat) (ex add : Bool) | collCtx (i : Nat)      -- select in collectWriteFrames (go = default / loop end)
  | write (i : Nat) (k : Nat) (ok : Bool)   -- bytesWriter.writeBuffers
  | close | connClose | cancel              -- another goroutine: Close called, or Serve returned and cancelled its context
                                            -- (server.go:293, the parent of sc.ctx); ci.closed set; context cancelled (755-795)
  | readerQuit | readerGo

/-- The steps of goroutine `i` that need no choice. -/
def goStep (cap : Nat) (s : GSt) (i : Nat) : Option GSt :=
  match s.pc i with
  | .locked t => match s.slot t with
    | some _ => some { s with pc := setAt s.pc i (.unlockTake t) }
    | none => some { s with pc := setAt s.pc i (.infl t) }
  | .unlockTake t => some { s with pc := setAt s.pc i (.take t), lock := .free }
  | .take t => match s.slot t with
    | none => none
    | some r => some { s with pc := setAt s.pc i .idle, slot := setAt s.slot t none, rets := s.rets ++ [(t, r)] }
  | .infl t =>
    if s.inflight + 1 = 1 then some { s with pc := setAt s.pc i .inflUndo, inflight := s.inflight + 1 }
    else some { s with pc := setAt s.pc i (.collect t cap), inflight := s.inflight + 1, batch := [] }
  | .inflUndo => some { s with pc := setAt s.pc i .stuck, inflight := s.inflight - 1 }
  | .stuck => if s.ctx then some { s with pc := setAt s.pc i .idle, lock := .dead } else none
  | .collect t n =>
    if n = 0 then some { s with pc := setAt s.pc i (.register t) }
    else if s.deq = s.frames.length ∧ s.ctx = false then some { s with pc := setAt s.pc i (.register t) }
    else none
  | .register t =>
    if s.batch = [] then some { s with pc := setAt s.pc i (.dist t true) }
    else if s.batch.any (fun u => (s.frame u).resp) && s.connClosed then
      some { s with pc := setAt s.pc i (.dist t false), batch := [],
                    toSend := s.batch.map fun u => (u, .fail .connClosed) }
    else some { s with pc := setAt s.pc i (.write t) }
  | .dist t rel => match s.toSend with
    | [] => some { s with pc := setAt s.pc i (.own t rel) }
    | (u, r) :: rest =>
      if s.slot u = none then some { s with slot := setAt s.slot u (some r), toSend := rest } else none
  | .own t rel => match s.slot t with
    | none => none
    | some r => some { s with pc := setAt s.pc i (.free rel t r), slot := setAt s.slot t none }
  | .free rel t r =>
    if s.inflight - 1 = 0 then
      some { s with pc := setAt s.pc i (.release rel t r), inflight := s.inflight - 1, releases := s.releases + 1 }
    else some { s with pc := setAt s.pc i (.unlock rel t r), inflight := s.inflight - 1 }
  | .release rel t r => some { s with pc := setAt s.pc i (.unlock rel t r) }
  | .unlock rel t r =>
    some { s with pc := setAt s.pc i .idle, lock := if rel then .free else .dead, rets := s.rets ++ [(t, r)] }
  | _ => none

def gStep (cap : Nat) (s : GSt) : GAct → Option GSt
  | .call i f => match s.pc i with
    | .idle => if f.bytes = [] then none else some { s with pc := setAt s.pc i (.enq f) }
    | _ => none
  | .enq i => match s.pc i with
    | .enq f =>
      if s.frames.length - s.deq < cap then
        some { s with pc := setAt s.pc i (.wait s.frames.length), frames := s.frames ++ [f] }
      else none
    | _ => none
  | .enqCtx i => match s.pc i with
    | .enq _ => if s.ctx then some { s with pc := setAt s.pc i .idle } else none
    | _ => none
  | .lock i => match s.pc i with
    | .wait t => if s.lock = .free then some { s with pc := setAt s.pc i (.locked t), lock := .held i } else none
    | _ => none
  | .recv i => match s.pc i with
    | .wait t => match s.slot t with
      | none => none
      | some r => some { s with pc := setAt s.pc i .idle, slot := setAt s.slot t none, rets := s.rets ++ [(t, r)] }
    | _ => none
  | .waitCtx i => match s.pc i with
    | .wait _ => if s.ctx then some { s with pc := setAt s.pc i .idle } else none
    | _ => none
  | .go i => goStep cap s i
  | .deq i ex add => match s.pc i with
    | .collect t (n + 1) =>
      if s.deq < s.frames.length then
        match serveDecide (s.frame s.deq) ex add with
        | some r =>
          if s.slot s.deq = none then
            some { s with pc := setAt s.pc i (.collect t n), deq := s.deq + 1, slot := setAt s.slot s.deq (some r) }
          else none
        | none => some { s with pc := setAt s.pc i (.collect t n), deq := s.deq + 1, batch := s.batch ++ [s.deq] }
      else none
    | _ => none
  | .collCtx i => match s.pc i with
    | .collect t (_ + 1) =>
      if s.ctx then some { s with pc := setAt s.pc i (.free false t (.fail .ctx)) } else none
    | _ => none
  | .write i k ok => match s.pc i with
    | .write t =>
      if k ≤ s.bufs.flatten.length ∧ (ok = true → k = s.bufs.flatten.length) then
        some { s with
          pc := setAt s.pc i (.dist t ok)
          wire := s.wire ++ s.bufs.flatten.take k
          sent := s.sent ++ s.batch
          toSend := s.batch.zip (batchResults ok (consume k s.bufs))
          batch := []
          broken := s.broken || !ok
          closing := s.closing || !ok }   -- 595-597: Close, unless somebody else is closing already
      else none
    | _ => none
  | .close => some { s with closing := true }
  | .connClose => if s.closing then some { s with connClosed := true } else none
  | .cancel => if s.closing then some { s with ctx := true } else none
  | .readerQuit => match s.reader with
    | .running => some { s with reader := .quitting, closing := true }   -- leaves on a cancelled context or after sc.Close()
    | _ => none
  | .readerGo => match s.reader with
    | .quitting =>
      if s.inflight - 1 = 0 then
        some { s with reader := .releasing, inflight := s.inflight - 1, releases := s.releases + 1 }
      else some { s with reader := .gone, inflight := s.inflight - 1 }
    | .releasing => some { s with reader := .gone }
    | _ => none

/-- The server's write path, from the start of a connection; `cap` = WriteFrameChSize. -/
def gRun (cap : Nat) (acts : List GAct) : Option GSt := runActs (gStep cap) GSt.init acts

end Qrpc
