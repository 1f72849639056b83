import Verif.Model.Bytes
/-!
# Panics: which goroutines recover (serveconn.go:145-225, 250-278, 322-442; server.go:281-339; clientconn.go:213-249, 477-568)

A panic unwinds the stack of its goroutine; deferred functions run, and one that calls `recover` ends the unwinding. If it reaches
the start of a goroutine the whole process ends (Go specification; `util.GoFunc` of zhiqiangxu/util only does `defer wg.Done()`).

`Gp` is the skeleton of a goroutine: calls that may panic, in order, with the deferred functions around them; everything else of the
code is left out. The inputs say which calls panic: user code (handlers with their middleware, subscribers, callbacks, codecs,
metrics), and the reader itself (C13).
-/
namespace Qrpc

inductive Gp where
  | nop
  | call (panics : Bool)            -- a call of code that may panic
  | seq (a b : Gp)
  | guard (body after : Gp)         -- func() { defer func() { recover(); after }(); body }()
  | ensure (body after : Gp)        -- func() { defer func() { after }(); body }()
  | go (g : Gp)                     -- go func() { g }()
deriving Repr

/-- Does a panic leave this piece of code? -/
def Gp.escapes : Gp → Bool
  | .nop => false
  | .call p => p
  | .seq a b => a.escapes || b.escapes
  | .guard _ after => after.escapes
  | .ensure body after => body.escapes || after.escapes
  | .go _ => false

/-- Does a goroutine started by this piece of code (or by one of those) die of a panic? What follows a panic is not executed, but
deferred functions are. -/
def Gp.kills : Gp → Bool
  | .nop | .call _ => false
  | .seq a b => a.kills || (!a.escapes && b.kills)
  | .guard body after | .ensure body after => body.kills || after.kills
  | .go g => g.escapes || g.kills

/-- The process ends: a goroutine with this code dies, or one it started. -/
def Gp.crashes (g : Gp) : Bool := g.escapes || g.kills

def Gp.all : List Gp → Gp
  | [] => .nop
  | g :: gs => .seq g (.all gs)

/-- How a received frame is dealt with; each field says whether the call panics. -/
inductive FrIn where
  | push (sub : Bool)                              -- SubFunc, serveconn.go:388, clientconn.go:497
  | answer                                         -- to a waiting caller
  | blocking (handler metric : Bool)               -- serveconn.go:200-206
  | nonBlocking (handler metric : Bool)            -- 213-219; client: 523-528 (no metric)
deriving Repr

structure ConnIn where
  frames : List (Bool × Bool × FrIn)   -- codec.Decode panics; ReadFrame itself panics (C13); the frame
  endMetric : Bool                     -- the counter in the deferred function of readFrames, 346-349
  notify : List Bool                   -- callbacks of NotifyWhenClose
  onClose : Bool                       -- LifecycleCallbacks.OnClose
deriving Repr

/-- serveconn.go:322-442, the reader's goroutine; callbacks of `sc.Close()` (378) run here if it is the reader that closes. -/
def srvReader (c : ConnIn) (closesHere : Bool) : Gp :=
  .ensure
    (.seq (.all (c.frames.map fun (dec, rd, f) => .seq (.call dec) (.seq (.call rd) (match f with
        | .push sub => .call sub
        | _ => .nop))))
      (if closesHere then .all (c.notify.map .call) else .nop))
    (.call c.endMetric)

/-- serveconn.go:200-222: one frame taken from readFrameCh. -/
def srvDispatch : FrIn → Gp
  | .blocking h m => .guard (.call h) (.call m)
  | .nonBlocking h m => .go (.guard (.call h) (.call m))
  | _ => .nop

/-- serveconn.go:145-225: the connection's goroutine, with the reader it starts. -/
def srvConn (c : ConnIn) (closesHere : Bool) : Gp :=
  .guard
    (.seq (.go (srvReader c closesHere)) (.all (c.frames.map fun (_, _, f) => srvDispatch f)))
    -- 159-163: sc.Close(), OnClose
    (.seq (if closesHere then .nop else .all (c.notify.map .call)) (.call c.onClose))

/-- A connection, or one refused by OnAccept. -/
inductive AcceptIn where
  | refused (onAccept onClose : Bool)         -- server.go:322-332
  | served (onAccept : Bool) (c : ConnIn) (closesHere : Bool)

/-- server.go:281-339: `Serve`; the goroutine calling it is `run.Group`'s or the user's. -/
def srvServe (ins : List AcceptIn) : Gp :=
  .all (ins.map fun a => match a with
    | .refused oa oc => .seq (.call oa) (.call oc)
    | .served oa c here => .seq (.call oa) (.go (srvConn c here)))

/-- clientconn.go:494-545: what the client's reader does with a frame; handlers 523-528, 548-568. -/
def cliDispatch : FrIn → Gp
  | .push sub => .call sub
  | .nonBlocking h _ => .go (.guard (.call h) .nop)
  | _ => .nop

/-- clientconn.go:477-546: the client's reader. -/
def cliReader (frames : List (Bool × Bool × FrIn)) : Gp :=
  .ensure (.all (frames.map fun (dec, rd, f) => .seq (.call dec) (.seq (.call rd) (cliDispatch f)))) .nop

/-- clientconn.go:213-249: `loop`, one round per transport connection. -/
def cliLoop (rounds : List (Bool × Bool × List (Bool × Bool × FrIn))) : Gp :=
  .all (rounds.map fun (onConnect, onDisconnect, frames) =>
    .seq (.go (cliReader frames)) (.seq (.call onConnect) (.call onDisconnect)))

end Qrpc
