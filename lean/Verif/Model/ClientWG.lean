import Verif.Model.Client
/-!
# clientconn.go: callers inside the connection's own goroutines

In `Model/Client.lean` the callers of `Request`, `EndWrite`, ... are independent goroutines. User code is also run by the
connection itself, and may write on the connection:

* a handler runs in a goroutine counted in `loopWG` (clientconn.go:523-528); after it has returned the deferred
  `handleRequestPanic` writes a reset frame unless the stream was closed (547-568);
* the subscriber runs in the reader goroutine (498-500), also counted in `loopWG` (221-223);
* `OnConnect` and `OnDisconnect` run in the `loop` goroutine (229-231, 236-238).

Such a goroutine does not go on before the write it makes has returned. `hStep` is `cStep` with this restriction: `o.handler`,
`o.subscriber` and `o.callback` list the callers that are code of a handler (one caller per handler), of the subscriber and of the
callbacks.
-/
namespace Qrpc

structure Owned where
  handler : List Nat
  subscriber : List Nat
  callback : List Nat

/-- The callers of a list that are inside a call. -/
def CSt.busy (s : CSt) (l : List Nat) : Nat := l.countP fun i => s.pc i ≠ .idle

/-- The loop goroutine is inside a callback. -/
def CLp.inCallback : CLp → Bool
  | .onConnect | .onDisconnect => true
  | _ => false

def hStep (c : CConf) (o : Owned) (s : CSt) (a : CAct) : Option CSt :=
  match a with
  | .handlerDone => if s.busy o.handler < s.handlers then cStep c s a else none
  | .rFrame _ | .rErr | .rGo => if s.busy o.subscriber = 0 then cStep c s a else none
  | .lGo => if s.loop.inCallback = true ∧ s.busy o.callback ≠ 0 then none else cStep c s a
  | a => cStep c s a

def hRun (c : CConf) (o : Owned) (dialed : Bool) (acts : List CAct) : Option CSt :=
  runActs (hStep c o) (CSt.init dialed) acts

end Qrpc
