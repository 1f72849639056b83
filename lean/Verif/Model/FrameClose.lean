import Verif.Model.Client
/-!
# frame.go, clientconn.go: a request of the server that is closed by a client's handler

`RequestFrame.Close` (frame.go:76-92) of a request from the server finds the client's `Connection` in the context of the request's stream
and calls its `closeRWC` (clientconn.go:429-443). The model is that of `Model/Client.lean`, where the requests given to the handler are
numbered in the order in which they are given (readFrames, clientconn.go:523-528), with these additions:

* for each request the transport connection that it was read from;
* which handlers are still running; a handler (or a goroutine that it has given the request to, also after the handler has returned)
  calls `Close` of its request any number of times;
* `Close` of a request that came in on a transport connection made before `newConnection` (clientconn.go:202-208) panics, because the
  context of that one does not carry the connection (C69).
-/
namespace Qrpc

inductive FcAct where
  | base (a : CAct)
  | ret (k : Nat)      -- the handler of request k ends (523-528)
  | close (k : Nat)    -- Close of request k (frame.go:76-92)

structure FcSt where
  s : CSt
  of : List Nat                      -- ghost: the transport connection that the k-th request was read from
  live : List Nat                    -- the requests whose handlers are running
  hits : List (Nat × Nat × Bool)     -- ghost: request k closed this transport connection, while its handler was running or not
  panics : List Nat                  -- ghost: Close of request k panicked

def fcStep (c : CConf) (d : Bool) (x : FcSt) : FcAct → Option FcSt
  | .base .handlerDone | .base .closeRWC => none
  | .base a => match cStep c x.s a with
    | none => none
    | some s' =>
      if x.s.handled.length < s'.handled.length then
        some { x with s := s', of := x.of ++ [x.s.gen], live := x.of.length :: x.live }
      else some { x with s := s' }
  | .ret k =>
    if k ∈ x.live then
      match cStep c x.s .handlerDone with
      | none => none
      | some s' => some { x with s := s', live := x.live.erase k }
    else none
  | .close k => match x.of[k]? with
    | none => none
    | some g =>
      if d = true ∧ g = 1 then some { x with panics := x.panics ++ [k] }
      else if x.s.rwc = false then some x
      else match cStep c x.s .closeRWC with
        | none => none
        | some s' => some { x with s := s', hits := x.hits ++ [(k, x.s.gen, decide (k ∈ x.live))] }

def fcRun (c : CConf) (d : Bool) (acts : List FcAct) : Option FcSt :=
  runActs (fcStep c d) { s := CSt.init d, of := [], live := [], hits := [], panics := [] } acts

end Qrpc
