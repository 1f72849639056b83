import Verif.Model.Client
/-!
# clientconn.go: the contexts of a client's transport connections

For each transport connection the client makes a context, registered with the context of the connection (`context.WithCancel`:
clientconn.go:204 in `newConnection`, 284 in `connect`) until it is cancelled by the end of the reader or of the writer
(`defer conn.loopCancelCtx()`, 479, 576; the deferred function is the one of the transport connection that the goroutine was started for)
or the context of the connection is, by `Close` (462). A context made of a cancelled one is not registered. `Model/Client.lean` with the
list of the registered ones, by the number of their transport connection.
-/
namespace Qrpc

structure LcSt where
  s : CSt
  kids : List Nat

/-- What a step does to the list. -/
def lcKids (x : LcSt) : CAct → List Nat
  | .dialOk => if x.s.ctx then x.kids else x.kids ++ [x.s.gen + 1]
  | .wGo => if x.s.wr = .exit then x.kids.erase x.s.gen else x.kids
  | .rGo => if x.s.rd = .exit then x.kids.erase x.s.gen else x.kids
  | .cancel => []
  | .lGo => if x.s.loop = .selfClose ∧ x.s.closed = false then [] else x.kids
  | _ => x.kids

def lcStep (c : CConf) (x : LcSt) (a : CAct) : Option LcSt := match cStep c x.s a with
  | none => none
  | some s' => some ⟨s', lcKids x a⟩

def lcRun (c : CConf) (d : Bool) (acts : List CAct) : Option LcSt :=
  runActs (lcStep c) ⟨CSt.init d, if d then [1] else []⟩ acts

end Qrpc
