import Verif.Model.Stream
/-!
# stream.go: the contexts of streams

Every call of `CreateOrGetStream` (stream.go:38-59) makes a stream, and with it a context that is registered with the connection's context
(`context.WithCancel`, stream.go:90) until one of the two is cancelled. If the stream was in the table already, the new one is thrown away:
"otherwise ml happens" (stream.go:52-56). The model adds to the streams of a connection (Model/Stream.lean) the list of the contexts
registered with the connection's context. `CreateOrGetStream`, one step there, is three here: making the stream, `LoadOrStore`, and the `reset` of a
stream that was not stored. The two goroutines that call it (framereader.go:62; serveconn.go:658, clientconn.go:635, 679) may be at any of them.
-/
namespace Qrpc

/-- Where a goroutine is in `CreateOrGetStream`, with the context of the stream it made. -/
inductive CgPc where
  | out
  | made (c : Nat)       -- newStream returned (stream.go:47)
  | loaded (c : Nat)     -- LoadOrStore returned another stream (stream.go:51-52)
deriving Repr, DecidableEq

structure XcSt where
  s : SSt
  kids : List Nat        -- the contexts registered with the connection's context
  n : Nat                -- contexts made so far
  ctxOf : Nat → Nat      -- `Stream.ctx`
  rc : CgPc              -- the reader
  wc : CgPc              -- the writer

inductive XcAct where
  | newR | newW          -- stream.go:47, 89-94
  | act (a : SAct)       -- a step of the streams
  | dropR | dropW        -- stream.go:55
deriving Repr, DecidableEq

/-- Does the step begin with `LoadOrStore`? Then: for which stream. -/
def SAct.stores : SAct → Option SKey
  | .recv f => if FrameFlag.isRst f.flags then none else some f.key
  | .wstart id fl create => if !FrameFlag.isRst fl && create then some (id, FrameFlag.isPush fl) else none
  | _ => none

/-- Steps of the reader, of the writer. -/
def SAct.byReader : SAct → Bool
  | .recv _ | .rstep | .consume | .rctx | .rdone => true
  | _ => false

def SAct.byWriter : SAct → Bool
  | .wstart .. | .wstep => true
  | _ => false

/-- The streams whose `cancelFunc` the step calls: stream.go:204 and 212 by way of 219-223, and `Release` (228) for all of the table. -/
def SSt.cancels (s : SSt) : SAct → List Nat
  | .rstep => match s.r with
    | .ad r .cancel | .rstCancel r => [r]
    | _ => []
  | .wstep => match s.w with
    | .ad r .cancel _ _ => [r]
    | _ => []
  | .release => (List.range s.next).filter fun r => s.tbl (s.str r).key = some r
  | _ => []

/-- `context.WithCancel` of the connection's context: a context that has been cancelled keeps no children. -/
def XcSt.derive (x : XcSt) : XcSt :=
  { x with kids := if x.s.connCancelled then x.kids else x.n :: x.kids, n := x.n + 1 }

/-- `LoadOrStore` by a goroutine that has made a stream with context `c`. -/
def XcSt.store (x : XcSt) (k : SKey) (c : Nat) : XcSt × CgPc :=
  match x.s.tbl k with
  | some _ => (x, .loaded c)
  | none => ({ x with ctxOf := fun r => if r = x.s.next then c else x.ctxOf r }, .out)

/-- Before a step: the place of the goroutine in `CreateOrGetStream`, and the context of the stream, if it is stored. -/
def XcSt.before (x : XcSt) (a : SAct) : Option XcSt :=
  match a.stores with
  | some k =>
    if a.byReader then match x.rc with
      | .made c => let (y, p) := x.store k c; some { y with rc := p }
      | _ => none
    else match x.wc with
      | .made c => let (y, p) := x.store k c; some { y with wc := p }
      | _ => none
  | none =>
    if a.byReader && x.rc != .out || a.byWriter && x.wc != .out || a == .release && (x.rc != .out || x.wc != .out) then none
    else some x

def xcStep (x : XcSt) : XcAct → Option XcSt
  | .newR => if x.s.r = .idle ∧ x.s.released = false ∧ x.rc = .out then some { x.derive with rc := .made x.n } else none
  | .newW => if x.s.w = .idle ∧ x.s.released = false ∧ x.wc = .out then some { x.derive with wc := .made x.n } else none
  | .act a => match sStep x.s a with
    | some s' => (x.before a).map fun y =>
      { y with s := s', kids := if a = .cancelConn then [] else y.kids.filter fun c => !((x.s.cancels a).map x.ctxOf).contains c }
    | none => none
  | .dropR => match x.rc with
    | .loaded c => some { x with kids := x.kids.erase c, rc := .out }
    | _ => none
  | .dropW => match x.wc with
    | .loaded c => some { x with kids := x.kids.erase c, wc := .out }
    | _ => none

def XcSt.init : XcSt := ⟨.init, [], 0, fun _ => 0, .out, .out⟩

abbrev xcRun (acts : List XcAct) : Option XcSt := runActs xcStep XcSt.init acts

end Qrpc
