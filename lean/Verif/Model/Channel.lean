import Verif.Model.FirstFrame
import Verif.Model.FrameReader
import Verif.Model.Run
/-!
# channel/clienttransport.go, channel/servetransport.go: senders and receivers

`Marshal` / `Unmarshal` (encode.go; JSON or the message's own methods) are parameters. Writers are those of Model/FrameWriter.lean
and Model/FirstFrame.lean. What a receiver sees of its stream is the list of results its channel operations will give; how frames get
there is Model/Stream.lean.

`Send` takes only the read lock (72), so several may run at once: `chStep` at the end. Everything else is for calls that do not overlap.
-/
namespace Qrpc

/-! ## Senders -/

/-- clienttransport.go:16-24: `streamWriter` (nil = none) and `closed`. -/
structure ChSender where
  writer : Option DFW
  closed : Bool
deriving DecidableEq, Repr

/-- The flags of 80-83 and servetransport.go:54-57. -/
def chFlag (end_ : Bool) : FrameFlag := if end_ then StreamFlag ||| StreamEndFlag else StreamFlag

/-- clienttransport.go:72-94 after Marshal: the sender afterwards, the frame handed to the connection, and whether an error was
returned. `pooled`, `id` and `resp` are what StreamRequest gets from the pool and the connection. -/
def ChSender.send {ε} (codec : Option Codec) (write : DFW → Option ε) (pooled : DFW) (id : UInt64) (resp : Nat)
    (s : ChSender) (cmd : Cmd) (bytes : Bytes) (end_ : Bool) : ChSender × Option DFW × Bool :=
  if s.closed then (s, none, true)                                                    -- ErrSenderClosed
  else match s.writer with
    | none =>
      let r := streamRequest codec write pooled id resp cmd (chFlag end_) bytes       -- 85
      ({ s with writer := if r.err.isNone then some r.dfw else none }, r.submitted, r.err.isSome)
    | some d =>
      let d := (swStep codec write d (.startWrite cmd)).1                             -- 89
      let d := (swStep codec write d (.writeBytes bytes)).1                           -- 90
      let r := d.streamEndWrite codec write false                                     -- 91
      ({ s with writer := some r.dfw }, r.submitted, r.err.isSome)

/-- clienttransport.go:96-112. -/
def ChSender.stop {ε} (codec : Option Codec) (write : DFW → Option ε) (s : ChSender) : ChSender × Option DFW × Bool :=
  if s.closed then (s, none, true)                                                    -- ErrSenderCloseTwice
  else match s.writer with
    | none => ({ s with closed := true }, none, false)
    | some d =>
      let r := d.streamResetFrame codec write 0                                       -- 110
      ({ writer := some r.dfw, closed := true }, r.submitted, r.err.isSome)

/-- Successive Sends of (command, encoded message, end). -/
def ChSender.sends {ε} (codec : Option Codec) (write : DFW → Option ε) (pooled : DFW) (id : UInt64) (resp : Nat) :
    ChSender → List (Cmd × Bytes × Bool) → List (Option DFW × Bool)
  | _, [] => []
  | s, m :: ms =>
    let r := s.send codec write pooled id resp m.1 m.2.1 m.2.2
    r.2 :: sends codec write pooled id resp r.1 ms

/-- servetransport.go:54-62: the writer afterwards, the frame and the error. -/
def chServeSend {ε} (codec : Option Codec) (write : DFW → Option ε) (w : DFW) (id : UInt64) (cmd : Cmd) (bytes : Bytes) (end_ : Bool) :
    DFW.EndResult ε := ((w.startWrite id cmd (chFlag end_)).writeBytes bytes).endWrite codec write

def chServeSends {ε} (codec : Option Codec) (write : DFW → Option ε) (id : UInt64) : DFW → List (Cmd × Bytes × Bool) → List (Option DFW × Bool)
  | _, [] => []
  | w, m :: ms =>
    let r := chServeSend codec write w id m.1 m.2.1 m.2.2
    (r.submitted, r.err.isSome) :: chServeSends codec write id r.dfw ms

/-! ## Receivers -/

inductive ChErr where
  | noResp | finished | ctx | streamClosed | decode
deriving DecidableEq, Repr

/-- What one wait on the response or the stream's channel gives: a frame, the end (closed channel: nil), or the context's end. -/
inductive ChGet where
  | frame (f : Frame) | fin | cancelled

/-- What Receive did: the command stored, the message stored, the error. -/
structure ChRecv (M : Type) where
  cmd : Option Cmd
  msg : Option M
  err : Option ChErr
deriving DecidableEq, Repr

/-- servetransport.go:70-93: `askCmd` = the caller passed a non-nil `cmd`; `first` = the request frame if not received yet. -/
def serveReceive {M : Type} (dec : Bytes → Option M) (first : Option Frame) (get : ChGet) (askCmd : Bool) : ChRecv M :=
  let g : ChGet := match first with | some f => .frame f | none => get
  match g with
  | .cancelled => { cmd := none, msg := none, err := some .ctx }
  | .fin => { cmd := none, msg := none, err := some .finished }
  | .frame f =>
    if askCmd then
      match dec f.payload with
      | some m => { cmd := some f.cmd, msg := some m, err := none }
      | none => { cmd := some f.cmd, msg := none, err := some .decode }
    else { cmd := none, msg := none, err := none }

/-- Successive Receives. -/
def serveReceives {M : Type} (dec : Bytes → Option M) : Option Frame → List ChGet → List Bool → List (ChRecv M)
  | _, _, [] => []
  | some f, gs, a :: as => serveReceive dec (some f) .fin a :: serveReceives dec none gs as
  | none, [], a :: as => serveReceive dec none .fin a :: serveReceives dec none [] as
  | none, g :: gs, a :: as => serveReceive dec none g a :: serveReceives dec none gs as

/-- clienttransport.go:114-151: `hasResp` = a Send has succeeded; the first frame comes from the response (`fin`: ErrStreamClosed),
the others from the channel of its stream. Returns whether a first frame is there afterwards. -/
def clientReceive {M : Type} (dec : Bytes → Option M) (hasResp gotFirst : Bool) (get : ChGet) (askCmd : Bool) : Bool × ChRecv M :=
  if hasResp = false then (gotFirst, { cmd := none, msg := none, err := some .noResp })
  else
    match get with
    | .cancelled => (gotFirst, { cmd := none, msg := none, err := some .ctx })
    | .fin => (gotFirst, { cmd := none, msg := none, err := some (if gotFirst then .finished else .streamClosed) })
    | .frame f =>
      match dec f.payload with
      | some m => (true, { cmd := if askCmd then some f.cmd else none, msg := some m, err := none })
      | none => (true, { cmd := if askCmd then some f.cmd else none, msg := none, err := some .decode })

/-- Successive Receives on a stream whose waits give `gs`. -/
def clientReceives {M : Type} (dec : Bytes → Option M) : Bool → List ChGet → List Bool → List (ChRecv M)
  | _, _, [] => []
  | first, [], a :: as => (clientReceive dec true first .fin a).2 :: clientReceives dec first [] as
  | first, g :: gs, a :: as =>
    let r := clientReceive dec true first g a
    r.2 :: clientReceives dec r.1 gs as

/-! ## Overlapping Sends on one clientSender -/

/-- `seen`: the goroutine has read `s.streamWriter == nil` (84) and is inside StreamRequest. -/
inductive ChPc where
  | idle | seen | done
deriving DecidableEq, Repr

structure ChSt where
  writer : Option Nat              -- the stream's id
  pc : Nat → ChPc
  streams : List Nat               -- ids of the streams opened so far
  frames : List (Nat × Nat)        -- (goroutine, stream on which its message was sent)

inductive ChAct where
  | check (g : Nat)                -- 84; with a writer, 89-91
  | request (g id : Nat)           -- 85

def ChSt.init : ChSt := { writer := none, pc := fun _ => .idle, streams := [], frames := [] }

/-- clienttransport.go:84-93, one step per access to `s.streamWriter`; ids of streams are fresh (C20). -/
def chStep (s : ChSt) : ChAct → Option ChSt
  | .check g =>
    if s.pc g = .idle then
      match s.writer with
      | none => some { s with pc := fun i => if i = g then .seen else s.pc i }
      | some id => some { s with pc := fun i => if i = g then .done else s.pc i,
                                 frames := s.frames ++ [(g, id)] }
    else none
  | .request g id =>
    if s.pc g = .seen ∧ id ∉ s.streams then
      some { writer := some id,
             pc := fun i => if i = g then .done else s.pc i,
             streams := id :: s.streams,
             frames := s.frames ++ [(g, id)] }
    else none

end Qrpc
