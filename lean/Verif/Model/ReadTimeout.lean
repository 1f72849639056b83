import Verif.Model.Deadline
import Verif.Model.Run
/-!
# reader.go:55-58, serveconn.go:111-118: changing the read timeout of a server connection

`sc.reader` is nil until `serve` makes it with `binding.DefaultReadTimeout` (serveconn.go:173). The goroutine of `readFrames` reads
header after header (framereader.go:86) and payload (110), each with the timeout found when the read begins.
`ConnectionInfo.ReaderConfig().SetReadTimeout(t)` may be called by a handler, i.e. after a frame has been read, by code that finds the
connection with `WalkConn`, or with `GetConnectionInfoByID`, i.e. after a handler has bound an ID. On a nil `sc.reader` it
panics. The write is not synchronised with the reads of `r.timeout`; an `int` is taken as written and read in one piece.
-/
namespace Qrpc

inductive TmPc where
  | out                       -- before a header
  | hdr (dl : Option Int)     -- waiting for the header, with this deadline
  | mid                       -- header read
  | pay (dl : Option Int)     -- waiting for the payload
deriving DecidableEq, Repr

inductive TmEv where
  | set (t : Int)                         -- made with, or changed to, this timeout
  | hdr (now : Int) (dl : Option Int)     -- the deadline given to the connection
  | pay (now : Int) (dl : Option Int)
deriving DecidableEq, Repr

structure TmSt where
  timeout : Option Int        -- r.timeout; none: sc.reader is nil
  pc : TmPc
  frames : Nat                -- frames read
  panicked : Bool
  log : List TmEv
deriving DecidableEq, Repr

def TmSt.init : TmSt := ⟨none, .out, 0, false, []⟩

inductive TmAct where
  | serve (d : Int)           -- serveconn.go:173, d = binding.DefaultReadTimeout
  | header (now : Int)        -- framereader.go:86
  | hdrEnd
  | payload (now : Int)       -- framereader.go:110
  | frame                     -- the frame is complete
  | handlerSet (t : Int)      -- a handler changes the timeout
  | walkSet (t : Int)         -- a function given to WalkConn does
deriving DecidableEq, Repr

/-- reader.go:56-58 through serveconn.go:117: on a nil `*defaultFrameReader` the promoted method dereferences nil. -/
def TmSt.setTimeout (s : TmSt) (t : Int) : TmSt :=
  match s.timeout with
  | none => { s with panicked := true }
  | some _ => { s with timeout := some t, log := s.log ++ [.set t] }

def tmStep (s : TmSt) : TmAct → Option TmSt
  | .serve d => if s.timeout = none then some { s with timeout := some d, log := s.log ++ [.set d] } else none
  | .header now => match s.pc, s.timeout with
    | .out, some t => let dl := headerDeadline t now
      some { s with pc := .hdr dl, log := s.log ++ [.hdr now dl] }
    | _, _ => none
  | .hdrEnd => match s.pc with
    | .hdr _ => some { s with pc := .mid }
    | _ => none
  | .payload now => match s.pc, s.timeout with
    | .mid, some t => let dl := payloadDeadline t now
      some { s with pc := .pay dl, log := s.log ++ [.pay now dl] }
    | _, _ => none
  | .frame => match s.pc with
    | .mid | .pay _ => some { s with pc := .out, frames := s.frames + 1 }
    | _ => none
  | .handlerSet t => if 0 < s.frames then some (s.setTimeout t) else none
  | .walkSet t => some (s.setTimeout t)

abbrev tmRun (acts : List TmAct) : Option TmSt := runActs tmStep TmSt.init acts

end Qrpc
