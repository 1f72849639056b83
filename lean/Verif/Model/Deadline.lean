import Verif.Model.WriteBuf
/-!
# reader.go:77-113, writer.go:34-136: deadlines

Times are integers (nanoseconds). The choice of deadlines is modelled exactly, including the 64-bit arithmetic of
`time.Duration(timeout) * time.Second`. The loops are those of Model/Reader.lean and Model/WriteBuf.lean with the clock readings
made explicit; what is read or written is left out here. `SetReadDeadline` and `SetWriteDeadline` never fail.
-/
namespace Qrpc

/-- `time.Second` -/
def second : Int := 1000000000

/-- `time.Duration(n) * time.Second` (int64 arithmetic). -/
def seconds (n : Int) : Int := Int.bmod (n * second) (2 ^ 64)

/-- writer.go:20 `CtxCheckMaxInterval` -/
def ctxCheckMaxInterval : Int := 3 * second

/-- framereader.go:80 `payloadReadMaxTimeoutSecond` -/
def payloadReadMaxTimeoutSecond : Int := 3

/-- reader.go:83-91: the read deadline, `none` = no deadline (the zero time). -/
def readDeadline (timeout maxTimeoutSecond now : Int) : Option Int :=
  let timeout := if maxTimeoutSecond > 0 ∧ timeout > maxTimeoutSecond then maxTimeoutSecond else timeout
  if timeout > 0 then some (now + seconds timeout) else none

/-- framereader.go:86: the deadline for the header. -/
def headerDeadline (timeout now : Int) : Option Int := readDeadline timeout 0 now

/-- framereader.go:110: the deadline for the payload. -/
def payloadDeadline (timeout now : Int) : Option Int := readDeadline timeout payloadReadMaxTimeoutSecond now

/-- One `conn.Read` inside io.ReadFull: when it was called and returned, and whether it failed. -/
structure TRead where
  start : Int
  ret : Int
  fail : Bool
  more : Bool      -- bytes are still missing afterwards

/-- reader.go:94-111 with io.ReadFull: when the call returns. -/
def readLoopT : List TRead → Option Int
  | [] => none
  | r :: rs => if r.fail || !r.more then some r.ret else readLoopT rs

/-- writer.go:43-46, 94-97: `endTime`, meaningful only if `timeout > 0`. -/
def writeEnd (timeout now : Int) : Int := now + seconds timeout

/-- writer.go:50-59, 104-113: the write deadline of one round; `t51` and `t59` are the two clock readings. -/
def writeDeadline (timeout endTime t51 t59 : Int) : Int :=
  let writeTimeout :=
    if timeout > 0 then
      (if endTime - t51 > ctxCheckMaxInterval then ctxCheckMaxInterval else endTime - t51)
    else ctxCheckMaxInterval
  t59 + writeTimeout

/-- One round of the write loops: the clock readings at 51, 59 and 65 (106, 113, 119), the time the write returned, its result,
and whether the context was found done. -/
structure TRound where
  t51 : Int
  t59 : Int
  ret : Int
  t65 : Int
  n : Nat
  err : Option WErr
  done : Bool

/-- writer.go:49-82, 103-135: the result and the time of return. -/
def writeLoopT (timeout endTime : Int) (size : Nat) : Nat → List TRound → Option (WRes × Int)
  | _, [] => none
  | offset, r :: rs =>
    let offset := offset + r.n
    match afterWrite (decide (timeout > 0)) size offset r.err (decide (r.t65 > endTime)) r.done with
    | some res => some (res, r.t65)
    | none => writeLoopT timeout endTime size offset rs

end Qrpc
