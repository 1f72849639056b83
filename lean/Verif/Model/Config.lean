import Verif.Model.Api
import Verif.Model.Panic
/-!
# Numbers in configurations (server.go:155-176, 421-444; clientconn.go:99-116, 151-176, 187-211, 267; api.go:30-63, 239)

What the constructors do with the sizes of queues, with lists of addresses and with weights, and where the values are used. `make` and
`rand.Intn` panic for values out of range (Go specification, runtime/chan.go, runtime/slice.go); the limit on allocations is that of 64-bit
systems. Timeouts, frame sizes and rates are in Model/Deadline, Reader, ServeRead and CloseRate.
-/
namespace Qrpc

/-- runtime/malloc.go: 48 bits of address space. -/
def maxAlloc : Int := 2 ^ 48

/-- `make(chan T, n)` with elements of `elem` bytes does not panic; 96 is the size of the channel itself. -/
def chanOk (elem : Nat) (n : Int) : Bool := decide (0 ≤ n ∧ n * elem ≤ maxAlloc - 96)

/-- `make([]T, 0, n)` does not panic. -/
def sliceOk (elem : Nat) (n : Int) : Bool := decide (0 ≤ n ∧ n * elem ≤ maxAlloc)

/-! ## Server -/

/-- The queue sizes of a binding. -/
structure BindSizes where
  read : Int        -- ReadFrameChSize
  write : Int       -- WriteFrameChSize
deriving Repr, DecidableEq

/-- server.go:155-176 `NewServer`: it refuses nothing. -/
def newServerSizes (b : BindSizes) : BindSizes := { b with write := if b.write < 1 then 1 else b.write }

/-- server.go:421-432 `newConn`: one `make` for each of readFrameCh, writeFrameCh, cachedRequests, cachedBuffs. -/
def newConnOk (b : BindSizes) : Bool := chanOk 16 b.read && chanOk 8 b.write && sliceOk 8 b.write && sliceOk 24 b.write

/-- server.go:334-337: the goroutine of an accepted connection; what follows `newConn` recovers in its own deferred function. -/
def acceptedConn (b : BindSizes) (c : ConnIn) (closesHere : Bool) : Gp :=
  .go (.seq (.call (!newConnOk b)) (srvConn c closesHere))

/-! ## Client -/

/-- clientconn.go:187-196 `newConnection`. -/
def newConnectionOk (write : Int) : Bool := chanOk 8 write && sliceOk 8 write && sliceOk 24 write

/-- How a constructor ends; `opened`: transport connections it has opened that nobody has. -/
inductive Built where
  | conn                      -- the connection is returned
  | error
  | panics (opened : Nat)     -- in the caller's goroutine
deriving Repr, DecidableEq

/-- clientconn.go:99-116 `NewConnection`; `dialed`: the dial succeeds. -/
def buildConnection (write : Int) (dialed : Bool) : Built :=
  if !dialed then .error
  else if newConnectionOk write then .conn else .panics 1

/-- clientconn.go:151-176 `NewConnectionWithReconnect` with `n` addresses: `copy[len(copy)-1]` panics if there are none. -/
def buildReconnect (n : Nat) (write : Int) (dialed : Bool) : Built :=
  if n = 0 then .panics 0
  else if newConnectionOk write then .conn else .panics (if dialed then 1 else 0)

/-- clientconn.go:267: `conn.addrs[conn.idx%len(conn.addrs)]` does not panic; `idx` is never negative (it starts at 0 and is only
incremented, C44). -/
def addrOk (n idx : Nat) : Bool := decide (n ≠ 0 ∧ idx % n < n)

/-! ## API -/

/-- The sum of `int`s of 64 bits (api.go:39-41). -/
def wrapSum (ws : List Int) : Int := (ws.foldl (fun (t : Int64) w => t + Int64.ofInt w) 0).toInt

/-- api.go:32-42: totalWeight. -/
def apiTotal (endpoints : Nat) : Option (List Int) → Int
  | none => endpoints
  | some ws => wrapSum ws

/-- api.go:50-59: NewAPI makes a connection to each endpoint; it panics when one of them does. -/
def buildAPI (write : Int) (dialed : List Bool) : Built :=
  if dialed.all (fun d => buildConnection write d != .panics 1) then .conn else .panics 1

/-- api.go:82, 239: `Call` draws with `rand.Intn(totalWeight)`, which panics unless the argument is positive. -/
def apiCallOk (endpoints : Nat) (ws : Option (List Int)) : Bool := decide (0 < apiTotal endpoints ws)

end Qrpc
