import Verif.Model.ApiNet
import Verif.Model.Codegen
/-!
# codegen/client.go over its connections

`Client.Request` (codegen/client.go:37-76) together with the `n` connections the client dialled (24-32), each an instance of
`Model/EndToEnd.lean`. They reconnect (`NewConnectionWithReconnect`, 27). Goroutine `i` that calls the client is caller `i` of every
connection, as in Model/ApiNet.lean:

* it makes its request on the connection of its turn (52, `genPos`) with the frame of this call; `Request` returns to it when caller `i` has
  come back to rest there, nil if the result it received was nil and an error otherwise;
* `GetFrameWithContext` (57) returns a frame if the response object of that request has got it, or fails at any time (the end of the
  context, or of the response);
* after a failure of the latter it calls `ResetFrame` on the same connection (60) and returns when that has returned;
* besides, handlers for requests of the server (if the configuration has a `Handler`) submit frames with even ids.

Calls are numbered. A call whose request does not marshal (40-43) returns without having done anything; it is left out. So is the content
of the returned frame (63-71: Model/Codegen.lean, `genLoop`).
-/
namespace Qrpc

/-- The frame of `conn.ResetFrame(id, 0)` (client.go:60, clientconn.go:421-426, framewriter.go:156-159). -/
def rstBytes (id : UInt64) : Bytes :=
  match (DFW.new.resetFrame none (fun _ => (none : Option Unit)) id 0).submitted with
  | some d => d.wbuf
  | none => []

def rstFrame (id : UInt64) : CFrame := ⟨id, rstBytes id, false, true, false, false⟩

/-- A goroutine that calls the client: the counter value it drew and the number of the iteration. -/
inductive GNPc where
  | idle
  | top (idx : UInt32) (k : Nat)              -- 51
  | req (idx : UInt32) (k : Nat)              -- 53: calls Request
  | asked (idx : UInt32) (k : Nat)            -- inside Request, not submitted
  | sub (idx : UInt32) (k t : Nat)            -- inside Request, submitted as number `t` of the connection
  | wait (idx : UInt32) (k t : Nat)           -- 57
  | rst (idx : UInt32) (k t : Nat)            -- 60: calls ResetFrame
  | rsting (idx : UInt32) (k t : Nat)         -- inside ResetFrame
deriving DecidableEq, Repr

inductive GNRes where
  | na                                        -- 74: ErrServiceNA
  | failed                                    -- 61
  | frame (c t : Nat) (f : InFrame)           -- 63-71: the frame of request `t` on connection `c`
deriving DecidableEq, Repr

structure GNSt where
  idx : UInt32                                -- client.idx
  con : Nat → ESt
  pc : Nat → GNPc
  no : Nat → Nat                              -- number of the current (or last) call of each goroutine
  calls : List RpcReq                         -- ghost: all calls
  load : Nat → Bytes                          -- `bytes` (40) of each call
  reqs : List (Nat × Nat × Nat)               -- ghost: all requests submitted (call, connection, number there), in order
  out : List (Nat × GNRes)                    -- ghost: calls that returned

inductive GNAct where
  | call (i : Nat) (m : RpcReq)
  | go (i : Nat)
  | con (c : Nat) (a : EAct)
  | sent (i : Nat)                            -- Request returned nil
  | failed (i : Nat)                          -- Request returned an error
  | got (i : Nat) (f : InFrame)               -- GetFrameWithContext returned a frame
  | gaveUp (i : Nat)                          -- GetFrameWithContext returned an error
  | reset (i : Nat)                           -- ResetFrame returned

/-- A step of connection `c`. -/
def gnCon (conf : CConf) (n : Nat) (cmd : Cmd) (s : GNSt) (c : Nat) (a : EAct) : Option GNSt :=
  match a with
  | .cl (.request i push b) => match s.pc i with
    | .req idx k =>
      if genPos n idx k = c ∧ push = false then
        (eStep conf (s.con c) a).map fun e => { s with con := setAt s.con c e, pc := setAt s.pc i (.asked idx k) }
      else none
    | _ => none
  | .cl (.go i) => match (s.con c).c.pc i with
    | .genId _ b =>
      if b = apiFrame (clientRid ((s.con c).c.ridGen + 1)) cmd (s.load (s.no i)) then
        (eStep conf (s.con c) a).map fun e => { s with con := setAt s.con c e }
      else none
    | _ => (eStep conf (s.con c) a).map fun e => { s with con := setAt s.con c e }
  | .cl (.enq i) => match (s.con c).c.pc i with
    | .enq f _ =>
      if f.resp then match s.pc i with
        | .asked idx k =>
          (eStep conf (s.con c) a).map fun e => { s with
            con := setAt s.con c e
            pc := setAt s.pc i (.sub idx k (s.con c).c.frames.length)
            reqs := s.reqs ++ [(s.no i, c, (s.con c).c.frames.length)] }
        | _ => none
      else (eStep conf (s.con c) a).map fun e => { s with con := setAt s.con c e }
    | _ => none
  | .cl (.send i f) => match s.pc i with
    | .idle => if f.rid % 2 = 0 then (eStep conf (s.con c) a).map fun e => { s with con := setAt s.con c e } else none
    | .rst idx k t =>
      if genPos n idx k = c ∧ f = rstFrame (cframeOf (s.con c).c.frames t).rid then
        (eStep conf (s.con c) a).map fun e => { s with con := setAt s.con c e, pc := setAt s.pc i (.rsting idx k t) }
      else none
    | _ => none
  | a => (eStep conf (s.con c) a).map fun e => { s with con := setAt s.con c e }

def gnStep (conf : CConf) (n : Nat) (cmd : Cmd) (s : GNSt) : GNAct → Option GNSt
  | .call i m => match s.pc i, m.marshal with
    | .idle, some b => some { s with
        idx := s.idx + 1, pc := setAt s.pc i (.top (s.idx + 1) 0), no := setAt s.no i s.calls.length
        calls := s.calls ++ [m], load := setAt s.load s.calls.length b }
    | _, _ => none
  | .go i => match s.pc i with
    | .top idx k =>
      if k < n then some { s with pc := setAt s.pc i (.req idx k) }
      else some { s with pc := setAt s.pc i .idle, out := s.out ++ [(s.no i, .na)] }
    | _ => none
  | .con c a => gnCon conf n cmd s c a
  | .sent i => match s.pc i with
    | .sub idx k t =>
      if (s.con (genPos n idx k)).c.pc i = .idle ∧ (t, .ok) ∈ (s.con (genPos n idx k)).c.rets then
        some { s with pc := setAt s.pc i (.wait idx k t) }
      else none
    | _ => none
  | .failed i => match s.pc i with
    | .asked idx k =>
      if (s.con (genPos n idx k)).c.pc i = .idle then some { s with pc := setAt s.pc i (.top idx (k + 1)) } else none
    | .sub idx k t =>
      if (s.con (genPos n idx k)).c.pc i = .idle ∧ (t, .ok) ∉ (s.con (genPos n idx k)).c.rets then
        some { s with pc := setAt s.pc i (.top idx (k + 1)) }
      else none
    | _ => none
  | .got i f => match s.pc i with
    | .wait idx k t =>
      if .frame f ∈ (s.con (genPos n idx k)).c.revs t then
        some { s with pc := setAt s.pc i .idle, out := s.out ++ [(s.no i, .frame (genPos n idx k) t f)] }
      else none
    | _ => none
  | .gaveUp i => match s.pc i with
    | .wait idx k t => some { s with pc := setAt s.pc i (.rst idx k t) }
    | _ => none
  | .reset i => match s.pc i with
    | .rsting idx k _ =>
      if (s.con (genPos n idx k)).c.pc i = .idle then
        some { s with pc := setAt s.pc i .idle, out := s.out ++ [(s.no i, .failed)] }
      else none
    | _ => none

/-- A new client; `dialed c` says whether the first dial of connection `c` succeeded. -/
def GNSt.init (dialed : Nat → Bool) : GNSt :=
  { idx := 0, con := fun c => ESt.init (dialed c), pc := fun _ => .idle, no := fun _ => 0, calls := [], load := fun _ => [],
    reqs := [], out := [] }

def gnRun (conf : CConf) (n : Nat) (cmd : Cmd) (dialed : Nat → Bool) (acts : List GNAct) : Option GNSt :=
  runActs (gnStep conf n cmd) (GNSt.init dialed) acts

end Qrpc
