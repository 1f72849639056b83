import Verif.Model.ServeRead
import Verif.Model.ServeResp
/-!
# Calls made by handlers and subscribers

A server connection with its reader, main goroutine and handlers (`Model/ServeRead.lean`) and the table of the requests it sent
itself (`Model/ServeResp.lean`) in one system: the reader that delivers answers (serveconn.go:393-412) is the one that waits for
blocking handlers (431-435) and calls `SubFunc` (385-389). The program of a handler or subscriber may at any time call `GetFrame`
(clientconn.go:71-77) on the response object of a request that was written; it goes on only when something was done to that object.

* A step of the read side that closes the connection (serveconn.go:158, 378, 596) is enabled once `Close` was run, which is the step
  `tab (.close i)` of whatever goroutine does it; it cancels the context (786).
* The lookup and the delivery of an answer are two steps; `RAct.rLookup` is taken with the second.

Simplified: of several callers of `GetFrame` on one object only one gets the frame (`Model/Response.lean`); here all go on, which
only adds behaviours. `GetFrameWithContext` with a context of the caller's that ends is not modelled.

Below, the same for the subscriber of a client connection (clientconn.go:494-501), on top of `Model/Client.lean`.
-/
namespace Qrpc

structure BkSt where
  r : RSt
  v : VSt
  waits : Nat → Option Nat     -- the handler or subscriber of frame k is in GetFrame on the response object t

def BkSt.init (t0 : Nat) : BkSt := ⟨RSt.init t0, VSt.init, fun _ => none⟩

inductive BkAct where
  | srv (a : RAct)             -- a step of the read side
  | frame (f : InFrame)        -- ReadFrame returned (364)
  | lookup                     -- 394-400, 409-411
  | deliver                    -- 401-407
  | tab (a : VAct)             -- a step of callers, the write path and closers
  | wait (k t : Nat)           -- GetFrame is called
  | got (k : Nat)              -- GetFrame returns

def InFrame.toR (f : InFrame) : RFrame := ⟨f.rid, f.push, f.nonblock⟩

/-- The program of frame `k` is running: blocking handler, nonblocking handler or `SubFunc`. -/
def BkSt.active (s : BkSt) (k : Nat) : Prop :=
  s.r.main = .handling k ∨ k ∈ s.r.running ∨ (s.r.rd = .sub ∧ k + 1 = s.r.arr.length)

instance (s : BkSt) (k : Nat) : Decidable (s.active k) := by unfold BkSt.active; infer_instance

/-- The frame whose program ends with this step. -/
def RAct.returns (r : RSt) : RAct → Option Nat
  | .mEnd => match r.main with
    | .handling k => some k
    | _ => none
  | .hEnd k => some k
  | .rGo => if r.rd = .sub then some (r.arr.length - 1) else none
  | _ => none

/-- Steps of the read side that are taken in another way here. -/
def RAct.elsewhere : RAct → Bool
  | .rFrame _ | .rLookup _ | .extClose => true
  | _ => false

/-- Steps of the table that are taken by the reader. -/
def VAct.reader : VAct → Bool
  | .frame _ | .rGo => true
  | _ => false

def bkStep (c : RConf) (s : BkSt) : BkAct → Option BkSt
  | .srv a =>
    if a.elsewhere then none
    else if (a.returns s.r).bind s.waits ≠ none then none
    else match rdStep c s.r a with
      | some r => if r.ctx = true ∧ s.r.ctx = false then none else some { s with r := r }
      | none => none
  | .frame f => match rdStep c s.r (.rFrame f.toR) with
    | some r => match r.rd with
      | .lookup _ => (vStep s.v (.frame f)).map fun v => { s with r := r, v := v }
      | _ => some { s with r := r }
    | none => none
  | .lookup => match s.v.rd with
    | .lookup _ => match vStep s.v .rGo with
      | some v => match v.rd with
        | .read => (rdStep c s.r (.rLookup false)).map fun r => { s with r := r, v := v }
        | _ => some { s with v := v }
      | none => none
    | _ => none
  | .deliver => match s.v.rd with
    | .deliver _ _ => match vStep s.v .rGo with
      | some v => (rdStep c s.r (.rLookup true)).map fun r => { s with r := r, v := v }
      | none => none
    | _ => none
  | .tab a =>
    if a.reader then none
    else match vStep s.v a with
      | some v => some { s with v := v, r := { s.r with ctx := s.r.ctx || v.closed } }
      | none => none
  | .wait k t => if s.active k ∧ s.waits k = none ∧ t ∈ s.v.regd then some { s with waits := setAt s.waits k (some t) } else none
  | .got k => match s.waits k with
    | some t => if s.v.revs t = [] then none else some { s with waits := setAt s.waits k none }
    | none => none

def bkRun (c : RConf) (t0 : Nat) (acts : List BkAct) : Option BkSt := runActs (bkStep c) (BkSt.init t0) acts

/-! ## The subscriber of a client connection -/

structure SkSt where
  c : CSt
  inSub : Bool                 -- the reader is in the subscriber (497)
  waits : Option Nat           -- ... which is in GetFrame on the response object of ticket t

def SkSt.init (dialed : Bool) : SkSt := ⟨CSt.init dialed, false, none⟩

inductive SkAct where
  | cli (a : CAct)
  | wait (t : Nat)
  | got
  | ret                        -- the subscriber returns

/-- Steps of the reader goroutine. -/
def CAct.reader : CAct → Bool
  | .rFrame _ | .rErr | .rGo => true
  | _ => false

/-- The frame goes to the subscriber. -/
def CAct.pushed : CAct → Bool
  | .rFrame f => f.push
  | _ => false

def skStep (cf : CConf) (s : SkSt) : SkAct → Option SkSt
  | .cli a =>
    if a.reader && s.inSub then none
    else (cStep cf s.c a).map fun c => { s with c := c, inSub := s.inSub || a.pushed }
  | .wait t => if s.inSub = true ∧ s.waits = none ∧ t ∈ s.c.regd then some { s with waits := some t } else none
  | .got => match s.waits with
    | some t => if s.c.revs t = [] then none else some { s with waits := none }
    | none => none
  | .ret => if s.inSub = true ∧ s.waits = none then some { s with inSub := false } else none

def skRun (cf : CConf) (dialed : Bool) (acts : List SkAct) : Option SkSt := runActs (skStep cf) (SkSt.init dialed) acts

end Qrpc
