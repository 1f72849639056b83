import Verif.Model.Mem
/-!
# clientconn.go: who accesses the fields of a Connection, and when

`type Connection` (clientconn.go:23-58: "it is thread safe"). The model runs the goroutines of a connection - `loop` (212-249, with
`connect` 259-307, `closeRWC` 429-443, `endLoop` 446-451), per transport connection a reader (`readFrames` 477-545) and a writer
(`writeFrames` 574-591, `collectWriteFrames`, `writeBuffers`), the handlers (523-528) - and any other goroutines that use it, and records
every access to a field that is not immutable, together with the synchronising operations (Model/Mem.lean).

A goroutine is in a phase, with the accesses it has still to make there, in the order of the source; a phase ends with at most one
synchronising operation. Where the code branches on something this model does not contain, every branch is possible. Accesses on some
paths only (in the writer) may be skipped.

Left out, since they cannot race: `closed` and `ridGen` (all accesses atomic), channels, the immutable fields, and accesses that repeat a
previous one of the same phase. `cached` stands for `cachedRequests` and `cachedBuffs`, which are always used together, with their elements.
-/
namespace Qrpc

inductive CX where
  | rwc | respes | loopCtx | loopCancelCtx | loopBytesWriter | loopWG | cached | cs | idx
deriving DecidableEq, Repr

inductive CO where
  | mu
  | ctx                                       -- conn.ctx
  | loopCtx (n : Nat)                         -- *conn.loopCtx of transport connection n
  | wg (n : Nat)                              -- conn.loopWG of transport connection n
deriving DecidableEq, Repr

inductive CG where
  | user (i : Nat)
  | loop
  | reader (n : Nat)
  | writer (n : Nat)
  | handler (k : Nat)
deriving DecidableEq, Repr

abbrev CEv := MemEv CG CO CX

/-- An access still to be made: the field, whether it writes, whether it is atomic, the line. -/
structure CAcc where
  x : CX
  w : Bool
  a : Bool
  line : Nat
deriving DecidableEq, Repr

inductive LPh where
  | connect | dial | store | mk | goW | await | lock2 | close | join | endc | ended
deriving DecidableEq, Repr

inductive RPh where
  | dead | check | init | read | table | del | nf | handle | fin | last
deriving DecidableEq, Repr

inductive WPh where
  | dead | start | reset | collect | abort | batch | locked | reg | write | after | fin | last
deriving DecidableEq, Repr

/-- The accesses of the loop goroutine in each phase. -/
def LPh.block : LPh → List CAcc
  | .connect => [⟨.rwc, false, false, 261⟩]
  | .dial => [⟨.idx, false, false, 267⟩, ⟨.idx, true, false, 268⟩]
  | .store => [⟨.rwc, true, false, 286⟩, ⟨.loopCtx, true, true, 287⟩, ⟨.loopCancelCtx, true, false, 288⟩, ⟨.loopBytesWriter, true, false, 289⟩]
  | .mk => [⟨.loopWG, true, false, 220⟩, ⟨.loopWG, false, false, 221⟩]
  | .goW => [⟨.loopWG, false, false, 225⟩]
  | .await => [⟨.loopCtx, false, false, 233⟩]
  | .close => [⟨.rwc, false, false, 433⟩, ⟨.rwc, true, false, 437⟩, ⟨.respes, false, false, 439⟩, ⟨.respes, true, false, 442⟩]
  | .join => [⟨.loopWG, false, false, 240⟩]
  | .endc => [⟨.cs, false, false, 448⟩, ⟨.cs, true, false, 449⟩]
  | .lock2 | .ended => []

/-- Of the reader. -/
def RPh.block : RPh → List CAcc
  | .check => [⟨.loopCancelCtx, false, false, 479⟩, ⟨.rwc, false, false, 482⟩]
  | .init => [⟨.loopCtx, false, false, 485⟩, ⟨.rwc, false, false, 485⟩]
  | .read => [⟨.cs, false, false, 489⟩]
  | .table => [⟨.respes, false, false, 505⟩]
  | .del => [⟨.respes, true, false, 536⟩]
  | .nf => [⟨.rwc, false, false, 507⟩]
  | .handle => [⟨.loopWG, false, false, 523⟩]
  | .dead | .fin | .last => []

/-- Of the writer. -/
def WPh.block : WPh → List CAcc
  | .start => [⟨.loopCancelCtx, false, false, 576⟩]
  | .reset => [⟨.cached, true, false, 580⟩]
  | .collect => [⟨.loopCtx, false, false, 650⟩, ⟨.cs, false, false, 628⟩, ⟨.loopCtx, false, false, 635⟩, ⟨.cached, true, false, 647⟩]
  | .abort => [⟨.cached, false, false, 710⟩]
  | .batch => [⟨.cached, false, false, 716⟩]
  | .locked => [⟨.rwc, false, false, 723⟩]
  | .reg => [⟨.cached, false, false, 730⟩, ⟨.respes, true, false, 739⟩, ⟨.cached, true, false, 736⟩]
  | .write => [⟨.loopBytesWriter, false, false, 746⟩, ⟨.cached, true, false, 746⟩]
  | .after => [⟨.cached, false, false, 765⟩]
  | .dead | .fin | .last => []

structure CMSt where
  tr : List CEv                               -- the execution so far
  n : Nat                                     -- transport connections
  rwc : Bool                                  -- conn.rwc != nil
  mu : Option CG                              -- who holds conn.mu
  closed : Bool                               -- conn.ctx is cancelled
  lcDone : Bool                               -- *conn.loopCtx is cancelled
  lph : LPh
  ltodo : List CAcc
  lv : Bool                                   -- what the loop read from rwc
  rph : RPh
  rtodo : List CAcc
  rv : Bool                                   -- what the reader read from rwc
  wph : WPh
  wtodo : List CAcc
  wv : Bool                                   -- what the writer read from rwc
  hs : List Nat                               -- running handlers
  hn : Nat                                    -- handlers started
  us : List Nat                               -- other goroutines that have got the connection

inductive CMAct where
  | lAcc | rAcc | wAcc | wSkip                -- the next access of a phase
  | lMv (to : LPh) | rMv (to : RPh) | wMv (to : WPh)
  | hEnd (k : Nat)                            -- a handler returns
  | share (i j : Nat)                         -- goroutine i hands the connection to j (by whatever synchronisation)
  | load (g : CG)                             -- 252, 389: somebody (also a handler, callback or subscriber) writes
  | closeBy (g : CG)                          -- 454-465: somebody calls Close
  | reused (i : Nat)                          -- clientconn_reuse.go:24-26: somebody calls GetReusedCon

def CMSt.emit (s : CMSt) (g : CG) (op : MemOp CG CO CX) (line : Nat) : CMSt := { s with tr := s.tr ++ [⟨g, op, line⟩] }

def CMSt.access (s : CMSt) (g : CG) (a : CAcc) : CMSt := s.emit g (.acc a.x a.w a.a) a.line

def CMSt.live (s : CMSt) : CG → Bool
  | .user i => s.us.contains i
  | .loop => s.lph != .ended
  | .reader n => n == s.n && s.rph != .dead
  | .writer n => n == s.n && s.wph != .dead
  | .handler k => s.hs.contains k

/-- `loopCancelCtx` (only the first call ends the context). -/
def CMSt.loopCancel (s : CMSt) (g : CG) (line : Nat) : CMSt :=
  if s.lcDone then s else { s.emit g (.rel (.loopCtx s.n)) line with lcDone := true }

/-- `Close`: cancels the connection's context, and with it the current loop context. -/
def CMSt.cancel (s : CMSt) (g : CG) : CMSt :=
  if s.closed then s else { (s.emit g (.rel .ctx) 462).loopCancel g 462 with closed := true }

def CMSt.lTo (s : CMSt) (p : LPh) : CMSt := { s with lph := p, ltodo := p.block }
def CMSt.rTo (s : CMSt) (p : RPh) : CMSt := { s with rph := p, rtodo := p.block }
def CMSt.wTo (s : CMSt) (p : WPh) : CMSt := { s with wph := p, wtodo := p.block }

def lMove (reconnect : Bool) (s : CMSt) (to : LPh) : Option CMSt :=
  match s.lph, to with
  | .connect, .mk => if s.lv then some (s.lTo .mk) else none                                       -- 261-263
  | .connect, .dial => if !s.lv then some (s.lTo .dial) else none
  | .dial, .dial => some (s.lTo .dial)                                                             -- failed, 281, 295-303
  | .dial, .ended => if s.closed then some ((s.emit .loop (.acq .ctx) 300).lTo .ended) else none   -- 300-301
  | .dial, .store =>
    if s.mu = none then some ({ s.emit .loop (.acq .mu) 285 with mu := some .loop }.lTo .store) else none
  | .store, .mk => some ({ s.emit .loop (.rel .mu) 290 with mu := none, n := s.n + 1, lcDone := s.closed }.lTo .mk)
  | .mk, .goW => some (((s.emit .loop (.go (.reader s.n)) 221).rTo .check).lTo .goW)
  | .goW, .await => some (((s.emit .loop (.go (.writer s.n)) 225).wTo .start).lTo .await)
  | .await, .lock2 => if s.lcDone then some ((s.emit .loop (.acq (.loopCtx s.n)) 233).lTo .lock2) else none
  | .lock2, .close =>
    if s.mu = none then some ({ s.emit .loop (.acq .mu) 430 with mu := some .loop }.lTo .close) else none
  | .close, .join => some ({ s.emit .loop (.rel .mu) 431 with mu := none }.lTo .join)
  | .join, .endc =>
    if s.rph = .dead ∧ s.wph = .dead ∧ s.hs = [] then some ((s.emit .loop (.acq (.wg s.n)) 240).lTo .endc) else none
  | .endc, .connect => if reconnect then some (s.lTo .connect) else none
  | .endc, .ended => if !reconnect then some ((s.cancel .loop).lTo .ended) else none               -- 244-247
  | _, _ => none

def rMove (s : CMSt) (to : RPh) : Option CMSt :=
  match s.rph, to with
  | .check, .fin => if !s.rv then some (s.rTo .fin) else none                                      -- 482-484
  | .check, .init => if s.rv then some (s.rTo .init) else none
  | .init, .read => some (s.rTo .read)
  | .read, .read => some (s.rTo .read)                                                             -- 494-501
  | .read, .fin => some (s.rTo .fin)                                                               -- 490-492
  | .read, .table =>
    if s.mu = none then some ({ s.emit (.reader s.n) (.acq .mu) 504 with mu := some (.reader s.n) }.rTo .table) else none
  | .table, .del => some (s.rTo .del)
  | .table, .nf => some (s.rTo .nf)
  | .del, .read => some ({ s.emit (.reader s.n) (.rel .mu) 537 with mu := none }.rTo .read)
  | .nf, .fin => if !s.rv then some ({ s.emit (.reader s.n) (.rel .mu) 508 with mu := none }.rTo .fin) else none
  | .nf, .read => if s.rv then some ({ s.emit (.reader s.n) (.rel .mu) 508 with mu := none }.rTo .read) else none
  | .nf, .handle => if s.rv then some ({ s.emit (.reader s.n) (.rel .mu) 508 with mu := none }.rTo .handle) else none
  | .handle, .read =>
    some ({ s.emit (.reader s.n) (.go (.handler s.hn)) 523 with hs := s.hn :: s.hs, hn := s.hn + 1 }.rTo .read)
  | .fin, .last => some ((s.loopCancel (.reader s.n) 479).rTo .last)
  | .last, .dead => some ((s.emit (.reader s.n) (.rel (.wg s.n)) 221).rTo .dead)
  | _, _ => none

def wMove (s : CMSt) (to : WPh) : Option CMSt :=
  match s.wph, to with
  | .start, .reset => some (s.wTo .reset)
  | .reset, .collect => some (s.wTo .collect)
  | .collect, .collect => some (s.wTo .collect)                                                    -- the next frame
  | .collect, .batch => some (s.wTo .batch)
  | .collect, .abort =>
    if s.lcDone then some ((s.emit (.writer s.n) (.acq (.loopCtx s.n)) 650).wTo .abort) else none
  | .abort, .fin => some (s.wTo .fin)
  | .batch, .reset => some (s.wTo .reset)                                                          -- 716-719
  | .batch, .locked =>
    if s.mu = none then some ({ s.emit (.writer s.n) (.acq .mu) 722 with mu := some (.writer s.n) }.wTo .locked) else none
  | .locked, .abort =>                                                                             -- 724-728
    if !s.wv then some ({ s.emit (.writer s.n) (.rel .mu) 724 with mu := none }.wTo .abort) else none
  | .locked, .reg => if s.wv then some (s.wTo .reg) else none
  | .reg, .write => some ({ s.emit (.writer s.n) (.rel .mu) 743 with mu := none }.wTo .write)
  | .write, .after => some (s.wTo .after)
  | .after, .reset => some (s.wTo .reset)
  | .after, .fin => some (s.wTo .fin)                                                              -- 748-763
  | .fin, .last => some ((s.loopCancel (.writer s.n) 576).wTo .last)
  | .last, .dead => some ((s.emit (.writer s.n) (.rel (.wg s.n)) 225).wTo .dead)
  | _, _ => none

def cmStep (reconnect : Bool) (s : CMSt) : CMAct → Option CMSt
  | .lAcc => match s.ltodo with
    | a :: r => some { s.access .loop a with
        ltodo := r
        lv := if a.x = .rwc ∧ a.w = false then s.rwc else s.lv
        rwc := if a.x = .rwc ∧ a.w = true then s.lph == .store else s.rwc }
    | [] => none
  | .rAcc => match s.rtodo with
    | a :: r => some { s.access (.reader s.n) a with rtodo := r, rv := if a.x = .rwc then s.rwc else s.rv }
    | [] => none
  | .wAcc => match s.wtodo with
    | a :: r => some { s.access (.writer s.n) a with wtodo := r, wv := if a.x = .rwc then s.rwc else s.wv }
    | [] => none
  | .wSkip => match s.wph, s.wtodo with
    | .collect, _ :: r => some { s with wtodo := r }
    | .reg, _ :: r => some { s with wtodo := r }
    | _, _ => none
  | .lMv p => if s.ltodo = [] then lMove reconnect s p else none
  | .rMv p => if s.rtodo = [] then rMove s p else none
  | .wMv p => if s.wtodo = [] then wMove s p else none
  | .hEnd k =>
    if s.hs.contains k then some { s.emit (.handler k) (.rel (.wg s.n)) 523 with hs := s.hs.filter (· != k) } else none
  | .share i j =>
    if s.us.contains i then some { s.emit (.user i) (.go (.user j)) 0 with us := j :: s.us } else none
  | .load g => if s.live g then some (s.emit g (.acc .loopCtx false true) 252) else none
  | .closeBy g => if s.live g then some (s.cancel g) else none
  | .reused i => if s.us.contains i then some (s.emit (.user i) (.acc .rwc false false) 25) else none

/-- `newConnection` (187-211), by goroutine 0. -/
def cmInit : List CEv :=
  [⟨.user 0, .acc .rwc true false, 191⟩, ⟨.user 0, .acc .respes true false, 192⟩, ⟨.user 0, .acc .loopCtx true false, 190⟩,
   ⟨.user 0, .acc .loopCancelCtx true false, 205⟩, ⟨.user 0, .acc .loopCtx true true, 206⟩, ⟨.user 0, .acc .loopBytesWriter true false, 207⟩,
   ⟨.user 0, .acc .loopWG true false, 190⟩, ⟨.user 0, .acc .cached true false, 193⟩, ⟨.user 0, .acc .cs true false, 195⟩,
   ⟨.user 0, .acc .idx true false, 190⟩, ⟨.user 0, .go .loop, 209⟩]

def CMSt.init (dialed : Bool) : CMSt :=
  { tr := cmInit, n := 0, rwc := dialed, mu := none, closed := false, lcDone := false, lph := .connect, ltodo := LPh.connect.block, lv := false,
    rph := .dead, rtodo := [], rv := false, wph := .dead, wtodo := [], wv := false, hs := [], hn := 0, us := [0] }

def cmRun (reconnect dialed : Bool) (acts : List CMAct) : Option CMSt := runActs (cmStep reconnect) (CMSt.init dialed) acts

end Qrpc
