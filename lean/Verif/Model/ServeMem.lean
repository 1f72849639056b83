import Verif.Model.Mem
/-!
# serveconn.go: who accesses the fields of a server connection, and when

`type serveconn` with its `ConnectionInfo` (serveconn.go:27-74: "all fields (except untrack) are immutable, mutables are in ConnectionInfo").
The model runs the goroutines of a connection - `serve` (145-224), which also runs the blocking handlers, `readFrames` (322-443), the other
handlers (213-219) - and any other goroutines that got the connection from `WalkConn` (server.go:589-594) or from one that has it, and
records every access to a field that is not immutable, together with the synchronising operations (Model/Mem.lean).

Whoever runs foreign code (a handler, a callback, a subscriber) may call the functions below, also while it is inside another of them (the
callbacks of `Close`, `OnKickCB`, the `Close` inside `writeBuffers`), so that each goroutine has a stack of calls. A call is in a phase, with
the accesses it has still to make there, in the order of the source; where the code branches on something this model does not contain,
every branch is possible, and accesses on some paths only (575, 398) are made or not.

Left out, since they cannot race: `untrack` and `ridGen` (all accesses atomic), channels, and the immutable fields; also `anything`
(77-85: "with no synchronization (caller guaranteed)"), and the write requests themselves (C105) and their buffers (C68). `cached` stands
for `cachedRequests` and `cachedBuffs`, which are always used together; `timeout` and `bufr` are the fields of the frame reader's `Reader`
(reader.go:14-19).
-/
namespace Qrpc

inductive SX where
  | reader | writer | inflight | cached | closed | id | closeNotify | respes | timeout | bufr
deriving DecidableEq, Repr

inductive SO where
  | map                                       -- the entry of srv.activeConn
  | muW | muR                                 -- ci.RWMutex: its Unlock, its RUnlock
  | tok                                       -- wlockCh, of capacity 1
  | rfc (n : Nat)                             -- the n-th value sent to readFrameCh
  | gate
deriving DecidableEq, Repr

inductive SG where
  | serve | reader
  | handler (k : Nat)
  | other (i : Nat)
deriving DecidableEq, Repr

abbrev SMEv := MemEv SG SO SX

/-- An access still to be made: the field, whether it writes, whether it is atomic, the line (of reader.go for `timeout` and `bufr`). -/
structure SAcc where
  x : SX
  w : Bool
  a : Bool
  line : Nat
deriving DecidableEq, Repr

/-- What a call does on the way from one phase to the next. -/
inductive KSync where
  | none
  | lock (l : Nat) | unlock (l : Nat) | rlock (l : Nat) | runlock (l : Nat)     -- ci.RWMutex
  | take (l : Nat) | give (l : Nat) | lose                                        -- wlockCh; `lose`: returns without giving it back
deriving DecidableEq, Repr

/-- The phases of the calls. -/
inductive KPh where
  | getID | getID1                                                            -- 88-93
  | setID | setID1 | setID2                                                   -- 96-109
  | ntf | ntf1 | ntf2                                                         -- NotifyWhenClose, 122-133
  | rcfg | rcfg1                                                              -- ReaderConfig().SetReadTimeout, 117-119, reader.go:56-58
  | tab | tab1 | tab2                                                         -- readFrames' lookup, 394-411
  | cls | cls1 | cls2                                                         -- Close, 754-797
  | cbs                                                                       -- running callbacks
  | wr | w1 | w2 | w3 | w4 | w5 | w6 | w7 | w8 | w9 | wErr | wErr2 | wCls | wQuit | wFin | wAbort     -- writeFrameBytes, 453-540
  | done
deriving DecidableEq, Repr

def KPh.block : KPh → List SAcc
  | .getID1 => [⟨.id, false, false, 90⟩]
  | .setID1 => [⟨.id, false, false, 101⟩]
  | .setID2 => [⟨.id, true, false, 105⟩]
  | .ntf1 => [⟨.closed, false, false, 125⟩]
  | .ntf2 => [⟨.closeNotify, true, false, 131⟩]
  | .rcfg => [⟨.reader, false, false, 118⟩]
  | .rcfg1 => [⟨.timeout, true, false, 57⟩]
  | .tab1 => [⟨.respes, false, false, 395⟩]
  | .tab2 => [⟨.respes, true, false, 398⟩]
  | .cls1 => [⟨.closed, false, false, 775⟩]
  | .cls2 => [⟨.closed, true, false, 779⟩, ⟨.closeNotify, false, false, 780⟩, ⟨.closeNotify, true, false, 781⟩,
      ⟨.respes, false, false, 782⟩, ⟨.respes, true, false, 783⟩]
  | .w2 => [⟨.inflight, true, true, 683⟩]
  | .wQuit => [⟨.inflight, true, true, 684⟩]
  | .w3 => [⟨.cached, true, false, 510⟩]
  | .w4 => [⟨.cached, true, false, 669⟩]
  | .w5 => [⟨.cached, false, false, 543⟩]
  | .w6 => [⟨.closed, false, false, 559⟩]
  | .wCls => [⟨.cached, false, false, 561⟩]
  | .w7 => [⟨.respes, false, false, 566⟩, ⟨.respes, true, false, 567⟩, ⟨.cached, false, false, 570⟩, ⟨.cached, true, false, 575⟩]
  | .w8 => [⟨.cached, true, false, 587⟩]
  | .w9 => [⟨.cached, false, false, 613⟩]
  | .wErr2 => [⟨.cached, false, false, 602⟩]
  | .wFin | .wAbort => [⟨.inflight, true, true, 692⟩]
  | .getID | .setID | .ntf | .tab | .cls | .cbs | .wr | .w1 | .wErr | .done => []

/-- What may come next. -/
def KPh.next : KPh → List (KSync × KPh)
  | .getID => [(.rlock 89, .getID1)]
  | .getID1 => [(.runlock 91, .done)]
  | .setID => [(.lock 100, .setID1)]
  | .setID1 => [(.unlock 102, .done), (.none, .setID2)]
  | .setID2 => [(.unlock 106, .done)]
  | .ntf => [(.lock 123, .ntf1)]
  | .ntf1 => [(.unlock 126, .cbs), (.none, .ntf2)]
  | .ntf2 => [(.unlock 132, .done)]
  | .rcfg => [(.none, .rcfg1)]
  | .rcfg1 => [(.none, .done)]
  | .tab => [(.lock 394, .tab1)]
  | .tab1 => [(.unlock 400, .done), (.unlock 410, .done), (.none, .tab2)]
  | .tab2 => [(.unlock 400, .done)]
  | .cls => [(.lock 774, .cls1)]
  | .cls1 => [(.unlock 776, .done), (.none, .cls2)]
  | .cls2 => [(.unlock 784, .cbs)]
  | .cbs => [(.none, .done)]
  | .wr => [(.none, .done), (.take 467, .w1)]
  | .w1 => [(.give 472, .done), (.none, .w2)]
  | .w2 => [(.none, .wQuit), (.none, .w3)]
  | .wQuit => [(.lose, .done)]
  | .w3 => [(.none, .w4), (.none, .w5), (.none, .wAbort)]
  | .w4 => [(.none, .w4), (.none, .w5), (.none, .wAbort)]
  | .w5 => [(.none, .wFin), (.none, .w8), (.lock 558, .w6)]
  | .w6 => [(.unlock 560, .wCls), (.none, .w7)]
  | .wCls => [(.none, .wAbort)]
  | .w7 => [(.none, .w7), (.unlock 581, .w8)]
  | .w8 => [(.none, .w9), (.none, .wErr)]
  | .w9 => [(.none, .wFin)]
  | .wErr => [(.none, .wErr2)]
  | .wErr2 => [(.none, .wAbort)]
  | .wFin => [(.give 506, .done)]
  | .wAbort => [(.lose, .done)]
  | .done => []

/-- Foreign code, or `Close`, runs here: it may call. (`cls`: `untrack` calls GetID and OnKickCB, server.go:491-512.) -/
def KPh.calls : KPh → Bool
  | .cls | .cbs | .wErr => true
  | _ => false

/-- The functions. -/
def KPh.entry : KPh → Bool
  | .getID | .setID | .ntf | .rcfg | .tab | .cls | .wr => true
  | _ => false

structure SFr where
  ph : KPh
  todo : List SAcc
deriving DecidableEq, Repr

inductive STok where
  | free | held (g : SG) | lost
deriving DecidableEq, Repr

inductive VPh where
  | setup | loop | blk | exit                 -- serve: 165-177; 194-198; a blocking handler, 201-204; 150-163
deriving DecidableEq, Repr

inductive DPh where
  | off | rd | proc | gate | fin | fin2 | rend | ended     -- readFrames: 364; 365-427; 432-436; 378; 379; 692
deriving DecidableEq, Repr

def VPh.block : VPh → List SAcc
  | .setup => [⟨.bufr, true, false, 44⟩, ⟨.timeout, true, false, 45⟩, ⟨.reader, true, false, 173⟩, ⟨.writer, true, false, 175⟩,
      ⟨.inflight, true, false, 177⟩]
  | .blk => [⟨.writer, false, false, 203⟩]
  | .loop | .exit => []

def DPh.block : DPh → List SAcc
  | .rd => [⟨.reader, false, false, 364⟩, ⟨.timeout, false, false, 83⟩, ⟨.bufr, true, false, 97⟩]
  | .fin2 => [⟨.reader, false, false, 379⟩, ⟨.bufr, true, false, 50⟩]
  | .rend => [⟨.inflight, true, true, 692⟩]
  | .off | .proc | .gate | .fin | .ended => []

structure SMSt where
  tr : List SMEv                              -- the execution so far
  mu : Option SG                              -- who holds ci's lock
  rl : List SG                                -- and who holds it for reading
  tok : STok                                  -- who has the token of wlockCh
  stk : SG → List SFr                         -- the calls each goroutine is in, innermost first
  sv : VPh
  svTodo : List SAcc
  rd : DPh
  rdTodo : List SAcc
  q : List (Nat × Bool)                       -- readFrameCh: number of the value, whether it has a readMore
  sent : Nat
  gate : Bool                                 -- the gate has been opened
  hn : Nat                                    -- handlers started
  us : List Nat                               -- other goroutines that have the connection
  wild : Bool                                 -- ReaderConfig was called other than by a blocking handler or by the reader itself

def SMSt.live (s : SMSt) : SG → Bool
  | .serve => true
  | .reader => s.rd != .off
  | .handler k => k < s.hn
  | .other i => s.us.contains i

/-- The goroutine is at a place where it may call: `serve` in a blocking handler and in its deferred function, the reader while it treats a
frame and in its `Close`, the others (bodies of handlers) at any time; or in a call that calls. -/
def SMSt.mayCall (s : SMSt) (g : SG) : Bool :=
  match s.stk g with
  | f :: _ => f.ph.calls
  | [] => match g with
    | .serve => (s.sv == .blk || s.sv == .exit) && s.svTodo.isEmpty
    | .reader => s.rd == .proc || s.rd == .fin
    | g => s.live g

inductive SMAct where
  | sAcc | rAcc                               -- the next access of serve, of the reader
  | sMv (to : VPh) | rMv (to : DPh)
  | send (blocking : Bool) | recv             -- readFrameCh
  | acc (g : SG) | skip (g : SG) | mv (g : SG) (k : Nat)      -- the next access of the innermost call; it takes the k-th branch
  | call (g : SG) (p : KPh) | ret (g : SG)
  | find (i : Nat)                            -- server.go:589-594: a goroutine gets the connection from WalkConn
  | share (g : SG) (j : Nat)                  -- and from another (by whatever synchronisation; also through srv.id2Conn)
deriving DecidableEq, Repr

def SMSt.emit (s : SMSt) (g : SG) (op : MemOp SG SO SX) (line : Nat) : SMSt := { s with tr := s.tr ++ [⟨g, op, line⟩] }
def SMSt.access (s : SMSt) (g : SG) (a : SAcc) : SMSt := s.emit g (.acc a.x a.w a.a) a.line

def setStk (f : SG → List SFr) (g : SG) (l : List SFr) : SG → List SFr := fun g' => if g' = g then l else f g'

def SMSt.put (s : SMSt) (g : SG) (l : List SFr) : SMSt := { s with stk := setStk s.stk g l }

def SMSt.sync (s : SMSt) (g : SG) : KSync → Option SMSt
  | .none => some s
  | .lock l => if s.mu = none ∧ s.rl = [] then some { (s.emit g (.acq .muW) l).emit g (.acq .muR) l with mu := some g } else none
  | .unlock l => some { s.emit g (.rel .muW) l with mu := none }
  | .rlock l => if s.mu = none then some { s.emit g (.acq .muW) l with rl := g :: s.rl } else none
  | .runlock l => some { s.emit g (.rel .muR) l with rl := s.rl.erase g }
  | .take l => if s.tok = .free then some { s.emit g (.acq .tok) l with tok := .held g } else none
  | .give l => some { s.emit g (.rel .tok) l with tok := .free }
  | .lose => some { s with tok := .lost }

def svMove (s : SMSt) (to : VPh) : Option SMSt :=
  match s.sv, to with
  | .setup, .loop =>                                                                          -- 178
    some { s.emit .serve (.go .reader) 178 with sv := .loop, svTodo := VPh.loop.block, rd := .rd, rdTodo := DPh.rd.block }
  | .loop, .exit => some { s with sv := .exit, svTodo := [] }                                 -- 196
  | .blk, .loop => some { s.emit .serve (.rel .gate) 205 with sv := .loop, svTodo := [], gate := true }
  | _, _ => none

def SMSt.rTo (s : SMSt) (p : DPh) : SMSt := { s with rd := p, rdTodo := p.block }

def rdMove (s : SMSt) (to : DPh) : Option SMSt :=
  match s.rd, to with
  | .rd, .proc => some (s.rTo .proc)
  | .rd, .fin => some (s.rTo .fin)                                                            -- 377
  | .proc, .rd => some (s.rTo .rd)                                                            -- 391, 407
  | .proc, .fin => some (s.rTo .fin)
  | .proc, .rend => some (s.rTo .rend)                                                        -- 417, 428
  | .gate, .rd => if s.gate then some ({ s.emit .reader (.acq .gate) 433 with gate := false }.rTo .rd) else none
  | .gate, .rend => some (s.rTo .rend)                                                        -- 434
  | .fin, .fin2 => some (s.rTo .fin2)
  | .fin2, .rend => some (s.rTo .rend)
  | .rend, .ended => some (s.rTo .ended)
  | _, _ => none

def smStep (s : SMSt) : SMAct → Option SMSt
  | .sAcc => match s.svTodo with
    | a :: r => some { s.access .serve a with svTodo := r }
    | [] => none
  | .rAcc => match s.rdTodo with
    | a :: r => some { s.access .reader a with rdTodo := r }
    | [] => none
  | .sMv p => if s.svTodo = [] ∧ s.stk .serve = [] then svMove s p else none
  | .rMv p => if s.rdTodo = [] ∧ s.stk .reader = [] then rdMove s p else none
  | .send b => if s.rd = .proc ∧ s.stk .reader = [] then                                      -- 416, 427
      some ({ s.emit .reader (.rel (.rfc s.sent)) 427 with q := s.q ++ [(s.sent, b)], sent := s.sent + 1 }.rTo (if b then .gate else .rd))
    else none
  | .recv => if s.sv = .loop then match s.q with                                              -- 198
      | (n, true) :: r => some { s.emit .serve (.acq (.rfc n)) 198 with q := r, sv := .blk, svTodo := VPh.blk.block }
      | (n, false) :: r =>
        some { (s.emit .serve (.acq (.rfc n)) 198).emit .serve (.go (.handler s.hn)) 213 with q := r, hn := s.hn + 1 }
      | [] => none
    else none
  | .acc g => match s.stk g with
    | ⟨p, a :: r⟩ :: fs => some ((s.access g a).put g (⟨p, r⟩ :: fs))
    | _ => none
  | .skip g => match s.stk g with
    | ⟨.w7, _ :: r⟩ :: fs => some (s.put g (⟨.w7, r⟩ :: fs))
    | _ => none
  | .mv g k => match s.stk g with
    | ⟨p, []⟩ :: fs => match p.next[k]? with
      | some (y, p') => (s.sync g y).map fun s' => s'.put g (⟨p', p'.block⟩ :: fs)
      | none => none
    | _ => none
  | .call g p => if s.mayCall g ∧ p.entry then
      some { s.put g (⟨p, p.block⟩ :: s.stk g) with
        wild := s.wild || (p == .rcfg && !(g == .reader || (g == .serve && s.sv == .blk))) }
    else none
  | .ret g => match s.stk g with
    | ⟨.done, _⟩ :: fs => some (s.put g fs)
    | _ => none
  | .find i => if s.us.contains i then none else some { s.emit (.other i) (.acq .map) 590 with us := i :: s.us }
  | .share g j => if s.mayCall g ∧ !s.us.contains j then some { s.emit g (.go (.other j)) 0 with us := j :: s.us } else none

/-- `newConn` (server.go:421-444), by the goroutine that then runs `serve`. -/
def smInit : List SMEv :=
  [⟨.serve, .acc .reader true false, 422⟩, ⟨.serve, .acc .writer true false, 422⟩, ⟨.serve, .acc .inflight true false, 422⟩,
   ⟨.serve, .acc .cached true false, 430⟩, ⟨.serve, .acc .closed true false, 435⟩, ⟨.serve, .acc .id true false, 435⟩,
   ⟨.serve, .acc .closeNotify true false, 435⟩, ⟨.serve, .acc .respes true false, 435⟩, ⟨.serve, .rel .map, 441⟩]

def SMSt.init : SMSt :=
  { tr := smInit, mu := none, rl := [], tok := .free, stk := fun _ => [], sv := .setup, svTodo := VPh.setup.block, rd := .off, rdTodo := [],
    q := [], sent := 0, gate := false, hn := 0, us := [], wild := false }

def smRun (acts : List SMAct) : Option SMSt := runActs smStep SMSt.init acts

end Qrpc
