import Verif.Model.Mem
import Verif.Model.ChannelMem
/-!
# ws/server/overlay.go, ws/server/conn.go: which goroutines use a WebSocket connection, and when

A `websocket.Conn` may be read by one goroutine at a time and written by one goroutine at a time (gorilla/websocket: "Connections support one
concurrent reader and one concurrent writer"; SetReadDeadline counts as reading, SetWriteDeadline as writing, Close may be called at any time), whereas a TCP or TLS
connection may be used by any number of goroutines. The `conn` around it (conn.go:14-17) adds `buffer`, which is used by Read only.

The model records, for each connection `c`, accesses to what is set up once and then read (`fix c`: the field `wc`, and what Close,
RemoteAddr and UnderlyingConn read), to the reading half (`rd c`: `buffer` and what ReadMessage and SetReadDeadline use) and to the writing half (`wr c`), and to the overlay
(`ovl`: the variable `o` of newOverlay, which the HTTP handler has captured, and its fields), with the synchronising operations (Model/Mem.lean).

## The server

Goroutine 0 makes the overlay; 1 is the one it starts at overlay.go:72. Deadlines, contents of messages, errors and closing are left out: each goroutine may do what it does
in the code any number of times. `spawn` stands for any go statement of one that has the listener or connections (the Accept loops, handlers);
`find` for WalkConn and whatever else hands out connections from `activeConn` (server.go:441, 590). The token is that of
`wlockCh`, which whoever calls `bytesWriter.writeBuffers` (serveconn.go:587) holds (467, 506), also if it does not give it back.
-/
namespace Qrpc

inductive WmX where
  | ovl | fix (c : Nat) | rd (c : Nat) | wr (c : Nat)
deriving DecidableEq, Repr

inductive WmO where
  | q (c : Nat)                        -- the place of `c` in acceptCh
  | map (c : Nat) | tok (c : Nat)
  | mu | wg | hand (k : Nat)           -- the client: conn.mu, conn.loopWG
deriving DecidableEq, Repr

abbrev WmEv := MemEv Nat WmO WmX

/-- Where a connection is: not made yet, with the HTTP handler's goroutine, in acceptCh, taken by the goroutine in Accept, wrapped. -/
inductive WmStg where
  | none | at (g : Nat) | queued | got (g : Nat) | acc (g : Nat) | dropped
deriving DecidableEq, Repr

inductive WmTok where
  | free | held (g : Nat) | lost
deriving DecidableEq, Repr

structure WmSt where
  tr : List WmEv
  up : Bool                          -- overlay.go:72 has been executed
  us : List Nat
  ls : Nat → Bool                    -- has the listener
  hd : Nat → Bool                    -- is an HTTP handler that has not upgraded yet
  nc : Nat
  stg : Nat → WmStg
  has : Nat → Nat → Bool
  map : Nat → Bool
  srv : Nat → Option Nat             -- the goroutine in serve
  rdr : Nat → Option Nat             -- the goroutine in readFrames
  tok : Nat → WmTok

inductive WmPart where
  | fix | rd | wr
deriving DecidableEq, Repr

def WmPart.of : WmPart → Nat → WmX
  | .fix, c => .fix c
  | .rd, c => .rd c
  | .wr, c => .wr c

inductive WmAct where
  | serveHTTP | request (g : Nat) | upgrade (g : Nat) | init (g c : Nat) (p : WmPart) | offer (g c : Nat) | drop (g c : Nat)
  | look (g : Nat) | spawn (g k : Nat) | accept (g c : Nat) | wrap (g c : Nat) | serve (g c h : Nat) | track (g c : Nat) | find (g c : Nat)
  | rdr (g c r : Nat) | read (g c : Nat) | take (g c : Nat) | write (g c : Nat) | give (g c : Nat) | lose (g c : Nat) | close (g c : Nat)
deriving DecidableEq, Repr

def WmSt.ev (s : WmSt) (g : Nat) (op : MemOp Nat WmO WmX) (line : Nat) : List WmEv := s.tr ++ [⟨g, op, line⟩]

def wmStep (s : WmSt) : WmAct → Option WmSt
  -- overlay.go:72
  | .serveHTTP => if s.up = false ∧ 1 ∉ s.us then some { s with tr := s.ev 0 (.go 1) 72, up := true, us := 1 :: s.us } else none
  -- net/http: a goroutine for each connection accepted by httpServer.Serve, which runs the handler
  | .request g => if s.up = true ∧ g ∉ s.us then some { s with tr := s.ev 1 (.go g) 73, us := g :: s.us, hd := setC s.hd g true } else none
  -- 48
  | .upgrade g => if s.hd g = true then
      some { s with tr := s.ev g (.acc (.fix s.nc) true false) 48, hd := setC s.hd g false, stg := setC s.stg s.nc (.at g), nc := s.nc + 1 } else none
  | .init g c p => if s.stg c = .at g then some { s with tr := s.ev g (.acc (p.of c) true false) 48 } else none
  -- 55
  | .offer g c => if s.stg c = .at g then some { s with tr := s.ev g (.rel (.q c)) 55, stg := setC s.stg c .queued } else none
  -- 56
  | .drop g c => if s.stg c = .at g then some { s with stg := setC s.stg c .dropped } else none
  -- 55, 56, 82, 85, 92, 93, 97
  | .look g => if g ∈ s.us then some { s with tr := s.ev g (.acc .ovl false false) 55 } else none
  | .spawn g k => if g ∈ s.us ∧ k ∉ s.us ∧ k ≠ 1 then
      some { s with tr := s.ev g (.go k) 0, us := k :: s.us, ls := setC s.ls k (s.ls g), has := setC s.has k (s.has g) } else none
  -- 82
  | .accept g c => if s.ls g = true ∧ s.stg c = .queued then some { s with tr := s.ev g (.acq (.q c)) 82, stg := setC s.stg c (.got g) } else none
  -- conn.go:21
  | .wrap g c => if s.stg c = .got g then
      some { s with tr := s.ev g (.acc (.fix c) true false) 21, stg := setC s.stg c (.acc g), has := setC s.has g (setC (s.has g) c true) } else none
  -- server.go:334
  | .serve g c h => if s.stg c = .acc g ∧ s.srv c = none ∧ h ∉ s.us ∧ h ≠ 1 then
      some { s with tr := s.ev g (.go h) 334, us := h :: s.us, srv := setC s.srv c (some h), has := setC s.has h (setC (s.has h) c true) } else none
  -- server.go:441
  | .track g c => if s.srv c = some g then some { s with tr := s.ev g (.rel (.map c)) 441, map := setC s.map c true } else none
  -- server.go:590
  | .find g c => if g ∈ s.us ∧ s.map c = true then
      some { s with tr := s.ev g (.acq (.map c)) 590, has := setC s.has g (setC (s.has g) c true) } else none
  -- serveconn.go:178
  | .rdr g c r => if s.srv c = some g ∧ s.rdr c = none ∧ r ∉ s.us ∧ r ≠ 1 then
      some { s with tr := s.ev g (.go r) 178, us := r :: s.us, rdr := setC s.rdr c (some r), has := setC s.has r (setC (s.has r) c true) } else none
  -- reader.go:96-97, conn.go:24-66, 92-94
  | .read g c => if s.rdr c = some g then some { s with tr := s.ev g (.acc (.rd c) true false) 96 } else none
  -- serveconn.go:467
  | .take g c => if s.has g c = true ∧ s.tok c = .free then some { s with tr := s.ev g (.acq (.tok c)) 467, tok := setC s.tok c (.held g) } else none
  -- writer.go:113-115, conn.go:67-69, 96-98
  | .write g c => if s.tok c = .held g then some { s with tr := s.ev g (.acc (.wr c) true false) 113 } else none
  -- serveconn.go:472, 506
  | .give g c => if s.tok c = .held g then some { s with tr := s.ev g (.rel (.tok c)) 506, tok := setC s.tok c .free } else none
  | .lose g c => if s.tok c = .held g then some { s with tok := setC s.tok c .lost } else none
  -- conn.go:70-82, 101-119
  | .close g c => if s.has g c = true then some { s with tr := s.ev g (.acc (.fix c) false false) 71 } else none

/-- overlay.go:63 -/
def WmSt.init : WmSt :=
  { tr := [⟨0, .acc .ovl true false, 63⟩], up := false, us := [0], ls := fun g => g == 0, hd := fun _ => false, nc := 0, stg := fun _ => .none,
    has := fun _ _ => false, map := fun _ => false, srv := fun _ => none, rdr := fun _ => none, tok := fun _ => .free }

abbrev wmRun (acts : List WmAct) : Option WmSt := runActs wmStep WmSt.init acts

/-!
## The client

clientconn.go: goroutine 0 makes the Connection, having dialled (`first`) or not (101-113, 161-175); 1 is the one in `loop` (212-249). `top` is before `connect`
(258-300). Each round, `loop` starts `readFrames`, which takes `conn.rwc` at 485, and `writeFrames`, which uses
`conn.loopBytesWriter` each time (746), and waits for both to end (240). Whoever has the Connection may close the current connection with `conn.mu` held (428-443; frame.go:89).
Goroutines get the Connection by means of their own (`hand`, `take`), or are started by one that has it (`spawn`).
-/
inductive WcPh where
  | top | dialing (c : Nat) | setting (c : Nat) | run (c : Nat)
deriving DecidableEq, Repr

structure WcSt where
  tr : List WmEv
  us : List Nat
  handed : Nat → Bool
  nc : Nat
  ph : WcPh
  rwc : Option Nat                   -- conn.rwc
  lbw : Nat                          -- the connection of conn.loopBytesWriter
  mu : Option (Nat × Bool)           -- who has locked conn.mu; true: in closeRWC
  rdr : Option Nat
  rc : Option Nat                    -- the connection of the frame reader
  rEnd : Bool
  wtr : Option Nat
  wEnd : Bool

inductive WcAct where
  | hand (g k : Nat) | take (g k : Nat) | spawn (g k : Nat)
  | keep | dial | init (p : WmPart) | setl | setu | reader (r : Nat) | rstart | read | rfin | writer (w : Nat) | write | wfin | wait
  | lock (g : Nat) | shut (g : Nat) | unlock (g : Nat)
deriving DecidableEq, Repr

def WcSt.ev (s : WcSt) (g : Nat) (op : MemOp Nat WmO WmX) (line : Nat) : List WmEv := s.tr ++ [⟨g, op, line⟩]

def wcStep (s : WcSt) : WcAct → Option WcSt
  | .hand g k => if g ∈ s.us then some { s with tr := s.ev g (.rel (.hand k)) 0, handed := setC s.handed k true } else none
  | .take g k => if s.handed k = true then some { s with tr := s.ev g (.acq (.hand k)) 0, us := g :: s.us } else none
  | .spawn g k => if g ∈ s.us ∧ k ∉ s.us then some { s with tr := s.ev g (.go k) 0, us := k :: s.us } else none
  -- 261
  | .keep => match s.ph, s.rwc with
    | .top, some c => some { s with ph := .run c }
    | _, _ => none
  -- 276; ws/client/conn.go:16-61
  | .dial => match s.ph, s.rwc with
    | .top, none => some { s with tr := s.ev 1 (.acc (.fix s.nc) true false) 276, ph := .dialing s.nc, nc := s.nc + 1 }
    | _, _ => none
  | .init p => match s.ph with
    | .dialing c => some { s with tr := s.ev 1 (.acc (p.of c) true false) 276 }
    | _ => none
  -- 285
  | .setl => match s.ph, s.mu with
    | .dialing c, none => some { s with tr := s.ev 1 (.acq .mu) 285, mu := some (1, false), ph := .setting c }
    | _, _ => none
  -- 286-290
  | .setu => match s.ph with
    | .setting c => some { s with tr := s.ev 1 (.rel .mu) 290, mu := none, rwc := some c, lbw := c, ph := .run c }
    | _ => none
  -- 221
  | .reader r => match s.ph, s.rdr with
    | .run _, none => if r ∉ s.us then some { s with tr := s.ev 1 (.go r) 221, us := r :: s.us, rdr := some r } else none
    | _, _ => none
  -- 482-485
  | .rstart => match s.rdr, s.rc, s.rwc with
    | some _, none, some c => if s.rEnd = false then some { s with rc := some c } else none
    | _, _, _ => none
  -- reader.go:96-97
  | .read => match s.rdr, s.rc with
    | some r, some c => if s.rEnd = false then some { s with tr := s.ev r (.acc (.rd c) true false) 96 } else none
    | _, _ => none
  -- 222: util.GoFunc's deferred wg.Done
  | .rfin => match s.rdr with
    | some r => if s.rEnd = false then some { s with tr := s.ev r (.rel .wg) 223, rEnd := true } else none
    | none => none
  -- 225
  | .writer w => match s.ph, s.wtr with
    | .run _, none => if w ∉ s.us then some { s with tr := s.ev 1 (.go w) 225, us := w :: s.us, wtr := some w } else none
    | _, _ => none
  -- 746; writer.go:113-115
  | .write => match s.wtr with
    | some w => if s.wEnd = false then some { s with tr := s.ev w (.acc (.wr s.lbw) true false) 746 } else none
    | none => none
  | .wfin => match s.wtr with
    | some w => if s.wEnd = false then some { s with tr := s.ev w (.rel .wg) 227, wEnd := true } else none
    | none => none
  -- 240, closeRWC having been called at 234
  | .wait => match s.ph, s.rwc, s.rdr, s.wtr with
    | .run _, none, some _, some _ => if s.rEnd = true ∧ s.wEnd = true then
        some { s with tr := s.ev 1 (.acq .wg) 240, ph := .top, rdr := none, rc := none, rEnd := false, wtr := none, wEnd := false } else none
    | _, _, _, _ => none
  -- 430
  | .lock g => match s.mu with
    | none => if g ∈ s.us then some { s with tr := s.ev g (.acq .mu) 430, mu := some (g, true) } else none
    | some _ => none
  -- 436-437
  | .shut g => match s.rwc with
    | some c => if s.mu = some (g, true) then some { s with tr := s.ev g (.acc (.fix c) false false) 436, rwc := none } else none
    | none => none
  -- 431
  | .unlock g => if s.mu = some (g, true) then some { s with tr := s.ev g (.rel .mu) 431, mu := none } else none

/-- 101-113, 165-175, 209 -/
def WcSt.init (first : Bool) : WcSt :=
  { tr := (if first then [⟨0, .acc (.fix 0) true false, 103⟩, ⟨0, .acc (.rd 0) true false, 103⟩, ⟨0, .acc (.wr 0) true false, 103⟩] else []) ++ [⟨0, .go 1, 209⟩],
    us := [1, 0], handed := fun _ => false, nc := if first then 1 else 0, ph := .top, rwc := if first then some 0 else none, lbw := 0, mu := none,
    rdr := none, rc := none, rEnd := false, wtr := none, wEnd := false }

abbrev wcRun (first : Bool) (acts : List WcAct) : Option WcSt := runActs wcStep (WcSt.init first) acts

end Qrpc
