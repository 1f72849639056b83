import Verif.Model.Mem
/-!
# stream.go, frame.go: who accesses the fields of streams and frames, and when

One ConnStreams (stream.go:14-18): the reader, goroutine 0, reads frames and gives them to streams (framereader.go:40-77); any number of goroutines write frames
(serveconn.go:636-668, clientconn.go:613-646, 666-688) or release all streams (stream.go:63-72); any number of goroutines get frames, by a go statement, from the
channel of a response or of a stream, or from each other, and use them (frame.go). The model records each access to a field of a Stream or of a Frame with the
synchronising operations (Model/Mem.lean): a sync.Map makes what was done before storing a stream (51) visible to whoever loads it (28, 51, 64-71), a
channel what was done before a frame was sent to whoever receives it.

Fields that only newStream (89-94) sets (ID, frameCh, ctx, cancelFunc, fullCloseCh, closeNotify) are one variable, `fixed`; allocating a stream sets all its fields.
Of the methods the model has the accesses, in any order and number (`YmM.accs`; more executions than the code has). A key is a request id with one of the two
maps. Not modelled: `stash`, which the library does not use (frame.go:62-69); what the atomic fields hold (C12-C15); waiting (72, 136).
-/
namespace Qrpc

inductive YmF where
  | fixed | binded | self | peer | full
deriving DecidableEq, Repr

inductive YmX where
  | str (r : Nat) (x : YmF)
  | frame (f : Nat)         -- RequestID, Flags, Cmd, Payload
  | fstream (f : Nat)       -- Stream
deriving DecidableEq, Repr

inductive YmO where
  | entry (r : Nat)         -- the entry of a sync.Map that holds stream r
  | frame (f : Nat)         -- handing over frame f
deriving DecidableEq, Repr

abbrev YmEv := MemEv Nat YmO YmX

/-- Methods of Stream. -/
inductive YmM where
  | closePeer | addIn | addOut | resetByPeer | release
deriving DecidableEq, Repr

/-- An access: field, whether it writes, whether it is atomic, line in stream.go. -/
abbrev YmAcc := YmF × Bool × Bool × Nat

/-- stream.go:207-223. -/
def ymAfterDone : List YmAcc := [(.full, true, true, 209), (.fixed, false, false, 221), (.fixed, false, false, 213), (.fixed, false, false, 214)]

def YmM.accs : YmM → List YmAcc
  | .closePeer => [(.self, true, true, 147), (.peer, true, true, 153), (.fixed, false, false, 154), (.self, false, true, 155)] ++ ymAfterDone
  | .addIn => [(.peer, false, true, 132), (.fixed, false, false, 137), (.fixed, false, false, 140), (.fixed, false, false, 123)]
  | .addOut => [(.self, true, true, 171), (.peer, false, true, 173), (.self, false, true, 182), (.self, true, true, 190), (.peer, false, true, 191)] ++ ymAfterDone
  | .resetByPeer => [(.peer, true, true, 199), (.fixed, false, false, 201), (.fixed, false, false, 221)]
  | .release => [(.peer, true, true, 199), (.fixed, false, false, 201), (.fixed, false, false, 221)] ++ ymAfterDone

inductive YmPc where
  | idle
  | gotF (f : Nat) (rst : Bool)                   -- framereader.go:42-48
  | new (f : Option Nat) (k r : Nat)              -- stream.go:47, before 51; f: the frame, in the reader
  | bind (f r : Nat)                              -- framereader.go:67
  | bind2 (f r : Nat)                             -- stream.go:113
  | inF (f r : Nat)                               -- framereader.go:70
  | sent (f r : Nat)                              -- stream.go:138
  | ret (f : Nat)                                 -- framereader.go:68
  | out (r : Nat) (m : YmM)
deriving DecidableEq, Repr

/-- The stream used there, and the method it is in. -/
def YmPc.str : YmPc → Option Nat
  | .new _ _ r | .bind _ r | .bind2 _ r | .inF _ r | .sent _ r | .out r _ => some r
  | .idle | .gotF _ _ | .ret _ => none

def YmPc.meth : YmPc → Option (Nat × YmM)
  | .bind2 _ r | .sent _ r => some (r, .closePeer)
  | .inF _ r => some (r, .addIn)
  | .out r m => some (r, m)
  | _ => none

/-- The frame the reader has and nobody else. -/
def YmPc.frm : YmPc → Option Nat
  | .gotF f _ | .new (some f) _ _ | .bind f _ | .bind2 f _ | .inF f _ | .ret f => some f
  | .idle | .new none _ _ | .sent _ _ | .out _ _ => none

structure YmSt where
  tr : List YmEv
  pc : Nat → YmPc
  tbl : Nat → Option Nat         -- the stream stored for a key
  key : Nat → Nat                -- of a stream
  bound : Nat → Bool             -- binded
  ns : Nat                       -- streams made
  nf : Nat                       -- frames made
  fkey : Nat → Nat               -- of a frame
  strOf : Nat → Option Nat       -- Frame.Stream
  given : Nat → Option Bool      -- ghost: handed over; some true: as the result of ReadFrame, some false: by the channel of a stream
  has : Nat → Nat → Bool         -- g has frame f

inductive YmAct where
  | read (k : Nat) (rst : Bool) | rstLoad
  | make (g k : Nat) | store (g : Nat) | load (g k : Nat) (m : YmM)
  | tryBind | setStream | send | drop | hand
  | acc (g i : Nat) | del (g : Nat) | fin (g : Nat)
  | take (g f : Nat) | share (g f : Nat) | use (g f : Nat)
deriving DecidableEq, Repr

def ymSet {α : Type} (h : Nat → α) (g : Nat) (x : α) : Nat → α := fun g' => if g' = g then x else h g'

def YmSt.emit (s : YmSt) (l : List YmEv) : YmSt := { s with tr := s.tr ++ l }

def YmSt.to (s : YmSt) (g : Nat) (p : YmPc) : YmSt := { s with pc := ymSet s.pc g p }

def YmSt.gets (s : YmSt) (g f : Nat) : Nat → Nat → Bool := fun g' f' => if g' = g ∧ f' = f then true else s.has g' f'

/-- stream.go:91: all fields are set. -/
def ymNew (g r : Nat) : List YmEv :=
  [⟨g, .acc (.str r .fixed) true false, 91⟩, ⟨g, .acc (.str r .binded) true false, 91⟩, ⟨g, .acc (.str r .self) true false, 91⟩,
   ⟨g, .acc (.str r .peer) true false, 91⟩, ⟨g, .acc (.str r .full) true false, 91⟩]

/-- What a method of Frame or RequestFrame reads (frame.go:19-46, 51-124), and IsSelfClosed (stream.go:99) by serveconn.go:267-268, clientconn.go:557-558. -/
def YmSt.uses (s : YmSt) (g f : Nat) : List YmEv :=
  [⟨g, .acc (.frame f) false false, 39⟩, ⟨g, .acc (.fstream f) false false, 20⟩] ++ match s.strOf f with
  | some r => [⟨g, .acc (.str r .fixed) false false, 20⟩, ⟨g, .acc (.str r .self) false true, 99⟩]
  | none => []           -- a nil pointer: the methods panic

def ymStep (s : YmSt) : YmAct → Option YmSt
  -- framereader.go:42-48, 106-123
  | .read k rst => if s.pc 0 = .idle then
      some { (s.emit [⟨0, .acc (.frame s.nf) true false, 106⟩, ⟨0, .acc (.fstream s.nf) true false, 106⟩]).to 0 (.gotF s.nf rst)
             with nf := s.nf + 1, fkey := ymSet s.fkey s.nf k } else none
  -- 53-60
  | .rstLoad => match s.pc 0 with
    | .gotF f true => match s.tbl (s.fkey f) with
      | some r => some ((s.emit [⟨0, .acq (.entry r), 55⟩]).to 0 (.out r .resetByPeer))
      | none => some (s.to 0 .idle)
    | _ => none
  -- stream.go:47, by the reader (framereader.go:62) or by a writer
  | .make g k => match s.pc g with
    | .gotF f false => if k = s.fkey f then
        some { (s.emit (ymNew g s.ns)).to g (.new (some f) k s.ns) with ns := s.ns + 1, key := ymSet s.key s.ns k } else none
    | .idle => some { (s.emit (ymNew g s.ns)).to g (.new none k s.ns) with ns := s.ns + 1, key := ymSet s.key s.ns k }
    | _ => none
  -- 51-57
  | .store g => match s.pc g with
    | .new fo k r => match s.tbl k with
      | some r' => some ((s.emit [⟨g, .acc (.str r .fixed) false false, 221⟩, ⟨g, .acq (.entry r'), 51⟩]).to g
          (match fo with | some f => .bind f r' | none => .out r' .addOut))
      | none => some { (s.emit [⟨g, .rel (.entry r), 51⟩]).to g (match fo with | some f => .bind f r | none => .out r .addOut) with tbl := ymSet s.tbl k (some r) }
    | _ => none
  -- 28, and Range in Release (64, 68)
  | .load g k m => match s.pc g, s.tbl k with
    | .idle, some r => if m = .addOut ∨ m = .release then some ((s.emit [⟨g, .acq (.entry r), 28⟩]).to g (.out r m)) else none
    | _, _ => none
  -- 106-112
  | .tryBind => match s.pc 0 with
    | .bind f r =>
      if s.bound r then some ((s.emit [⟨0, .acc (.str r .binded) false false, 108⟩]).to 0 (.inF f r))
      else some { (s.emit [⟨0, .acc (.str r .binded) false false, 108⟩, ⟨0, .acc (.str r .binded) true false, 111⟩]).to 0 (.bind2 f r)
                  with bound := ymSet s.bound r true }
    | _ => none
  -- 115
  | .setStream => match s.pc 0 with
    | .bind2 f r => some { (s.emit [⟨0, .acc (.fstream f) true false, 115⟩]).to 0 (.ret f) with strOf := ymSet s.strOf f (some r) }
    | _ => none
  -- 137, and the flags are looked at again (138)
  | .send => match s.pc 0 with
    | .inF f r => some { (s.emit [⟨0, .rel (.frame f), 137⟩, ⟨0, .acc (.frame f) false false, 138⟩]).to 0 (.sent f r) with given := ymSet s.given f (some false) }
    | _ => none
  -- 133, 141; framereader.go:71-73
  | .drop => match s.pc 0 with
    | .inF _ _ => some (s.to 0 .idle)
    | _ => none
  -- what readFrames does with the frame: the go statement, the channel of a response, or a call of the subscriber in the reader itself
  | .hand => match s.pc 0 with
    | .ret f => some { (s.emit [⟨0, .rel (.frame f), 416⟩]).to 0 .idle with given := ymSet s.given f (some true), has := s.gets 0 f }
    | _ => none
  | .acc g i => match (s.pc g).meth with
    | some (r, m) => match m.accs[i]? with
      | some (x, w, a, l) => some (s.emit [⟨g, .acc (.str r x) w a, l⟩])
      | none => none
    | none => none
  -- 213, 49
  | .del g => match (s.pc g).meth with
    | some (r, _) => some { s with tbl := ymSet s.tbl (s.key r) none }
    | none => none
  | .fin g => match s.pc g with
    | .out _ _ | .sent _ _ => some (s.to g .idle)
    | _ => none
  | .take g f => if s.given f = none then none else some { s.emit [⟨g, .acq (.frame f), 0⟩] with has := s.gets g f }
  | .share g f => if s.has g f then some (s.emit [⟨g, .rel (.frame f), 0⟩]) else none
  | .use g f => if s.has g f then some (s.emit (s.uses g f)) else none

def YmSt.init : YmSt := { tr := [], pc := fun _ => .idle, tbl := fun _ => none, key := fun _ => 0, bound := fun _ => false, ns := 0, nf := 0, fkey := fun _ => 0,
                          strOf := fun _ => none, given := fun _ => none, has := fun _ _ => false }

abbrev ymRun (acts : List YmAct) : Option YmSt := runActs ymStep YmSt.init acts

end Qrpc
