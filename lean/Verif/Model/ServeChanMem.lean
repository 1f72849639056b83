import Verif.Model.Mem
import Verif.Model.ChannelMem
/-!
# channel/servetransport.go: a handler's Sender and Receiver, used by any number of goroutines

`ServeQRPC` (42-46) makes a `serveSender` and a `serveReceiver` and gives them to the handler, here goroutine 0. The goroutines that have them call `Send`
(48-63), `End` (65-68) and `Receive` (70-93). The model records every access to the fields of both (`fld`: `w` and `frame`, set once; `flag`:
`hasReceivedFirstFrame`), and to the frame writer that all calls of `Send` and `End` share (`buf`), and which frame each `Receive` returns: 0 is
the request's frame, 1, 2, … those that come in on its stream.

The goroutines may synchronise by means of their own (a mutex, a channel): `hand g k` stands for anything that releases, `take g k` for anything that
acquires what was released there.

Ghost: of the calls of each sort (`false`: Send and End, which use the writer; `true`: Receive), `n` have returned, and `g` has learnt of the first
`seen g`: they happened before whatever it does next.

Not modelled: Marshal and Unmarshal (`C98`); what EndWrite does with the bytes (`C118`); frames' contents (`C137`).
-/
namespace Qrpc

inductive XsX where
  | fld | buf | flag
deriving DecidableEq, Repr

abbrev XsO := Nat          -- the objects by which the goroutines synchronise
abbrev XsEv := MemEv Nat XsO XsX

inductive XsPc where
  | idle
  | s1 | s2 | s3 | s4              -- Send
  | e1 | e2                        -- End
  | r1 | r2 | r3 | r4 | r5 (f : Nat)    -- Receive; r5: it has frame f
deriving DecidableEq, Repr

def XsPc.acc : XsPc → Option (XsX × Bool × Nat)
  | .s1 => some (.fld, false, 59)
  | .s2 => some (.buf, true, 59)
  | .s3 => some (.buf, true, 60)
  | .s4 => some (.buf, true, 61)
  | .e1 => some (.fld, false, 66)
  | .e2 => some (.buf, true, 66)
  | .r1 => some (.fld, false, 71)
  | .r2 => some (.flag, false, 73)
  | .r3 => some (.fld, false, 78)
  | .r4 => some (.flag, true, 85)
  | .idle | .r5 _ => none

/-- Which sort of call. -/
def XsPc.sort : XsPc → Option Bool
  | .idle => none
  | .s1 | .s2 | .s3 | .s4 | .e1 | .e2 => some false
  | .r1 | .r2 | .r3 | .r4 | .r5 _ => some true

structure XsSt where
  tr : List XsEv
  pc : Nat → XsPc
  us : List Nat
  got1 : Bool                -- hasReceivedFirstFrame
  came : Nat                 -- frames that have come in on the stream
  taken : Nat                -- and that were received from FrameCh
  out : List Nat             -- the frames returned by Receive
  n : Bool → Nat
  seen : Bool → Nat → Nat
  handed : Bool → Nat → Nat

inductive XsAct where
  | send (g : Nat) | fin (g : Nat) | recv (g : Nat)
  | go (g : Nat) (b : Bool)          -- b: a frame is received (else the context's end, or the stream's)
  | come                             -- a frame comes in
  | share (g j : Nat) | hand (g k : Nat) | take (g k : Nat)
deriving DecidableEq, Repr

def XsSt.to (s : XsSt) (g : Nat) (p : XsPc) : XsSt := { s with pc := setC s.pc g p }

/-- A call of the sort returns. -/
def XsSt.ret (s : XsSt) (g : Nat) (k : Bool) : XsSt :=
  { s.to g .idle with
    n := fun k' => if k' = k then s.n k + 1 else s.n k'
    seen := fun k' => if k' = k then setC (s.seen k) g (s.n k + 1) else s.seen k' }

def XsSt.next (s : XsSt) (g : Nat) (b : Bool) : XsPc → Option XsSt
  | .idle => none
  | .s1 => s.to g .s2
  | .s2 => s.to g .s3
  | .s3 => s.to g .s4
  | .s4 => s.ret g false
  | .e1 => s.to g .e2
  | .e2 => s.ret g false
  | .r1 => s.to g .r2
  | .r2 => s.to g (if s.got1 then .r3 else .r4)
  | .r3 => if b then (if s.taken < s.came then some { s.to g (.r5 (s.taken + 1)) with taken := s.taken + 1 } else none) else s.ret g true
  | .r4 => some { s.to g (.r5 0) with got1 := true }
  | .r5 f => some { s.ret g true with out := s.out ++ [f] }

def XsPc.evs (g : Nat) (p : XsPc) : List XsEv := match p.acc with
  | some (x, w, l) => [⟨g, .acc x w false, l⟩]
  | none => []

def xsStep (s : XsSt) : XsAct → Option XsSt
  | .send g => if g ∈ s.us ∧ s.pc g = .idle then some (s.to g .s1) else none
  | .fin g => if g ∈ s.us ∧ s.pc g = .idle then some (s.to g .e1) else none
  | .recv g => if g ∈ s.us ∧ s.pc g = .idle then some (s.to g .r1) else none
  | .go g b => (s.next g b (s.pc g)).map fun s' => { s' with tr := s.tr ++ (s.pc g).evs g }
  | .come => some { s with came := s.came + 1 }
  | .share g j => if g ∈ s.us ∧ s.pc g = .idle ∧ j ∉ s.us then
      some { s with tr := s.tr ++ [⟨g, .go j, 0⟩], us := j :: s.us, seen := fun k => setC (s.seen k) j (s.seen k g) } else none
  | .hand g k => if g ∈ s.us ∧ s.pc g = .idle then
      some { s with tr := s.tr ++ [⟨g, .rel k, 0⟩], handed := fun κ => setC (s.handed κ) k (max (s.handed κ k) (s.seen κ g)) } else none
  | .take g k => if g ∈ s.us ∧ s.pc g = .idle then
      some { s with tr := s.tr ++ [⟨g, .acq k, 0⟩], seen := fun κ => setC (s.seen κ) g (max (s.seen κ g) (s.handed κ k)) } else none

/-- `ServeQRPC`, by goroutine 0 (43, 44). -/
def XsSt.init : XsSt :=
  { tr := [⟨0, .acc .fld true false, 43⟩, ⟨0, .acc .flag true false, 44⟩], pc := fun _ => .idle, us := [0], got1 := false, came := 0, taken := 0, out := [],
    n := fun _ => 0, seen := fun _ _ => 0, handed := fun _ _ => 0 }

abbrev xsRun (acts : List XsAct) : Option XsSt := runActs xsStep XsSt.init acts

namespace Spec

def xsBegins : XsAct → Option (Bool × Nat)
  | .send g | .fin g => some (false, g)
  | .recv g => some (true, g)
  | _ => none

/-- The calls of sort `k` are made one after the other: when one begins, all that began before have returned, and its goroutine has learnt of it. -/
def XsSerial (k : Bool) (acts : List XsAct) : Prop :=
  ∀ pre a post u g, acts = pre ++ a :: post → xsRun pre = some u → xsBegins a = some (k, g) →
    (∀ g', (u.pc g').sort ≠ some k) ∧ u.seen k g = u.n k

end Spec
end Qrpc
