import Verif.Model.Client
/-!
# serveconn.go: requests started by the server, and their responses

The response table of a server connection (`ConnectionInfo.respes`): the goroutine that holds the write lock enters the
response objects of its batch (serveconn.go:550-582), the reader takes them out and delivers (393-412), and any number of goroutines
close the connection (769-795). Every critical section of `ci` is one step, and so is every operation on a response object.

* A request is numbered when its id is drawn (734, 719-722); its response object has the same number. The order in which requests
  enter batches is chosen by the environment, each enters at most one (how batches form is `Model/ServeWrite.lean`).
* A nil map and an empty one behave alike in all uses, so `respes` is a list.

Simplified: frames that are not responses are only followed up to their dispatch as a request (`Model/ServeRead.lean`); the check
of `IsClosed` (730) is left out, which only adds behaviours; `range respes` visits the objects in the order of entering.
-/
namespace Qrpc

/-- serveconn.go:719-722 `nextRequestID`. -/
def serverRid (g : Nat) : UInt64 := UInt64.ofNat (2 * g)


inductive VRd where
  | read                             -- 364
  | lookup (f : InFrame)             -- 393-400, 409-411
  | deliver (t : Nat) (f : InFrame)  -- 401-407
deriving DecidableEq, Repr

inductive VCl where
  | idle
  | closing (ts : List Nat)          -- 787-789
deriving DecidableEq, Repr

structure VSt where
  ridGen : Nat
  reqs : List CFrame                 -- the first frames, by number
  taken : List Nat                   -- ghost: requests that were in a batch
  regd : List Nat                    -- ghost: requests whose response object was entered
  refused : List Nat                 -- ghost: requests told ErrConnAlreadyClosed or ErrNoNewUUID
  closed : Bool                      -- ci.closed
  respes : List (UInt64 × Nat)       -- ci.respes
  revs : Nat → List REv
  crash : Bool                       -- close of / send on a closed response channel
  rd : VRd
  passed : List InFrame              -- ghost: frames with an even id that went on to be dispatched as requests
  cl : Nat → VCl

def VSt.init : VSt :=
  { ridGen := 0, reqs := [], taken := [], regd := [], refused := [], closed := false, respes := [], revs := fun _ => [],
    crash := false, rd := .read, passed := [], cl := fun _ => .idle }

inductive VAct where
  | request (b : Bytes)              -- Request / StreamRequest
  | register (ts : List Nat)         -- writeBuffers of a batch with these requests
  | frame (f : InFrame)              -- ReadFrame returned
  | rGo
  | close (i : Nat)                  -- closeUntracked, first half
  | clGo (i : Nat)

def vStep (s : VSt) : VAct → Option VSt
  | .request b =>
    some { s with ridGen := s.ridGen + 1, reqs := s.reqs ++ [⟨serverRid (s.ridGen + 1), b, true, false, false, false⟩] }
  | .register ts =>
    if ts.Nodup ∧ ∀ t ∈ ts, t < s.reqs.length ∧ t ∉ s.taken then
      if s.closed then some { s with taken := s.taken ++ ts, refused := s.refused ++ ts }
      else some { s with
        taken := s.taken ++ ts
        respes := (registerAll s.reqs s.respes ts).1
        regd := s.regd ++ ts.filter fun t => !(registerAll s.reqs s.respes ts).2.contains t
        refused := s.refused ++ (registerAll s.reqs s.respes ts).2 }
    else none
  | .frame f => match s.rd with
    | .read => if f.push = false ∧ f.rid % 2 = 0 then some { s with rd := .lookup f } else some s
    | _ => none
  | .rGo => match s.rd with
    | .lookup f => match s.respes.find? (fun p => p.1 == f.rid) with
      | some p => some { s with respes := s.respes.filter (fun q => q.1 != f.rid), rd := .deliver p.2 f }
      | none => some { s with rd := .read, passed := s.passed ++ [f] }
    | .deliver t f =>
      some { s with rd := .read, crash := s.crash || !(s.revs t).isEmpty
                    revs := setAt s.revs t (s.revs t ++ [if f.rst then .closed else .frame f]) }
    | .read => none
  | .close i => match s.cl i with
    | .idle =>
      if s.closed then some s
      else some { s with closed := true, respes := [], cl := setAt s.cl i (.closing (s.respes.map Prod.snd)) }
    | _ => none
  | .clGo i => match s.cl i with
    | .closing [] => some { s with cl := setAt s.cl i .idle }
    | .closing (t :: ts) =>
      some { s with crash := s.crash || !(s.revs t).isEmpty
                    revs := setAt s.revs t (s.revs t ++ [.closed])
                    cl := setAt s.cl i (.closing ts) }
    | _ => none

def vRun (acts : List VAct) : Option VSt := runActs vStep VSt.init acts

end Qrpc
