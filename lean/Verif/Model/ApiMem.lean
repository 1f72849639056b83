import Verif.Model.Mem
import Verif.Model.ChannelMem
/-!
# api.go: who accesses the fields of an API, its connections and the results of CallAll, and when

`NewAPI` (30-63) sets `endpoints`, `weights`, `idxMap`, `totalWeight` and `conf` (`fix`) and makes connections; Call, CallOne, CallAll and Close read
them, make further connections (156, 209), find connections in `conns` and `activeConns` (136, 153, 189, 221, 261), use them, and read and
set `closed`. `CallAll` (97-115) starts a goroutine per endpoint, which puts its result into one map with a lock held.

The model records every access to the fixed fields, to `closed`, to what NewConnection sets up in a connection (`conn c`; what the connection does
with its fields later is `C117`), and to the map of a CallAll (`res r`), with the synchronising operations (Model/Mem.lean). A goroutine may do what
the code does in any order and number: look at the fixed fields, make a connection, store it, load any connection that was ever
stored, use any connection it has made and stored or loaded. The code does this in particular orders, with `mu` held or not; so the model has
more executions. Left out are hence `mu`, deletions, and which connection belongs to which endpoint.

The API is made by goroutine 0 and gets to others by means of their own: `hand g k` stands for anything that releases, `take g k` for anything that
acquires what was released there. The owner of the map returned by CallAll may read and write it.
-/
namespace Qrpc

inductive AmX where
  | fix | closed | conn (c : Nat) | res (r : Nat)
deriving DecidableEq, Repr

inductive AmO where
  | hand (k : Nat) | ent (c : Nat) | mu (r : Nat) | wg (r : Nat)
deriving DecidableEq, Repr

abbrev AmEv := MemEv Nat AmO AmX

/-- How far a goroutine of CallAll is: before the lock, with it, with the result put, without it again, done. -/
inductive AmJob where
  | run | locked | put | unlocked | done
deriving DecidableEq, Repr

structure AmSt where
  tr : List AmEv
  us : List Nat                      -- the goroutines that have the API
  handed : Nat → Bool
  nc : Nat                           -- connections made
  mine : Nat → Option Nat            -- the connection a goroutine has made and not stored yet
  stored : Nat → Bool
  has : Nat → Nat → Bool
  nr : Nat                           -- calls of CallAll
  own : Nat → Nat
  kids : Nat → List Nat              -- the goroutines started
  ret : Nat → Bool                   -- it has returned
  lock : Nat → Option Nat
  job : Nat → Option (Nat × AmJob)

inductive AmAct where
  | hand (g k : Nat) | take (g k : Nat)
  | look (g : Nat) | chk (g : Nat) | shut (g : Nat)
  | dial (g : Nat) | store (g : Nat) | load (g c : Nat) | use (g c : Nat)
  | all (g : Nat) | spawn (g r j : Nat) | lock (j : Nat) | put (j : Nat) | unlock (j : Nat) | fin (j : Nat) | wait (g r : Nat)
  | touch (g r : Nat) (w : Bool)
deriving DecidableEq, Repr

def AmSt.ev (s : AmSt) (g : Nat) (op : MemOp Nat AmO AmX) (line : Nat) : List AmEv := s.tr ++ [⟨g, op, line⟩]

def amStep (s : AmSt) : AmAct → Option AmSt
  | .hand g k => if g ∈ s.us then some { s with tr := s.ev g (.rel (.hand k)) 0, handed := setC s.handed k true } else none
  | .take g k => if s.handed k then some { s with tr := s.ev g (.acq (.hand k)) 0, us := g :: s.us } else none
  -- 82, 103, 108, 127, 209, 239, 241
  | .look g => if g ∈ s.us then some { s with tr := s.ev g (.acc .fix false false) 82 } else none
  -- 206
  | .chk g => if g ∈ s.us then some { s with tr := s.ev g (.acc .closed false true) 206 } else none
  -- 253
  | .shut g => if g ∈ s.us then some { s with tr := s.ev g (.acc .closed true true) 253 } else none
  -- 52, 209
  | .dial g => if g ∈ s.us ∧ s.mine g = none then
      some { s with tr := s.ev g (.acc (.conn s.nc) true false) 209, nc := s.nc + 1, mine := setC s.mine g (some s.nc) } else none
  -- 57-58, 201-202
  | .store g => match s.mine g with
    | some c => some { s with tr := s.ev g (.rel (.ent c)) 201, mine := setC s.mine g none, stored := setC s.stored c true,
                              has := setC s.has g (setC (s.has g) c true) }
    | none => none
  -- 136, 153, 189, 221, 261
  | .load g c => if g ∈ s.us ∧ s.stored c = true then
      some { s with tr := s.ev g (.acq (.ent c)) 136, has := setC s.has g (setC (s.has g) c true) } else none
  -- 142, 163, 174, 185, 223, 262
  | .use g c => if s.has g c = true then some { s with tr := s.ev g (.acc (.conn c) false false) 142 } else none
  -- 99
  | .all g => if g ∈ s.us then some { s with tr := s.ev g (.acc (.res s.nr) true false) 99, nr := s.nr + 1, own := setC s.own s.nr g } else none
  -- 105
  | .spawn g r j => if g ∈ s.us ∧ r < s.nr ∧ s.own r = g ∧ s.ret r = false ∧ j ∉ s.us then
      some { s with tr := s.ev g (.go j) 105, us := j :: s.us, kids := setC s.kids r (j :: s.kids r), job := setC s.job j (some (r, .run)) } else none
  -- 107
  | .lock j => match s.job j with
    | some (r, .run) => if s.lock r = none then
        some { s with tr := s.ev j (.acq (.mu r)) 107, lock := setC s.lock r (some j), job := setC s.job j (some (r, .locked)) } else none
    | _ => none
  -- 108
  | .put j => match s.job j with
    | some (r, .locked) => some { s with tr := s.ev j (.acc (.res r) true false) 108, job := setC s.job j (some (r, .put)) }
    | _ => none
  -- 109
  | .unlock j => match s.job j with
    | some (r, .put) => some { s with tr := s.ev j (.rel (.mu r)) 109, lock := setC s.lock r none, job := setC s.job j (some (r, .unlocked)) }
    | _ => none
  -- 110: util.GoFunc's deferred wg.Done
  | .fin j => match s.job j with
    | some (r, .unlocked) => some { s with tr := s.ev j (.rel (.wg r)) 110, job := setC s.job j (some (r, .done)) }
    | _ => none
  -- 112
  | .wait g r => if g ∈ s.us ∧ r < s.nr ∧ s.own r = g ∧ s.ret r = false ∧ ∀ j ∈ s.kids r, s.job j = some (r, .done) then
      some { s with tr := s.ev g (.acq (.wg r)) 112, ret := setC s.ret r true } else none
  -- the caller of CallAll
  | .touch g r w => if r < s.nr ∧ s.own r = g ∧ s.ret r = true then some { s with tr := s.ev g (.acc (.res r) w false) 0 } else none

/-- The API is made (48, 60). -/
def AmSt.init : AmSt :=
  { tr := [⟨0, .acc .fix true false, 48⟩, ⟨0, .acc .closed true false, 48⟩], us := [0], handed := fun _ => false, nc := 0, mine := fun _ => none,
    stored := fun _ => false, has := fun _ _ => false, nr := 0, own := fun _ => 0, kids := fun _ => [], ret := fun _ => false, lock := fun _ => none,
    job := fun _ => none }

abbrev amRun (acts : List AmAct) : Option AmSt := runActs amStep AmSt.init acts

end Qrpc
