import Verif.Model.Api
/-! # Invariants of the API cache -/
namespace Qrpc

macro "astep_cases" hs:ident a:ident : tactic => `(tactic|
  (cases $a:ident <;>
   simp only [aStep, ASt.fail] at $hs:ident <;>
   (repeat' (split at $hs:ident)) <;>
   (try simp only [Option.some.injEq, reduceCtorEq] at $hs:ident) <;>
   (try contradiction) <;>
   (try subst $hs:ident)))

/-- Inside the mutex. -/
def APc.holds : APc → Bool
  | .del1 .. | .del2 .. | .delUn .. | .ncLoad .. | .ncCheck .. | .ncDial .. | .ncErr .. | .ncSt1 .. | .ncSt2 .. | .ncUn ..
  | .clRange | .clLoop _ | .clUn | .panicked => true
  | _ => false

/-- Knows that no connection is cached for this endpoint. -/
def APc.miss : APc → Option Nat
  | .ncCheck _ i | .ncDial _ i | .ncSt1 _ i _ => some i
  | _ => none

/-- A connection and its endpoint in a local variable. -/
def APc.ref : APc → Option (Nat × Nat)
  | .req _ i c _ | .cls _ i c _ | .delLock _ i c _ | .del1 _ i c _ | .del2 _ i c _ | .ncSt1 _ i c | .ncSt2 _ i c | .ncUn _ i c
  | .wait _ i c => some (i, c)
  | _ => none

/-- Has dialled the connection and not stored it in both maps. -/
def APc.fresh : APc → Option Nat
  | .ncSt1 _ _ c | .ncSt2 _ _ c => some c
  | _ => none

def APc.fresh1 : APc → Option Nat
  | .ncSt1 _ _ c => some c
  | _ => none

def APc.fresh2 : APc → Option (Nat × Nat)
  | .ncSt2 _ i c => some (i, c)
  | _ => none

def APc.dials : APc → Bool
  | .ncDial .. | .ncSt1 .. | .ncSt2 .. => true
  | _ => false

/-- Deletes a connection it has closed. -/
def APc.dels : APc → Option Nat
  | .delLock _ _ c _ | .del1 _ _ c _ | .del2 _ _ c _ => some c
  | _ => none

def APc.atDel2 : APc → Option (Nat × Nat)
  | .del2 _ i c _ => some (i, c)
  | _ => none

def APc.closing : APc → Bool
  | .clLock | .clRange | .clLoop _ | .clUn => true
  | _ => false

/-- Close: connections still to be closed. -/
def APc.loop : APc → Option (List Nat)
  | .clLoop l => some l
  | .clUn => some []
  | _ => none

/-- The mutex. -/
structure AInvM (s : ASt) : Prop where
  holds : ∀ i, (s.pc i).holds = true → s.mu = some i
  held : ∀ i, s.mu = some i → (s.pc i).holds = true ∧ s.owner = i

/-- Close. -/
structure AInvC (s : ASt) : Prop where
  dial : ∀ j, (s.pc j).dials = true → s.closed = true → s.pc s.closer = .clLock
  clo : ∀ j, (s.pc j).closing = true → s.closed = true ∧ s.closer = j ∧ s.done = false
  done : s.done = true → s.closed = true
  after : s.madeAfter = []

/-- The two maps. -/
structure AInvT (s : ASt) : Prop where
  nopan : ∀ i, s.pc i ≠ .panicked
  lt : ∀ c, s.made c = true → c < s.nextC
  conn : ∀ i c, s.conns i = some c → s.made c = true ∧ s.home c = i ∧ (s.active c = some i ∨ (s.pc s.owner).fresh2 = some (i, c))
  act : ∀ i c, s.active c = some i → s.made c = true ∧ s.home c = i ∧
    (s.conns i = some c ∨ s.conns i = none ∧ (s.pc s.owner).atDel2 = some (i, c))
  miss : ∀ j i, (s.pc j).miss = some i → s.conns i = none
  ref : ∀ j i c, (s.pc j).ref = some (i, c) → s.made c = true ∧ s.home c = i
  fr1 : ∀ j c, (s.pc j).fresh1 = some c → s.active c = none
  fr2 : ∀ j i c, (s.pc j).fresh2 = some (i, c) → s.active c = none ∧ s.conns i = some c
  d2 : ∀ j i c, (s.pc j).atDel2 = some (i, c) → s.conns i ≠ some c

/-- Which connections have been closed. -/
structure AInvG (s : ASt) : Prop where
  del : ∀ j c, (s.pc j).dels = some c → s.cClosed c = true
  gone : ∀ c, s.made c = true → s.active c = none → s.cClosed c = true ∨ (s.pc s.owner).fresh = some c
  loop : ∀ j l, (s.pc j).loop = some l → ∀ c, s.made c = true → s.cClosed c = true ∨ c ∈ l
  done : s.done = true → ∀ c, s.made c = true → s.cClosed c = true

end Qrpc
