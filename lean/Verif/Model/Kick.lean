import Verif.Model.ServeWrite
/-!
# server.go:450-512: kicking a connection while it is being written to

The write path of one connection (`Model/ServeWrite.lean`) together with the goroutine `kicker` that displaces it. The kicker
sets `untrack` (`IsClosed` is true from then on, serveconn.go:724-726), runs `OnKickCB(sc.GetWriter())`, which writes some
number of frames, and only then closes `untrackedCh` and runs `closeUntracked`, which sets `ci.closed` and cancels the context.

* Everybody else who calls `Close` waits for `untrackedCh` (serveconn.go:761-764); so does the reader before it leaves
  (367-370; its other ways out need a cancelled context). A goroutine whose write failed does not even try (594-597).
* If the connection is closed by somebody else first, the kicker waits and runs no callback: this is the model of
  `Model/Registry.lean`; here `closedElsewhere` only ends the story. The same holds for a shutdown of the server, which cancels
  the context from outside.
-/
namespace Qrpc

inductive KPhase where
  | open
  | callback (left : Nat)   -- OnKickCB runs and is going to write `left` more frames
  | done                    -- untrackedCh closed
  | closedElsewhere
deriving DecidableEq, Repr

structure KSt where
  g : GSt
  phase : KPhase

inductive KAct where
  | g (a : GAct)
  | kick (m : Nat)          -- untrack succeeds with kicked = true; OnKickCB starts
  | cbCall (f : SFrame)     -- OnKickCB writes a frame
  | cbRet                   -- OnKickCB returns; untrackedCh is closed
  | otherClose              -- untrack succeeds with kicked = false

def kStep (cap kicker : Nat) (s : KSt) : KAct → Option KSt
  | .kick m => match s.phase with
    | .open => (gStep cap s.g .close).map fun g => ⟨g, .callback m⟩
    | _ => none
  | .otherClose => match s.phase with
    | .open => (gStep cap s.g .close).map fun g => ⟨g, .closedElsewhere⟩
    | _ => none
  | .cbCall f => match s.phase with
    | .callback (m + 1) => (gStep cap s.g (.call kicker f)).map fun g => ⟨g, .callback m⟩
    | _ => none
  | .cbRet => match s.phase with
    | .callback 0 => if s.g.pc kicker = .idle then some ⟨s.g, .done⟩ else none
    | _ => none
  | .g a => match a with
    | .close => none
    | .call i f => if i = kicker then none else (gStep cap s.g (.call i f)).map fun g => ⟨g, s.phase⟩
    | .connClose | .cancel | .readerQuit =>
      if s.phase = .done ∨ s.phase = .closedElsewhere then (gStep cap s.g a).map fun g => ⟨g, s.phase⟩ else none
    | a => (gStep cap s.g a).map fun g => ⟨g, s.phase⟩

def KSt.init : KSt := ⟨GSt.init, .open⟩

def kRun (cap kicker : Nat) (acts : List KAct) : Option KSt := runActs (kStep cap kicker) KSt.init acts

end Qrpc
