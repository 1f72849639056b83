import Verif.Lemmas.ClientW
/-!
# A client connection and its peer

The client connection of `Model/Client.lean` together with what is at the other end of its transport connections: for every
transport connection (numbered as there) a server connection that reads the client's frames in order as soon as all their bytes
were taken by the transport (serveconn.go:322-442; that reading gives the frames written is C01), and writes frames of its own -
pushes, requests (even ids, serveconn.go:719-722), and answers, which bear the id of a frame read before on the same connection
(serveconn.go:200-219: the handler is given the frame and answers with `frame.RequestID`). Apart from that the
server is arbitrary: it answers when, in what order and how often it likes, or not at all. The frames of the server are read by
the client in the order of writing, any time later (or never).

On the client's side, users submit later frames of a stream only with the id of an earlier request (the `StreamWriter` is the
result of `StreamRequest`, clientconn.go:312-324), or as answers to the server's requests (even ids).
-/
namespace Qrpc

structure ESt where
  c : CSt
  srv : Nat → Nat                        -- number of frames read by the server on a transport connection
  down : Nat → List (InFrame × Nat)      -- frames the server wrote, with the number of frames it had read before
  read : Nat → Nat                       -- number of these frames read by the client

inductive EAct where
  | cl (a : CAct)             -- a step of the client that is not the receipt of a frame
  | sRead (g : Nat)
  | sSend (g : Nat) (f : InFrame)
  | recv                      -- the client's reader returns the next frame of its current transport connection

/-- Steps of the client's users that are possible with the API. -/
def CAct.proper (fs : List CFrame) : CAct → Bool
  | .rFrame _ => false
  | .send _ f => f.rid % 2 == 0 || fs.any fun f' => f'.resp && f'.rid == f.rid
  | _ => true

/-- What the server may write on a connection where it has read the frames `seen`. -/
def answers (fs : List CFrame) (seen : List Nat) (f : InFrame) : Bool :=
  f.push || f.rid % 2 == 0 || seen.any fun t => !(cframeOf fs t).push && (cframeOf fs t).rid == f.rid

def eStep (c : CConf) (e : ESt) : EAct → Option ESt
  | .cl a => if a.proper e.c.frames then (cStep c e.c a).map fun s => { e with c := s } else none
  | .sRead g =>
    if e.srv g < (e.c.outs g).length ∧ (cflat e.c.frames ((e.c.outs g).take (e.srv g + 1))).length ≤ (e.c.wires g).length then
      some { e with srv := setAt e.srv g (e.srv g + 1) }
    else none
  | .sSend g f =>
    if answers e.c.frames ((e.c.outs g).take (e.srv g)) f then
      some { e with down := setAt e.down g (e.down g ++ [(f, e.srv g)]) }
    else none
  | .recv => match (e.down e.c.gen)[e.read e.c.gen]? with
    | some p => (cStep c e.c (.rFrame p.1)).map fun s =>
        { e with c := s, read := setAt e.read e.c.gen (e.read e.c.gen + 1) }
    | none => none

def ESt.init (dialed : Bool) : ESt := ⟨CSt.init dialed, fun _ => 0, fun _ => [], fun _ => 0⟩

def eRun (c : CConf) (dialed : Bool) (acts : List EAct) : Option ESt := runActs (eStep c) (ESt.init dialed) acts

end Qrpc
