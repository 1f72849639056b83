import Verif.Model.ServeResp
/-!
# A server connection that sends requests, and its client

The response table of `Model/ServeResp.lean` together with the client at the other end. The client reads requests of the server
once they were written, and they are written after their response objects were entered (serveconn.go:548-588: first `respes`, then
`bytesWriter.writeBuffers`; a request that was refused is not written, 559-564, 572-576). It writes frames of its own: pushes,
requests (odd ids, clientconn.go:346-349), and answers, which bear the id of a request read before (clientconn.go:523-528: the handler
is given the frame and answers with `frame.RequestID`). Apart from that the client is arbitrary: it reads requests in any order, and
answers when, in what order and how often it likes, or not at all. The frames of the client are read by the server in the order of
writing, any time later (or never).
-/
namespace Qrpc

structure USt where
  v : VSt
  got : List Nat                   -- the requests the client has read
  up : List (InFrame × Nat)        -- frames the client wrote, with the number of requests it had read before
  read : Nat                       -- number of these frames read by the server

inductive UAct where
  | srv (a : VAct)                 -- a step of the server that is not the receipt of a frame
  | cRead (t : Nat)
  | cSend (f : InFrame)
  | recv                           -- the server's reader returns the next frame

def VAct.isFrame : VAct → Bool
  | .frame _ => true
  | _ => false

/-- What a client may write that has read the requests `seen`. -/
def uAnswers (reqs : List CFrame) (seen : List Nat) (f : InFrame) : Bool :=
  f.push || f.rid % 2 != 0 || seen.any fun t => (cframeOf reqs t).rid == f.rid

def uStep (u : USt) : UAct → Option USt
  | .srv a => if a.isFrame then none else (vStep u.v a).map fun s => { u with v := s }
  | .cRead t => if t ∈ u.v.regd ∧ t ∉ u.got then some { u with got := u.got ++ [t] } else none
  | .cSend f => if uAnswers u.v.reqs u.got f then some { u with up := u.up ++ [(f, u.got.length)] } else none
  | .recv => match u.up[u.read]? with
    | some p => (vStep u.v (.frame p.1)).map fun s => { u with v := s, read := u.read + 1 }
    | none => none

def USt.init : USt := ⟨VSt.init, [], [], 0⟩

def uRun (acts : List UAct) : Option USt := runActs uStep USt.init acts

end Qrpc
