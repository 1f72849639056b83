import Verif.Model.FrameWriter
import Verif.Model.FrameReader
/-!
# README.md: the handlers of the two streaming examples

`first` is the frame the handler is called with, `rest` is what it receives from `request.FrameCh()` until it gets nil. Errors of `EndWrite`
are ignored there, as here.
-/
namespace Qrpc

/-- A Go string of ASCII characters as bytes. -/
def txt (s : String) : Bytes := s.toList.map fun c => UInt8.ofNat c.toNat

/-- README.md:175, 220 `HelloRespCmd` -/
def helloRespCmd : Cmd := 1

/-- README.md:179-194, up to `EndWrite`: one answer with what is in all frames. -/
def readmeCollect (d : DFW) (first : Frame) (rest : List Frame) : DFW :=
  rest.foldl (fun d f => d.writeBytes (txt " continue frame " ++ f.payload))
    ((d.startWrite first.requestID helloRespCmd 0).writeBytes (txt "first frame " ++ first.payload))

/-- README.md:231-251: one frame of the answer for every further frame of the request; the bytes submitted. -/
def readmeEchoRest {ε} (codec : Option Codec) (write : DFW → Option ε) (rid : UInt64) : DFW → List Frame → List Bytes
  | _, [] => []
  | d, f :: rest =>
    let r := ((d.startWrite rid helloRespCmd (if FrameFlag.isDone f.flags then StreamEndFlag else StreamFlag)).writeBytes
      (txt " continue frame " ++ f.payload)).endWrite codec write
    r.submitted.toList.map DFW.wbuf ++ readmeEchoRest codec write rid r.dfw rest

/-- README.md:224-252: a streamed answer. -/
def readmeEcho {ε} (codec : Option Codec) (write : DFW → Option ε) (d : DFW) (first : Frame) (rest : List Frame) : List Bytes :=
  let r := ((d.startWrite first.requestID helloRespCmd StreamFlag).writeBytes (txt "first frame " ++ first.payload)).endWrite codec write
  r.submitted.toList.map DFW.wbuf ++ readmeEchoRest codec write first.requestID r.dfw rest

end Qrpc
