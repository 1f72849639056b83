/-!
# qrpc.go: `Cmd` and `FrameFlag`
-/
namespace Qrpc

/-- qrpc.go:6 `type Cmd uint32` -/
abbrev Cmd := UInt32
/-- qrpc.go:30 `type FrameFlag uint8` -/
abbrev FrameFlag := UInt8

/-- qrpc.go:10 `MaxCmd` -/
def MaxCmd : Cmd := 0xffffff

/-- qrpc.go:14-16 `Cmd.Opaque` -/
def Cmd.opaqueByte (c : Cmd) : UInt8 := (c >>> 16).toUInt8
/-- qrpc.go:20-22 `Cmd.Routing` -/
def Cmd.routing (c : Cmd) : Cmd := c &&& (0xffff : UInt32)
/-- qrpc.go:25-27 `CmdWithOpaque` (Go precedence: `(c&0xffff) + (opaque<<16)`) -/
def cmdWithOpaque (c : Cmd) (o : UInt8) : Cmd := (c &&& (0xffff : UInt32)) + (o.toUInt32 <<< 16)

/-- qrpc.go:34 `StreamFlag = 1 << 0` -/
def StreamFlag : FrameFlag := 1
/-- qrpc.go:36 `StreamEndFlag = 1 << 1` -/
def StreamEndFlag : FrameFlag := 2
/-- qrpc.go:38 `StreamRstFlag = 1 << 2` -/
def StreamRstFlag : FrameFlag := 4
/-- qrpc.go:40 `NBFlag = 1 << 3` -/
def NBFlag : FrameFlag := 8
/-- qrpc.go:42 `PushFlag = 1 << 4` -/
def PushFlag : FrameFlag := 16
/-- qrpc.go:44 `CodecFlag = 1 << 5` -/
def CodecFlag : FrameFlag := 32

namespace FrameFlag
/-- qrpc.go:48-50 `ToNonStream`: `flg & ^(StreamFlag & StreamEndFlag)` — the inner operator really is `&`. -/
def toNonStream (f : FrameFlag) : FrameFlag := f &&& ~~~(StreamFlag &&& StreamEndFlag)
/-- qrpc.go:53-55 -/
def toStream (f : FrameFlag) : FrameFlag := f ||| StreamFlag
/-- qrpc.go:58-60 -/
def toEndStream (f : FrameFlag) : FrameFlag := f ||| StreamEndFlag
/-- qrpc.go:73-75 -/
def isStream (f : FrameFlag) : Bool := (f &&& StreamFlag) != 0 || (f &&& StreamEndFlag) != 0
/-- qrpc.go:63-65 -/
def isNonBlock (f : FrameFlag) : Bool := isStream f || (f &&& NBFlag) != 0
/-- qrpc.go:68-70 -/
def isRst (f : FrameFlag) : Bool := (f &&& StreamRstFlag) != 0
/-- qrpc.go:82-84 -/
def isDone (f : FrameFlag) : Bool :=
  !isStream f || (f &&& StreamEndFlag) != 0 || (f &&& StreamRstFlag) != 0
/-- qrpc.go:87-89 -/
def isPush (f : FrameFlag) : Bool := (f &&& PushFlag) != 0
/-- qrpc.go:92-94 -/
def isCodec (f : FrameFlag) : Bool := (f &&& CodecFlag) != 0
/-- qrpc.go:97-99 -/
def toNonCodec (f : FrameFlag) : FrameFlag := f &&& ~~~CodecFlag
/-- qrpc.go:102-104 -/
def toCodec (f : FrameFlag) : FrameFlag := f ||| CodecFlag
end FrameFlag

end Qrpc
