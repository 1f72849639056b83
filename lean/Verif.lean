import Verif.Lemmas.ApiA
import Verif.Lemmas.ApiB
import Verif.Lemmas.ApiC
import Verif.Lemmas.ApiG
import Verif.Lemmas.ApiInv
import Verif.Lemmas.Broadcast
import Verif.Lemmas.Bytes
import Verif.Lemmas.ClientA
import Verif.Lemmas.ClientC
import Verif.Lemmas.ClientD
import Verif.Lemmas.ClientInv
import Verif.Lemmas.ClientL
import Verif.Lemmas.ClientN
import Verif.Lemmas.ClientR
import Verif.Lemmas.ClientW
import Verif.Lemmas.EndToEnd
import Verif.Lemmas.Frame
import Verif.Lemmas.GroupA
import Verif.Lemmas.GroupB
import Verif.Lemmas.GroupC
import Verif.Lemmas.GroupD
import Verif.Lemmas.GroupE
import Verif.Lemmas.GroupF
import Verif.Lemmas.GroupG
import Verif.Lemmas.GroupH
import Verif.Lemmas.GroupInv
import Verif.Lemmas.GroupX
import Verif.Lemmas.Measure
import Verif.Lemmas.Mem
import Verif.Lemmas.Pb
import Verif.Lemmas.ReadFrame
import Verif.Lemmas.Reader
import Verif.Lemmas.RegistryA
import Verif.Lemmas.RegistryB
import Verif.Lemmas.RegistryC
import Verif.Lemmas.RegistryD
import Verif.Lemmas.RegistryInv
import Verif.Lemmas.RegistryK
import Verif.Lemmas.RegistryL
import Verif.Lemmas.RegistryX
import Verif.Lemmas.ServeMem
import Verif.Lemmas.ServeMemB
import Verif.Lemmas.ServeReadA
import Verif.Lemmas.ServeReadB
import Verif.Lemmas.ServeReadC
import Verif.Lemmas.ServeReadD
import Verif.Lemmas.ServeReadG
import Verif.Lemmas.ServeReadInv
import Verif.Lemmas.ServeRespC
import Verif.Lemmas.ServeRespInv
import Verif.Lemmas.ServerCall
import Verif.Lemmas.StreamA
import Verif.Lemmas.StreamB
import Verif.Lemmas.StreamC
import Verif.Lemmas.StreamD
import Verif.Lemmas.StreamE
import Verif.Lemmas.StreamF
import Verif.Lemmas.StreamG
import Verif.Lemmas.StreamInv
import Verif.Lemmas.StreamLog
import Verif.Lemmas.StreamMem
import Verif.Lemmas.StreamPush
import Verif.Lemmas.StreamedPush
import Verif.Lemmas.WriteBuf
import Verif.Lemmas.WriteFrame
import Verif.Model.Accept
import Verif.Model.Alias
import Verif.Model.Api
import Verif.Model.ApiAll
import Verif.Model.ApiMem
import Verif.Model.ApiNet
import Verif.Model.Args
import Verif.Model.Broadcast
import Verif.Model.Bytes
import Verif.Model.Callback
import Verif.Model.Channel
import Verif.Model.ChannelEncode
import Verif.Model.ChannelMem
import Verif.Model.Client
import Verif.Model.ClientHandler
import Verif.Model.ClientMem
import Verif.Model.ClientWG
import Verif.Model.CloseRate
import Verif.Model.Codegen
import Verif.Model.Config
import Verif.Model.Ctx
import Verif.Model.CtxVal
import Verif.Model.Deadline
import Verif.Model.Dial
import Verif.Model.EndToEnd
import Verif.Model.FirstFrame
import Verif.Model.Flags
import Verif.Model.FrameClose
import Verif.Model.FrameReader
import Verif.Model.FrameWriter
import Verif.Model.GenFail
import Verif.Model.GenImports
import Verif.Model.GenNet
import Verif.Model.Generator
import Verif.Model.Kick
import Verif.Model.Listen
import Verif.Model.LoopCtx
import Verif.Model.Mem
import Verif.Model.Metrics
import Verif.Model.Mux
import Verif.Model.MuxConc
import Verif.Model.Panic
import Verif.Model.Pb
import Verif.Model.Qrpcurl
import Verif.Model.ReadTimeout
import Verif.Model.Reader
import Verif.Model.ReaderPool
import Verif.Model.Readme
import Verif.Model.Registry
import Verif.Model.Response
import Verif.Model.Run
import Verif.Model.ServeChanMem
import Verif.Model.ServeMem
import Verif.Model.ServeRead
import Verif.Model.ServeResp
import Verif.Model.ServeStart
import Verif.Model.ServeWrite
import Verif.Model.Server
import Verif.Model.ServerCall
import Verif.Model.ServerMem
import Verif.Model.Shutdown
import Verif.Model.Stall
import Verif.Model.Stream
import Verif.Model.StreamCtx
import Verif.Model.StreamMem
import Verif.Model.Throttle
import Verif.Model.Walk
import Verif.Model.WriteBuf
import Verif.Model.WriteReq
import Verif.Model.WriterPool
import Verif.Model.WsConn
import Verif.Model.WsMem
import Verif.Model.WsOverlay
import Verif.Model.WsReader
import Verif.Model.WsServe
import Verif.Props.Accept
import Verif.Props.Alias
import Verif.Props.Api
import Verif.Props.ApiAll
import Verif.Props.ApiEnd
import Verif.Props.ApiMem
import Verif.Props.ApiNet
import Verif.Props.ApiWait
import Verif.Props.Args
import Verif.Props.BackLive
import Verif.Props.Bounds
import Verif.Props.Broadcast
import Verif.Props.BroadcastEnd
import Verif.Props.CallLive
import Verif.Props.Callback
import Verif.Props.CallsReturn
import Verif.Props.CamelNames
import Verif.Props.Channel
import Verif.Props.ChannelE2E
import Verif.Props.ChannelEncode
import Verif.Props.ChannelMem
import Verif.Props.Client
import Verif.Props.ClientEnd
import Verif.Props.ClientHandler
import Verif.Props.ClientLife
import Verif.Props.ClientLive
import Verif.Props.ClientMem
import Verif.Props.ClientWG
import Verif.Props.ClientWire
import Verif.Props.CloseRate
import Verif.Props.Codec
import Verif.Props.Codegen
import Verif.Props.Config
import Verif.Props.Ctx
import Verif.Props.CtxVal
import Verif.Props.Deadline
import Verif.Props.EndToEnd
import Verif.Props.Flags
import Verif.Props.FrameClose
import Verif.Props.GenFail
import Verif.Props.GenImports
import Verif.Props.GenNet
import Verif.Props.GenRpc
import Verif.Props.GenStart
import Verif.Props.GenStuck
import Verif.Props.GenTries
import Verif.Props.Generator
import Verif.Props.Handled
import Verif.Props.Kick
import Verif.Props.KickCB
import Verif.Props.Limits
import Verif.Props.Listen
import Verif.Props.LoopCtx
import Verif.Props.Metrics
import Verif.Props.Mux
import Verif.Props.MuxConc
import Verif.Props.Panic
import Verif.Props.Pb
import Verif.Props.PbConcat
import Verif.Props.PeerRead
import Verif.Props.Push
import Verif.Props.Qrpcurl
import Verif.Props.ReadTimeout
import Verif.Props.ReaderPool
import Verif.Props.Registry
import Verif.Props.RegistryEnd
import Verif.Props.RespTable
import Verif.Props.Response
import Verif.Props.Retain
import Verif.Props.Rpc
import Verif.Props.ServeChanMem
import Verif.Props.ServeLive
import Verif.Props.ServeMem
import Verif.Props.ServeRead
import Verif.Props.ServeReadEnd
import Verif.Props.ServeResp
import Verif.Props.ServeStart
import Verif.Props.ServeWire
import Verif.Props.ServeWrite
import Verif.Props.ServeWriteEnd
import Verif.Props.Server
import Verif.Props.ServerCall
import Verif.Props.ServerMem
import Verif.Props.Shutdown
import Verif.Props.Stall
import Verif.Props.Stream
import Verif.Props.StreamCall
import Verif.Props.StreamCtx
import Verif.Props.StreamE2E
import Verif.Props.StreamMem
import Verif.Props.StreamMore
import Verif.Props.StreamedPush
import Verif.Props.Throttle
import Verif.Props.Walk
import Verif.Props.Wire
import Verif.Props.WireAcc
import Verif.Props.WriteBuf
import Verif.Props.WriteReq
import Verif.Props.Writer
import Verif.Props.WriterExact
import Verif.Props.WsConn
import Verif.Props.WsFrames
import Verif.Props.WsMem
import Verif.Props.WsOverlay
import Verif.Props.WsServe
import Verif.Spec.Frames
import Verif.Spec.Stream
import Verif.Spec.Wire
