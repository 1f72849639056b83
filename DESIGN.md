# Formal model of zhiqiangxu/qrpc in Lean 4 — design

Everything here is about the Go source in `/repo` as it stands. Line numbers refer to that source.

## 1. Layout

* `lean/Verif/Model/*.lean` — the model, function by function; definitions cite `/repo` file and lines.
* `lean/Verif/Spec/*.lean` and definitions `Spec.…` beside the theorems — small specifications used by property statements;
  they do not use model helpers.
* `lean/Verif/Lemmas/*.lean` — helper lemmas and invariants.
* `lean/Verif/Props/*.lean` — the theorems about properties, named `Cxx_…`.
* `properties.jsonl` — the properties in English; `MANIFEST.json` — which theorems belong to which property, and how far they go.
* `seeded/LOG.jsonl` — wrong programs: one line per edit of a model definition, with the theorems that broke.
* `tools/` — generators of `properties.jsonl`, `MANIFEST.json` and section 8 of this file.

Theorem names: a plain `Cxx…` proves the property (or one clause of it) as stated; `…_partial` proves it under a restriction that
the English property does not have, or proves only a part; `…_refuted…` proves that the property is *false of the code as
written*, by a reachable concrete execution or for all executions of a kind. A property marked `partial` in the manifest has at
least one of the last two kinds; the note says what is missing. Beside the theorems stand `example`s with concrete states or
executions that meet their hypotheses.

## 2. Modelling conventions

* Bytes are `UInt8`, ids `UInt64`, commands `UInt32`, flags `UInt8`. Fixed-width arithmetic is kept wherever wrap-around or
  truncation can matter (ids, frame sizes, maxima, durations, protobuf lengths, the counter of the generated client).
* A Go function is a total Lean function that returns the new state and the result; errors are `Except` or a result type. A Go panic
  and an operation that blocks forever are explicit outcomes, never default values.
* Concurrent code is a transition system `step : State → Action → Option State`; `none` means that the action is not possible in
  that state. One action is one atomic operation, one `sync.Map` operation, one channel operation, one critical section of a mutex, or
  purely local work. `runActs` (Model/Run.lean) iterates it. "In every execution" means: for every finite list of actions, that is for
  every schedule and every behaviour of the environment, of any length. There are no bounds on goroutines, connections or frames.
* Safety is proved by invariants (`Lemmas/`). Progress is proved either as "the next step is enabled", or with a measure that every
  step decreases together with "no state is stuck before the end" (C25_progress, C74, C79). "Never" results (refutations of liveness)
  are invariants of all continuations. Nothing is assumed about fairness unless the theorem says so.
* User code (handlers, callbacks, codecs, middleware), the transport, the clock, dialling, and `rand` are parameters or actions of the
  environment. What is assumed about them is a hypothesis of the theorem (`HonestVec`, `Codec.Lossless`, `ReadsOnTime`, …) or stated in
  the header of the model file.

## 3. What is modelled where, and how the properties are attacked

| model file | code | properties | method |
|---|---|---|---|
| Bytes, FrameWriter | framewriter.go, conf.go:14-17 | C01-C03, C09, C10 | round trip by induction over frames and pieces |
| Reader, FrameReader | reader.go:61-113, framereader.go:83-127, bufio/io.ReadFull | C01, C03, C04 | induction over the chunks in which bytes arrive |
| Flags | qrpc.go | C05-C07 | bit arithmetic, all inputs |
| FirstFrame | clientconn.go:313-374, serveconn.go:698-752, framewriter.go:184-212, tool/packet | C02, C07, C10, C60 | case analysis |
| (Codec in FrameWriter/FrameReader) | framewriter.go:97-124, framereader.go:110-122 | C08 | algebra; the side conditions forced by the code are refuted separately |
| WriterPool, Alias | framewriter.go:32-48, 131-143 and its callers | C09, C68 | invariant over histories; memory of backing arrays shared by connections |
| Stream | stream.go, framereader.go:40-77 | C11-C17, C62, C85 | transition system of reader, writer, consumers at single atomic operations; seven invariants |
| Client | clientconn.go:213-305, 346-546, 574-772 | C17-C20, C24, C25, C44-C46, C61, C70, C71, C80, C81, C89 (Props/ClientEnd), C122 (Props/Bounds), C106 (Props/RespTable), C108 (Props/ClientLive) | transition system of loop, reader, writer, callers; invariants, measure |
| ClientHandler | clientconn.go:523-568 | C28 | transition system |
| ClientWG | clientconn.go (user code run by the connection's own goroutines) | C79 | restriction of Client by ownership of callers; deadlock invariants, measure |
| EndToEnd | Client composed with the peers of all its transport connections | C82-C84 (also Props/PeerRead), C86, C92 (also Props/StreamedPush), C93, C107 (Props/Rpc), C110 (Props/GenRpc) | invariants on the composition |
| Dial | clientconn.go:100-176, 259-305 | C47 | case analysis |
| Response | clientconn.go:56-97 | C78 | transition system |
| ServeWrite | serveconn.go:444-695 | C21-C24 (C23 also in Props/ServeWriteEnd), C26, C81, C122 | transition system of any number of writers (group commit); ghost sequences |
| WriteReq | serveconn.go:307-310, 448-541, 543-620, clientconn.go:380-416, 700-775 (the pooled requests and their result channels) | C105 | invariant, any number of connections sharing the pool |
| WriteBuf | writer.go, net.Buffers | C22, C57 | induction over transport behaviours |
| ServeRead | serveconn.go:145-225, 250-278, 322-442 | C27-C31 (C31 also in Props/ServeReadEnd), C62, C122 | transition system |
| ServeResp | serveconn.go:393-412, 550-582, 698-795 | C60, C67 | transition system |
| ServerCall | ServeResp composed with the client that reads and answers the server's requests | C109 | invariants on the composition |
| Registry | server.go:421-512, serveconn.go:88-133, 755-795 | C32-C37, C59, C142 | transition system, any number of goroutines and connections; C142 is false for ids, see section 6 |
| CloseRate | serveconn.go:755-767, server.go:156-160 with Registry | C102 | invariant; unbounded witnesses by induction |
| Kick | server.go:450-512 with ServeWrite | C63 | composition, deadlock invariant |
| ServeStart | server.go:421-444, serveconn.go:145-180, 676-695 with ServeWrite | C95 | case invariant: not started, started, jammed |
| Panic | serveconn.go:145-225, 250-278, 322-442, server.go:281-339, clientconn.go:213-249, 477-568 (calls that may panic, deferred functions) | C103 | structural induction |
| Metrics | serveconn.go:192-248 with ServeRead | C94 | counting invariant |
| Walk | server.go:562-594 | C87 | on top of Registry; `sync.Map.Range` as documented |
| Ctx, CtxVal | context.WithCancel/WithValue as used; frame.go, server.go:421-444, clientconn.go:187-214 | C59, C69 | invariant over trees of contexts; evaluation |
| Mux | server.go:63-124, middleware.go | C38-C40 | refinement to "last registration" |
| Throttle | server.go:608-642 | C41 | transition system |
| Shutdown, Server, Accept | server.go:178-418, 514-559, 596-607 | C42, C43, C64, C65, C72-C76 | transition systems; measure for C74 |
| Deadline | reader.go:77-113, writer.go:34-136 | C58 | abstract time with exact 64-bit duration arithmetic |
| ReadTimeout | reader.go:55-58, serveconn.go:111-118 | C97 | log of timeouts and deadlines |
| ReaderPool | reader.go:33-53 | C96 | any number of connections sharing the pool |
| Api, ApiAll | api.go | C48-C50, C121, C88 | counting; transition system |
| ApiNet | api.go over its connections (Api and EndToEnd composed) | C113, C114 | invariant on the composition; composition with C107 |
| GenNet | codegen/client.go over its connections (Codegen and EndToEnd composed) | C115, C116 | invariant on the composition; composition with C86 and C110 |
| Mem | the Go memory model (happens-before, data races), generic in goroutines, locks and fields | used by C117, C118, C119 | - |
| ClientMem | clientconn.go:187-307, 429-545, 574-772, clientconn_reuse.go:24-26: accesses to the fields of a Connection | C117 | transition system that emits a trace; invariant on what each goroutine knows |
| ServeMem | serveconn.go:88-224, 322-797, server.go:421-444, 589-594, reader.go:38-58, 83: accesses to the mutable fields of a server connection | C118 | transition system with a stack of calls per goroutine that emits a trace; invariant on what each goroutine knows |
| ServerMem | server.go:127-176, 194-259, 281-287, 410-418, 515-559, 596-607: accesses to the mutable fields of a server | C119 | the same |
| Stall | writer.go:48-81, 100-134 with a transport that reports the write deadline as TCP, TLS or the WebSocket overlay do | C120 | induction over the rounds |
| Config | server.go:155-176, 334-337, 421-432, clientconn.go:99-116, 151-196, 267, api.go:30-63, 238-239: sizes, addresses and weights | C123 | arithmetic; composition with Panic |
| MuxConc | server.go:69-124 in single steps, many goroutines, with `mux.mu` (sync.RWMutex) and the accesses to the map | C124 | refinement to the sequential table (linearizability), happens-before |
| Callback | ServeRead and ServeResp in one system (serveconn.go:386-436), with handlers and `SubFunc` that call `GetFrame` (clientconn.go:71-77); Client with a subscriber that does (494-501) | C125 | joint invariant; stuck states |
| ServeLive | ServeRead while the connection stays open (serveconn.go:145-225, 250-278, 322-442) | C126 | measure; states where nothing can move |
| CallLive | Client, frame readers, streams, ServeRead and ServeWrite together, at rest (`Spec.RpcRest`) | C127 | composition of C126, C93, C83, C107 |
| KickCB | Registry at the calls of `OnKickCB` (server.go:505-509) | C128 | invariants |
| BackLive | ServeWrite, Stream, EndToEnd, ServerCall composed at rest | C129 | composition of C93 and C109 with an invariant of the client's reader |
| StreamCall, Model/Readme | the composition of CallLive for calls and answers of several frames; the streaming handlers of README.md:168-252 | C130 | composition of C93, C127, C83; induction over the frames a handler gets |
| CallsReturn | the composition of CallLive with ApiNet and GenNet: calls of the API and of generated clients on connections at rest | C131 | composition of C127 with the invariants of C113 and C115; invariant: a reset belongs to a call that gave up |
| Broadcast | the documented handler that pushes to all connections, README.md:283-304, with Walk and one ServeStart per connection | C132 | invariants: the goroutines of a handler are one per visited connection; where the write of each goroutine is; every frame with the bytes of the push is one goroutine's; composition with C87, C95, C92 |
| StreamCtx | stream.go:38-59, 89-94, 198-223 with Stream: the contexts of streams | C133 | invariant: the registered contexts are those of the streams in the tables and of calls of CreateOrGetStream under way; the refined system does what Stream does |
| BroadcastEnd (Props) | README.md:283-304 with Broadcast: the handlers' own steps | C134 | a measure that every step decreases; at rest nobody waits |
| Args | api.go:30-63, 238-250; clientconn.go:153-176, 267-268; server.go:155-177, 194-236, 247-250; codegen/client.go:22-31 | C135 | the slices a caller gives and keeps: which are copied, which are shared |
| ChannelMem | channel/clienttransport.go:38-151: accesses to the fields of Sender and Receiver | C136 | happens-before (Mem), one event at a time; races by a set closed under happens-before |
| StreamMem | stream.go, framereader.go:40-77, frame.go: accesses to the fields of streams and frames | C137 | happens-before (Mem); the accesses of a method in any order and number; publication through sync.Map and channels |
| ServeChanMem | channel/servetransport.go:42-93: accesses to the fields of a handler's Sender and Receiver, to their writer, and the frames received | C138 | happens-before (Mem); ghost counts of the calls returned and of those each goroutine has learnt of |
| ApiMem | api.go: accesses to the API's fields, its connections as set up by NewConnection, and the maps of CallAll | C139 | happens-before (Mem); publication through sync.Map; lock and WaitGroup of CallAll |
| WsMem | ws/server/overlay.go, ws/server/conn.go, and the goroutines of serveconn.go and clientconn.go that use the transport: accesses to the overlay and to the halves of each WebSocket connection | C140 | happens-before (Mem); the token of wlockCh on the server, one reader and one writer per round of `loop` on the client |
| GenFail | codegen/service_handler.go:32-68: several calls on one connection, with the Close after a failure | C141 | invariant; composition with C52; C141 is false, see section 6 |
| FrameClose | frame.go:76-92, clientconn.go:429-443, 523-528: which transport connection Close of a request closes | C143 | layer over Client; invariant; C143 is false, see section 6 |
| LoopCtx | clientconn.go:202-208, 284-290, 462, and the deferred loopCancelCtx: contexts registered with the connection's | C144 | layer over Client; invariant |
| Codegen | codegen/client.go, service_handler.go, generator.go:172-361 (dispatch only) | C51, C52, C66 | induction |
| Generator | codegen/generator.go:40-96, 206-219, 270-303, 363, 383-457 | C90 | meaning of the printed methods over arbitrary encodings; composition with Codegen, Pb and the wire |
| GenImports | codegen/generator.go:98-169, 272, 319, 351 | C104 | invariant of the import table, over arbitrary naming |
| Qrpcurl | tool/qrpcurl/main.go | C91 | parsing round trip, case analysis |
| Pb | codegen/pb/rpc.pb.go:89-409 | C53, C54, C66, C145 | round trip by induction on varints; decoding is stable under bytes put after the input |
| Channel | channel/clienttransport.go, servetransport.go | C56, C112 (Props/ChannelE2E: composed with C93) | sequential model plus a transition system for overlapping Sends |
| ChannelEncode | channel/encode.go | C98 | method sets by cases |
| Listen (with Dial) | server.go:195-236, 340-408, ws/server/overlay.go:39-78, ws/client/conn.go, clientconn.go:99-176, clientconn_reuse.go | C100, C101 | by cases |
| WsServe | ws/server/overlay.go:41-78 with WsOverlay, net/http Serve as documented | C99 | transition system |
| WsConn, WsReader, WsOverlay | ws/server/conn.go, overlay.go, ws/client/conn.go; reader.go and framereader.go over it | C55, C111 (Props/WsFrames), C77 | refinement to a byte stream and of the frame reader over it; transition system |

No property is considered inexpressible; where a liveness or timing claim depends on the Go scheduler, the enabledness or
measure part is proved and the note in the manifest says so.

## 4. Trusted base

* **Lean 4.33.0's kernel**, and the Lean core library (checked by the kernel; no Mathlib module is imported).
* **Axioms**: at most `propext`, `Classical.choice`, `Quot.sound`. None are added; there is no `sorry`, `admit`, `native_decide` or
  `bv_decide`. Section 8 lists the axioms of every theorem named in the manifest, as printed by `#print axioms`.
* **The reading of the Go source into the model.** This is the one thing no proof covers. It is kept reviewable by line citations, by
  one model definition per function or critical section, and by the mutation log.
* **Assumptions about Go and its library**, written into the models:
  - `sync/atomic`, mutexes, channels and `sync.Map` are linearizable; the models interleave them (sequential consistency). That plain
    memory is sequentially consistent too is justified where the code is free of data races, which is proved for the fields of a client
    connection except `rwc` (C117) and for those of a server connection except `reader`, `inflight` and the read timeout (C118), and for those of a server (C119);
    elsewhere it is assumed, and where the code has a race that matters the two accesses are separate steps (C61, C41, C42). In `Model/Mem.lean` an atomic access orders nothing else, which makes the race-freedom theorems stronger than the Go
    memory model needs; a release is ordered before every later acquire of the same object, where objects are used so that this holds
    (mutexes, cancelled contexts, wait groups).
  - `sync.Map.Range`, `sync.Pool`, `sync.WaitGroup`, `context`, `net.Buffers`, `bufio.Reader`, `io.ReadFull`, `binary.BigEndian` behave as
    documented; the parts used are defined in the model (`consume`, `bufRead`, `xStep`, …).
  - `net.Conn` honours its contract where a theorem has `Honest…`; the WebSocket connection is modelled as it is (and does not).
  - `oklog/run.Group`, gorilla/websocket's `ReadMessage`/`WriteMessage`, TLS and HTTP are environment.

## 5. What is not modelled

| code | why |
|---|---|
| the metrics of readFrames and writeFrames, logger.go | observation only |
| ConnectionInfo.GetAnything/SetAnything, GetStash/SetStash | plain field access without synchronisation; no behaviour of its own |
| codegen/generator.go: the printed text other than method headers and package names (interfaces, constructors, sub service callbacks) | prints Go source; only the meaning of the client methods and main callbacks is modelled |
| codegen/pb/rpc.pb.go: Descriptor, XXX_*, getters, String | generated boilerplate |
| encoding/json and the messages' own encodings | parameters of ChannelEncode |
| ws/*: HTTP upgrade, address and option delegations | one-line delegations to gorilla/websocket and net |
| handler and callback bodies | arbitrary: actions of the environment |
| garbage collection, finalizers, memory exhaustion | except where named (C54: stack, C14: unbounded tables) |

### Function by function

Every function of the repository (tests apart). "-": not modelled, for the reason given.

| function | definition in `lean/Verif/Model` |
|---|---|
| **api.go** NewAPI | `apiWeights`, `ApiConf`, `buildAPI`, `apiTotal` |
| Call, callViaIdx, callWithoutConn, callViaActiveConns, safeCloseDeleteConn, safeStoreConnLocked, reconnectIdx, CallOne, Close | `aStep` (program counters `APc`), `epStep`, `anStep` |
| CallAll | `callAll` |
| getIdx | `getIdx` |
| **channel/clienttransport.go** Send, End, getFrame, Receive | `ChSender.send`, `ChSender.stop`, `chStep`, `clientReceive` |
| NewTransport, Pipe | - construct what `chStep` starts from |
| **channel/encode.go** Marshal, Unmarshal | `chMarshal`, `chUnmarshal` |
| **channel/servetransport.go** Send, End, Receive | `chServeSend`, `serveReceive` |
| ServeSRT, NewQRPCHandler, ServeQRPC | - one-line adapters |
| **clientconn.go** GetFrame, GetFrameWithContext, SetResponse, Close (response) | `rspStep` |
| NewConnection, dialTCP, NewConnectionWithReconnect | `dialConfig`, `dialOverlay`, `dialTCP`, `dialWraps`, `dialEnds`, `buildConnection`, `buildReconnect` |
| newConnection | `CSt.init`, `newConnectionCtx`, `newConnectionOk` |
| loop, connect, endLoop, closeRWC, atomicLoopCtx, Wait, Close, Done, IsClosed | `cStep` (program counters `CLp`, `CPc`), `connectCtx` |
| StreamRequest, Request, writeFirstFrame, nextRequestID, getCodec | `writeFirstFrame`, `clientRequest`, `streamRequest`, `clientRid`, `cStep` (`.request`, `.send`) |
| writeFrameBytes, ResetFrame | `cStep` (`CPc`), `wqStep` |
| readFrames | `cStep` (`CRd`), `cliReader` |
| handleRequestPanic, getWriter | `ckStep`, `cliDispatch` |
| writeFrames, collectWriteFrames, abortRequestsWhenClosed, writeBuffers | `cStep` (`CWr`), `clientDecideFirst`, `clientDecideMore`, `registerAll` |
| **clientconn_reuse.go** NewReusedConnection | `dialConfig`, `dialOverlay` (site `newReused`) |
| GetReusedCon | `CMAct.reused` (the access only) |
| **codegen/client.go** Request | `genRequest`, `genLoop`, `genPos`; over its connections: `gnStep` |
| NewClient | - constructor |
| **codegen/generator.go** NewWithCmd, Register, RegisterSub, registerSub, checkFuncIO | `Gen.new`, `Gen.register`, `Gen.registerSub`, `checkFuncIO` |
| Generate, generateClientSignature, generateClientMethod, unexport, Output | `methodHeader`, `subHeader`, `headerOk`, `Gen.headers`, `Gen.outputs`, `cliMethod`, `srvMethod`, `srvTable`: meaning of methods and headers |
| generateImports, pkgLastName | `generateImports`, `Imports.add`, `pkgLastName` |
| New, generatePkg, P | - print source text |
| **codegen/pb/rpc.pb.go** Marshal, MarshalTo, encodeVarintRpc, Size, sovRpc | `RpcReq.marshal`, `RpcReq.marshalTo`, `PbBuf.varint`, `RpcReq.size`, `sov` |
| Unmarshal, skipRpc | `pbUnmarshal`, `pbLoop`, `pbSkip`, `pbGroup` |
| Reset, String, ProtoMessage, Descriptor, XXX_*, GetNS, GetMethod, GetParams, sozRpc, init | - boilerplate, not called by the repository (getters: field access) |
| **codegen/service_handler.go** FQMethod, ServeQRPC | `fqMethod`, `genServe`, `genReply` |
| NewServiceHandler | - constructor |
| **frame.go** FromClient, FromServer (both types) | `Frame.fromClient`, `Frame.fromServer` |
| ConnectionInfo, ClientConnectionInfo, Close, StreamInitiator, Context | `frameConnectionInfo`, `frameClientConnectionInfo`, `frameClose`, `frameStreamInitiator`, `streamCtx` |
| FrameCh | the deliveries of `sStep` (events `delivered`) |
| GetStash, SetStash | - field access |
| **framereader.go** newFrameReader, newFrameReaderWithMFS | `serveReaderCfg`, `clientReaderCfg` |
| ReadFrame | `rStep` |
| readFrame | `readFrame`, `parseHeader`, `checkSize` |
| **framewriter.go** newFrameWriter, Finalize | `poolStep`, `DFW.fromPool`, `DFW.finalize` |
| StartWrite, Cmd, SetCmd, RequestID, SetRequestID, Flags, SetFlags, GetWbuf, Payload, EndWrite, EndWriteCompressed, endWrite, Length, StreamEndWrite, ResetFrame, WriteUint*, WriteBytes | `DFW.startWrite` … `DFW.endWrite` of the same names |
| defaultStreamWriter: all | `swStep` |
| **logger.go** | - |
| **middleware.go** HandlerWithMW, ServeQRPC | `runMws` |
| **qrpc.go** all but String | `Cmd.*`, `FrameFlag.*` of the same names |
| **reader.go** NewReader, NewReaderWithTimeout, Finalize | `rpStep` |
| SetReadTimeout | `TmSt.setTimeout` |
| ReadUint32, ReadBytes, ReadBytesWithMaxTimeout | `readBytes`, `readLoopT`, `readDeadline` |
| **serveconn.go** SetID, NotifyWhenClose, GetID, Close, closeUntracked | `qStep` (`QPc`), `lmStep` (the limiter), `vStep` (the responses) |
| ReaderConfig | `tmStep` |
| GetAnything, SetAnything, Server, RemoteAddr | - field access |
| serve | `rdStep` (`MPc`), `g0Step` (its beginning), `srvConn` (its panics) |
| instrument | `instrument` |
| handleRequestPanic, GetWriter | `rdStep` (`hRst` …), `mtStep` |
| readFrames, gate.Done | `rdStep` (`RRd`), `srvReader` |
| writeFrameBytes, collectWriteFrames, writeBuffers, addAndCheckInflight, tryFreeStreams, getCodec | `gStep` (`TPc`), `wqStep`, `serveDecide`, `batchResults`, `lStep` |
| Request, StreamRequest, nextRequestID, writeFirstFrame, IsClosed | `serveRequest`, `serverRid`, `vStep` |
| **server.go** HandlerFunc.ServeQRPC, NewServeMux, HandleFunc, Handle, ServeMux.ServeQRPC | `muxEmpty`, `muxHandle`, `muxServe`, `mqStep` |
| NewServer | `SvSt.init`, `QSt.init`, `lmStep`, `newServerSizes` |
| ListenAndServe, ListenAll, BindingConfig, ServeAll | `svStep` (`MnPc`), `listenLayers` |
| Serve | `acStep`, `svStep` (`SvPc`), `srvServe` |
| TLSKeepAliveListener.Accept, TCPKeepAliveListener.Accept | `LnLayer.accept`, `acStep` |
| trackListener, closeListenersLocked, Shutdown, OnShutdown | `sdStep`, `svStep` (`ShPc`) |
| newConn | `newConnCtx`, `newConnOk`, `qStep` (`.newConn`), `g0Step` |
| bindID, untrack | `qStep`, `kStep` (with `OnKickCB`) |
| GetPushID, WalkConnByID, GetConnectionInfoByID, WalkConn | `wkStep` |
| waitThrottle, SetThrottle, ClearThrottle | `thStep` |
| **stream.go** all | `rStep`, `wStep`, `SSt.createOrGet`, `releaseStream`, `sStep` |
| **tool/packet** main | `packetTool` |
| **tool/qrpcurl** main | `qrpcurl` |
| **writer.go** NewWriter, NewWriterWithTimeout, Write, writeBuffers | `writerWrite`, `writerWriteBuffers`, `writeLoopT` |
| **ws/client** NewConnection, OverlayNetwork, DialConn | `dialWraps`, `dialEnds` |
| **ws/server/conn.go** Read, readBuffer, Write | `WsConn.read`, `WsConn.readBuffer`, `wsWrites`; `readFrameW` (readers over it) |
| NewConn, Close, addresses, deadlines, socket options | - delegations (socket options: `LnLayer.accept`) |
| **ws/server/overlay.go** OverlayNetwork, newOverlay, Accept, Close | `woStep`, `whStep`, `listenLayers` |
| Addr; **ws/server/server.go** New | - delegations |

## 6. Discrepancies between the code and its documentation or apparent intent

Proved of the model (theorem names in the manifest):

* C04 the maximum frame size is truncated to 32 bits before it is compared. C06 `ToNonStream` changes nothing (qrpc.go:48-50).
  C07 `Request` with a stream bit sends a streamed frame. C08 compression is not transparent for codecs that encode to nothing or work in
  place. C09 an abandoned frame's bytes are prepended to the next one. C10 `ResetFrame` of a stream writer drops the stream bit.
* C13 a reset followed by a response panics the client's reader. C14 a stream reset by the peer after the local side closed stays in the
  table; with many such streams the table grows without bound. C17 a reset never ends the caller's wait.
* C22 the WebSocket connection reports `len(b)` on a failed write, so EndWrite may return nil for a frame that was not sent.
* C24 the client checks for a closed stream only in the first frame of a batch. C25 a write queued while reconnecting is never
  answered when the connection is closed; C45 a closed reconnecting connection reconnects as long as dials succeed; C47
  `NewConnectionWithReconnect` drops the TLS configuration; C61 the reader can use a nil connection; C69 on the first connection of a client
  handlers find no connection in their context; C79 a handler, subscriber or callback that writes can keep the connection from ever
  reconnecting.
* C29 after blocking requests the limit on concurrent streams no longer holds. C31, C85 a handler that leaves its stream unread
  blocks the connection's reader, for all streams and even after Close. C62 frames of established streams are not counted by the rate limit.
* C34-C37 SetID of a connection that is closed meanwhile: two live connections under one id, endless loop, unreachable connection, kick
  numbers out of order. C63 a failed write during a kick blocks the kick forever. C67 a response read while the connection is being closed
  is dispatched as a request. C68 a frame of another connection may be transmitted after the server's context is cancelled.
* C39 duplicate registration is not noticed for commands with an opaque byte. C41 two throttle controllers can crash the server or strand
  waiters. C64 connections that are not `TCPConn` are dropped without being closed. C65, C72, C73, C75, C76: Shutdown before Serve is
  lost, failed listening leaks listeners, a connection may be served after Shutdown returned, a failed Shutdown closes part of
  the listeners, Shutdown from a handler deadlocks. C77 the WebSocket listener drops upgraded connections on Close. C78 a second
  GetFrame on an answered response never returns.
* C48, C88 negative weights or more weights than endpoints: skewed choice, index panic that leaves the mutex locked. C50 a call
  may be sent twice after a response timeout. C51 the generated client panics after 2^31 calls where `int` has 32 bits. C52 names with colons
  clash. C54 a declared length near 2^63 panics, nested groups exhaust the stack. C56 `end` is ignored on later Sends, `End` resets the stream,
  a receiver that does not ask for the command loses the message, overlapping first Sends open two streams. C58 without a read timeout the
  payload has no deadline. C66 error commands of 2^24 and more make errors arrive as results. C90 the generator asks the input types whether the
  output is a Marshaler, so such results are encoded one way and decoded another; with sub services it prints invalid Go. C91 qrpcurl
  panics for flags with the push bit and checks the flag only after dialling. C92 a push is thrown away if the client resets the stream of an
  earlier push with the same id at the wrong moment. C95 a push through `WalkConn` to a connection that was just accepted can block all
  writes on that connection for ever. C97 `SetReadTimeout` does not concern the read under way, and panics through `WalkConn` before the
  connection is served. C98 channel messages passed by value are sent as JSON and decoded by their own `Unmarshal` if the methods
  are declared on the pointer. C99 a permanent Accept error below the WebSocket overlay stops it for ever, unnoticed by `Server.Serve`.
  C100 `NewReusedConnection` drops TLS, overlay and buffer sizes. C101 `DialTimeout` does not cover TLS and WebSocket handshakes. C102
  connections displaced by `SetID` are closed without regard to `MaxCloseRate`, and closing a closed connection uses it up. C103 a panic in a
  subscriber, codec, close or lifecycle callback, or in the reader (C13, so: caused by the peer), ends the whole process. C104 a second file
  generated in one process, or types of a package called context or qrpc, give code that does not compile. C105 `ErrNoNewUUID`
  (after 2^63 requests) puts a write request without a channel into the pool, where it hangs some later write. C106 callers that give up
  waiting leave their entries in the response table until the connection ends. C114 the API retries a
  request that was written and read by the server when its connection breaks before the answer: one CallOne may be carried out twice,
  one Call four times (a generated call, whose connections reconnect, at most once: C115). C116 a generated call does not return when its
  context ends: its Request, or the ResetFrame it makes on giving up, waits until a connection that is down has been dialled again. C117 `Connection` is not thread safe in the
  use of `rwc`: the reader and GetReusedCon read it without the mutex under which closeRWC clears it (in the refutations the goroutine that
  reads makes no further step before the write, so nothing left out of the model could order them). C118 a server connection is put into
  `activeConn` before `serve` sets it up, so that a goroutine that finds it by `WalkConn` races with `serve` on `reader` and `inflight`;
  and `SetReadTimeout` by the handler of a non-blocking frame races with the reader (again the goroutine makes no step in between). C119 `ListenAll` stores the
  listeners of the bindings without the mutex, so that it races with whoever else uses the server by then. C120 over TLS and WebSocket a write fails
  when its peer stalls for three seconds, also without a write timeout: the loops go on only after a `*net.OpError` (writer.go:64, 116), and there the
  error of the deadline is wrapped. C121 the API dials with its mutex held, so that one endpoint that does not answer holds up
  the calls to all others that have no working connection, and Close. C123 a negative ReadFrameChSize ends the process at the
  first connection, a total weight that is not positive makes every Call of the API panic, a negative WriteFrameChSize leaves a dialled connection open.
  C125 a handler of a request without NBFlag, `SubFunc` and a client's subscriber wait for ever for the answer to a call on their own connection.
* C35, C36, C87 a connection closed before or during its own `SetID` stays in the table of ids: later `SetID`s of the same id loop for ever, lookups
  find a closed connection or miss a live one. C59 a second, concurrent `Close` may return before the contexts are cancelled. C81 a caller that
  returns the error of the context does not learn whether its frame was sent.
* C135 `NewAPI` keeps the caller's slice of weights and `NewServer` the caller's slice of bindings, which it changes in place. C136 `Send` of a channel
  assigns its fields with the lock held for reading only, and `Receive` without a lock; C138 the Sender and Receiver of a handler have no lock at all.
  C141 an error returned by one generated method closes the connection, so that all other calls on it fail;
  C142 a connection closed before or during its SetID stays in the table of ids for ever, one entry per connection. C143 a request of the
  server that is closed after its handler has returned closes whatever transport connection the client has by then.

Seen while reading, not formalised: generator.go declares `ssInterface` once per method.

## 7. Wrong programs

`seeded/LOG.jsonl` records edits of model definitions (in a copy outside `/verif`), each one a plausible wrong version of the Go code, with the
theorems that no longer hold; `replaced` gives the text taken out and the text put in, which is what counts if the description is loose. A line
marked `invalid` is an edit that did not compile, so it tested nothing. A line marked `only_examples_failed` broke an `example` and no theorem
among the modules built (a build stops at the modules of the claim once one of them fails). Where an edit survived, the theorems were tightened and the line says which, or the line says why none was. An edit that only makes a
refuted property true (a repair) is expected to break the corresponding `_refuted` theorem.

## 8. Axioms of each theorem

As printed by `#print axioms` for the 541 theorems named in the manifest.

**propext, Classical.choice, Quot.sound** (386): `C01_round_trip`, `C02_layout`, `C02_layout_compressed`, `C02_packet_tool`, `C03_truncated`, `C05_pack`, `C05_unpack`, `C05_wire`, `C07_request_partial`, `C08_transparent_partial`, `C08_empty_no_codec_flag`, `C08_end_write_compressed`, `C08_refuted_empty_encoding`, `C08_refuted_in_place`, `C09_payload_partial`, `C09_exact`, `C09_one`, `C10_identity_partial`, `C11_in_order_exactly_once`, `C11_channel_closed_at_end`, `C11_every_frame_accounted`, `C12_at_most_once_after_both`, `C12_closed_when_both_ended`, `C12_open_stream_in_table`, `C13_panic_only_after_reset_partial`, `C13_no_reset_no_panic_partial`, `C14_refuted_unbounded`, `C14_removed_partial`, `C14_reset_before_local_end_partial`, `C15_nothing_after_end`, `C15_rejected_only_after_end`, `C15_reset_of_closed_stream_not_sent`, `C16_isolation`, `C21`, `C21_client`, `C22_partial`, `C22_batch`, `write_refines`, `C22_client_partial`, `C23_all_return`, `C23_holder`, `C23_waiter`, `C23_take`, `C23_results`, `C23_bounded`, `C26`, `C26_no_use_after`, `C57_write`, `C57_vectored`, `C17_refuted_reset_never_returned`, `C17_refuted_wait_goes_on`, `C17_answer_ends_wait_partial`, `C18`, `C18_no_sharing`, `C19_no_outstanding`, `C19_released`, `C19_close_releases`, `C20_unique`, `C20_no_collision`, `C24_server`, `C25_at_most_one`, `C25_not_dropped_partial`, `C25_not_stuck_partial`, `C25_progress`, `C25_writer_runs`, `C25_refuted_stranded`, `C44_round_robin`, `C44_covers`, `C44_sleeps`, `C45_no_reconnect_partial`, `C46_once`, `C46_request_after_close`, `C27_order`, `C27_exclusive`, `C27_no_read_ahead`, `C27_dispatch`, `C27_gate_opens`, `C28_answered`, `C28_accounted`, `C28_teardown`, `C28_client_answered`, `C28_client_wg`, `C29_bound_partial`, `C29_nonblocking_partial`, `C30`, `C31_refuted_reader_stuck`, `C31_serve_ends_partial`, `C31_all_end_partial`, `C62_partial`, `C32_at_most_once`, `C32_exactly_once`, `C32_quiescent`, `C33_once`, `C33_close_returns`, `C33_progress`, `C33_close_bounded`, `C35_all_return_partial`, `C34_displaced_closed`, `C34_kick_iff`, `C34_own_id`, `C34_one_live_partial`, `C35_partial`, `C36_reachable_partial`, `C36_not_closed_partial`, `C36_removed_by`, `C37_partial`, `C38`, `C38_opaque`, `C39_partial`, `C39_opaque_never_refused`, `C41_partial`, `C41_no_panic_partial`, `C41_refuted_stranded`, `C42_at_most_once`, `C42_quiescent`, `C42_progress`, `C43_waits`, `C43_goes_on`, `C59_contexts`, `C59_streams`, `C59_cancelled`, `C59_before_callbacks`, `C59_quiescent`, `C63_refuted_forever`, `C63_partial`, `C64_partial`, `C64_refuted_leak`, `C65_partial`, `C48_weights`, `C48_zero`, `C48_uniform`, `C49_all_return`, `C49_one`, `C49_maps_agree`, `C49_no_panic`, `C49_close`, `C49_no_leak`, `C49_progress`, `C50`, `C50_result`, `C53`, `C53_size`, `C53_fields`, `C54_partial`, `C54_refuted_stack`, `C51`, `C51_wrap`, `C52_response`, `C55_read`, `C55`, `C55_complete`, `C55_transparent`, `C56_client_send_partial`, `C56_refuted_end`, `C56_refuted_end_resets`, `C56_server_send`, `C56_end_to_end_partial`, `C58_payload_partial`, `C58_payload_ends_partial`, `C58_round`, `C58_write_ends`, `C58_cancel`, `C66`, `C66_refuted`, `C60_sent`, `C60_frames`, `C60_dispatch`, `C60`, `C67`, `C67_no_sharing`, `C67_registered`, `C67_closed`, `C67_released`, `C67_delivered`, `C68_partial`, `C70_paired`, `C70_when`, `C71`, `C72_partial`, `C72_refuted`, `C73_partial`, `C74`, `C75_refuted`, `C76_refuted`, `C77_order`, `C77_partial`, `C77_refuted`, `C78_results`, `C78_closed`, `C78_set_partial`, `C78_refuted`, `C79_refuted_handler`, `C79_refuted_subscriber`, `C79_refuted_callback`, `C79_terminates_partial`, `C79_only_deadlock_partial`, `C80`, `C81`, `C81_server`, `C82`, `C82_transmitted`, `C83`, `C84_client`, `C84_server`, `C84_peer`, `C84_encodes`, `C84_encodes_codec`, `C85_refuted`, `C85_partial`, `C86`, `C86_failed`, `C86_each`, `C87_walk`, `C87_byID_partial`, `C87_info_partial`, `C87_push`, `C88_partial`, `C88_refuted`, `C89_all_end`, `C90_register`, `C90_names`, `C90_output`, `C90_partial`, `C90_errors`, `C90_marshaler`, `C90_refuted_marshaler`, `C90_refuted_sub`, `C91_partial`, `C91_only`, `C91_refuted_push`, `C92`, `C92_returned`, `C92_all_partial`, `C92_subscriber`, `C92_streams`, `C92_streamed_partial`, `C93_client`, `C93_server`, `C94`, `C94_label`, `C95_partial`, `C95_refuted`, `C96`, `C97_partial`, `C97_refuted_waiting`, `C99_partial`, `C99_refuted`, `C102_partial`, `C102_refuted`, `C102_refuted_waste`, `C104_partial`, `C104_distinct_partial`, `C104_refuted_second`, `C104_refuted_clash`, `C105_partial`, `C105_refuted`, `C106_partial`, `C106_server_partial`, `C107`, `C107_stream`, `C107_gets`, `C108`, `C109_belongs`, `C109_first`, `C109_dispatched`, `C109`, `C109_gets`, `C110`, `C110_gets`, `C110_typed`, `C111_same`, `C111`, `C111_serves`, `C111_arrives`, `C112_client`, `C112_server`, `C112_end`, `C113_requests`, `C113`, `C114_one`, `C114_call`, `C114_frames`, `C115`, `C115_requests`, `C115_result`, `C115_tries`, `C116_refuted_request`, `C116_refuted_reset`, `C116_partial`, `C117_partial`, `C117_refuted`, `C117_refuted_reused`, `C118_partial`, `C118_refuted_reader`, `C118_refuted_inflight`, `C118_refuted_timeout`, `C119_partial`, `C119_refuted_ln`, `C120_tcp_partial`, `C121_only_partial`, `C121_holder_partial`, `C121_refuted`, `C122_server`, `C122_client`, `C122_read`, `C122_accept`, `C123_server_partial`, `C123_refuted_server`, `C123_client`, `C123_refuted_leak`, `C123_api_partial`, `C124_atomic`, `C124_raceFree`, `C124_made`, `C124_progress`, `C124_unlocked`, `C124_seen`, `C124_once`, `C125_partial`, `C125_only_partial`, `C125_refuted`, `C125_refuted_sub`, `C125_refuted_client`, `C126`, `C127`, `C127_result`, `C128`, `C128_told`, `C128_not_told`, `C129_handled`, `C129`, `C129_result`, `C130`, `C130_collect`, `C130_echo`, `C130_echo_ends`, `C131`, `C131_result`, `C131_api`, `C131_api_result`, `C132`, `C132_written`, `C132_once`, `C133`, `C133_bound`, `C134`, `C135`, `C135_addrs`, `C135_weights_partial`, `C135_servers_partial`, `C135_refuted_weights`, `C135_refuted_servers`, `C136_closed`, `C136_partial`, `C136_end`, `C136_first_partial`, `C136_refuted_send`, `C136_refuted_receive`, `C136_refuted_resp`, `C137`, `C137_first`, `C137_next`, `C137_one`, `C138_send_partial`, `C138_receive_partial`, `C138_two`, `C138_frames`, `C138_refuted_send`, `C138_refuted_end`, `C138_refuted_receive`, `C139`, `C139_done`, `C140_server`, `C140_client`, `C141_partial`, `C141_refuted`, `C141_error`, `C142_tables`, `C142_ids_partial`, `C142_refuted_kept`, `C143_partial`, `C143_current`, `C143_closes`, `C144`, `C145`, `C145_unknown`

**propext, Quot.sound** (121): `C04_reject`, `C04_accept`, `C04_alloc`, `C06_predicates`, `C06_conversions_partial`, `C06_refuted_toNonStream`, `C07_refuted`, `C09_marks`, `C09_typed`, `C09_refuted_recycled`, `C09_refuted_failed_end`, `C10_refuted_after_reset`, `C13_refuted_reset_then_response`, `C14_refuted_reset_leaks`, `C15_write_always_decided`, `C17_refuted_reset_swallowed`, `C19_no_late_registration`, `C20_parity`, `C20_server_inj`, `C20_bound_sharp`, `C24_stream_writer`, `C24_refuted_client_batch`, `C25_refuted_stranded_example`, `C45_refuted`, `C45_refuted_never_ends`, `C45_failed_dial_ends_partial`, `C46_closes`, `C46_stays_closed`, `C61_refuted`, `C61_partial`, `C28_cleanup`, `C28_cleanup_blocking`, `C28_client_cleanup`, `C29_closes`, `C29_refuted`, `C30_excess`, `C30_no_more`, `C31_refuted_example`, `C31_reader_progress_partial`, `C31_reader_not_stuck_partial`, `C62_refuted`, `C32_progress`, `C34_refuted_two_live`, `C35_refuted_loop`, `C35_refuted`, `C36_refuted_closed`, `C36_refuted_unreachable`, `C37_refuted`, `C37_refuted_greater`, `C39_refuted`, `C40`, `C40_handler_iff`, `C59_refuted_return`, `C64_refuted`, `C65_refuted`, `C48_no_fallback`, `C48_refuted_negative`, `C49_done_iff`, `C54_refuted`, `C54_refuted_unknown`, `C51_rotates`, `C52_dispatch`, `C52_refuted_no_response`, `C55_refines`, `C56_after_end`, `C56_server_receive_partial`, `C56_client_receive`, `C56_refuted_concurrent`, `C58_header`, `C58_refuted_payload`, `C58_read_ends`, `C58_refuted_wait`, `C58_refuted_overflow`, `C58_write_stops`, `C58_cancel_stops`, `C58_refuted_write_overflow`, `C67_close_ends`, `C67_refuted_dispatched`, `C74_closes`, `C79_refuted_handler_example`, `C79_refuted_subscriber_example`, `C79_refuted_callback_example`, `C81_refuted_ctx`, `C85_refuted_example`, `C87_refuted_closed`, `C87_refuted_missed`, `C88_one`, `C88_all`, `C88_refuted_example`, `C91_refuted_flag`, `C92_refuted_race`, `C97_nopanic_partial`, `C98_refuted`, `C100_server`, `C100_partial`, `C100_reconnect_partial`, `C100_refuted`, `C100_refuted_reused`, `C101_partial`, `C101_refuted`, `C103_partial`, `C103_refuted`, `C103_refuted_remote`, `C103_client`, `C106_refuted`, `C111_sent`, `C114_refuted_once`, `C114_refuted_four`, `C115_start`, `C120_refuted_wrapped`, `C125_refuted_example`, `C125_refuted_sub_example`, `C125_refuted_client_example`, `C133_all`, `C133_only`, `C141_refuted_example`, `C142_refuted`, `C143_refuted`, `C144_all`, `C145_kept`, `C145_cut`

**propext** (30): `C22_refuted_websocket`, `C24_client_first_partial`, `C24_refuted_client_later`, `C47_newConnection_partial`, `C47_refuted_reconnect`, `C47_refuted`, `C28_client_no_reset`, `C41_waits`, `C41_refuted_panic`, `C41_refuted`, `C43_doubling`, `C63_refuted`, `C63_refuted_alone`, `C50_twice`, `C52_refuted`, `C55_stays`, `C56_client_decodes`, `C68_refuted`, `C69_server_partial`, `C69_client_partial`, `C69_refuted`, `C73_refuted`, `C77_errors`, `C81_refuted_server_ctx`, `C95_quiet_partial`, `C95_refuted_example`, `C97_refuted_early`, `C98_partial`, `C121_cached_partial`, `C123_refuted_api`

**no axioms** (4): `C04_refuted_large_max`, `C51_wrap_repeats`, `C51_refuted_32bit`, `C56_refuted_receive`
