#!/usr/bin/env python3
"""Writes /verif/properties.jsonl (one JSON object per line). Edit here, then run."""
import json, os
P = []
def p(id, title, statement, quantifier, why, anchors):
    P.append(dict(id=id, title=title, statement=statement, quantifier=quantifier,
                  why_tests_cant=why, anchors=anchors))

p("C01","Wire round trip under any fragmentation",
  "If one side writes a sequence of frames with FrameWriter (StartWrite, any number of WriteBytes, EndWrite) and the bytes reach the other side's reader cut into arbitrary pieces, the reader returns exactly those frames, in order, with the same request id, 24-bit command, flags and payload, consuming exactly the bytes of those frames.",
  "all sequences of frames (any count, ids, commands, flags, payloads whose size fits the 32-bit length field) and all ways of cutting the byte stream into read results",
  "the number of frames, payload sizes and cut points is unbounded; a test samples a few",
  ["framewriter.go: StartWrite, WriteBytes, EndWrite, endWrite","framereader.go: readFrame","reader.go: ReadBytes, ReadBytesWithMaxTimeout"])
p("C02","Documented wire layout",
  "Every frame put on the wire is: 4-byte big-endian length of everything after it, 8-byte big-endian request id, 1 flag byte, 3-byte big-endian command (low 24 bits of the command), then the payload; tool/packet prints the same bytes for the same inputs.",
  "all request ids, commands, flags and payloads",
  "values range over 2^64 ids, 2^32 commands and unbounded payloads",
  ["framewriter.go: StartWrite, endWrite","doc/frame.md","tool/packet/main.go: main"])
p("C03","Truncated input never produces a frame",
  "If the connection fails after delivering only part of the bytes of a sequence of frames, the reader returns exactly the frames that arrived completely and then the connection's error; it never returns a frame built from incomplete data.",
  "all frame sequences, all truncation points, all fragmentations",
  "every byte position is a crash point",
  ["framereader.go: readFrame","reader.go: ReadBytesWithMaxTimeout"])
p("C04","Frame size limits are enforced before the payload is read",
  "A reader configured with a positive maximum rejects any frame whose announced size exceeds it and any frame whose announced size is below 12, without reading or allocating the payload; every other frame is accepted; a server binding without a maximum uses 10 MiB; so a server never allocates more than the maximum minus 12 bytes for one payload.",
  "all announced sizes (32 bit), all configured maxima, all peers",
  "a hostile peer chooses the header",
  ["framereader.go: readFrame","serveconn.go: serve, DefaultMaxFrameSize"])
p("C05","Command packing",
  "CmdWithOpaque combines a command and an opaque byte so that Routing returns the low 16 bits of the command, Opaque returns the byte, the result never exceeds MaxCmd, and it survives the wire unchanged; any command above 24 bits is truncated on the wire to its low 24 bits.",
  "all 2^32 commands and 2^8 opaque bytes",
  "2^40 combinations",
  ["qrpc.go: Cmd.Opaque, Cmd.Routing, CmdWithOpaque, MaxCmd","framewriter.go: StartWrite, Cmd, SetCmd"])
p("C06","Flag algebra",
  "Each To* conversion changes exactly the named bits and is idempotent; IsStream holds iff the stream or the stream-end bit is set; IsDone holds iff the frame is not streamed or carries the end or reset bit; IsNonBlock holds iff it is streamed or carries the nonblock bit.",
  "all 256 flag bytes",
  "the combinations interact with every other feature; a test picks a handful",
  ["qrpc.go: FrameFlag methods"])
p("C07","Request sends a non-streamed frame",
  "Connection.Request always sends a frame that is not part of a stream, whatever flags the caller passes (its documentation: 'send a nonstreamed request frame').",
  "all flag bytes passed by the caller",
  "depends on all flag combinations",
  ["clientconn.go: Connection.Request","qrpc.go: FrameFlag.ToNonStream"])
p("C08","Compression is transparent",
  "With the same codec on both sides and the codec flag set, the payload delivered to the reader equals the payload passed to WriteBytes, whether or not the writer decided to send it compressed; without the flag no codec is ever applied; an empty payload never carries the codec flag after EndWrite.",
  "all codecs whose Decode inverts Encode, all payloads",
  "the codec is a user-supplied function",
  ["framewriter.go: EndWrite, EndWriteCompressed","framereader.go: readFrame","conf.go: CompressorCodec"])
p("C09","A frame's payload is exactly what was written for it",
  "The payload of the frame sent by EndWrite is exactly the concatenation of the WriteBytes calls made since the matching StartWrite, for every FrameWriter handed out by the library, regardless of what was done before with the same or any other writer (writers are pooled and shared by blocking handlers).",
  "all histories of StartWrite/WriteBytes/EndWrite/ResetFrame calls, handler panics and writer recycling",
  "needs every history of pool reuse across connections",
  ["framewriter.go: newFrameWriter, Finalize, EndWrite, endWrite, fwPool","serveconn.go: serve, handleRequestPanic"])
p("C10","Stream writer keeps identity",
  "Every frame sent through the StreamWriter returned by StreamRequest carries the request id of that StreamRequest, the command given to the last StartWrite, and the stream flag; EndWrite(true) additionally carries the stream-end flag.",
  "all sequences of StreamWriter operations",
  "arbitrary operation histories on a mutable header buffer",
  ["framewriter.go: defaultStreamWriter","clientconn.go: StreamRequest","serveconn.go: StreamRequest"])
p("C11","In-order exactly-once stream delivery",
  "For each stream, the first frame is delivered to the handler, subscriber or Response, and the following frames are delivered on FrameCh in the order they were sent, each exactly once, none from another stream, and the channel is closed after the frame that ends the stream.",
  "all interleavings of frames of any number of streams, all consumer speeds",
  "unbounded numbers of streams, frames and schedules",
  ["framereader.go: ReadFrame","stream.go: TryBind, AddInFrame, closePeerIfNeeded","frame.go: FrameCh"])
p("C12","A stream is fully closed exactly once, after both sides closed",
  "When the local side has sent its final frame and the peer's final frame has been received, in whatever order the two goroutines run, the stream is fully closed exactly once: its Done channel is closed, its context cancelled and its table entry removed; before that it is not.",
  "all interleavings of the reader and writer at the granularity of single atomic memory operations, all frame sequences",
  "the outcome depends on nanosecond interleavings of lock-free flags",
  ["stream.go: closePeerIfNeeded, AddOutFrame, afterDone, ConnStreams.CreateOrGetStream"])
p("C13","No panic on any input from the peer",
  "No sequence of frames received from the peer makes the library panic in the reader goroutine (in particular a frame channel is never closed twice); such a panic terminates the whole process.",
  "all sequences of frames a peer can send, all interleavings with local writes",
  "the peer is adversarial",
  ["stream.go: closePeerIfNeeded, ResetByPeer","framereader.go: ReadFrame"])
p("C14","Streams that both sides are done with are removed",
  "A stream whose local side is closed and whose peer side is closed (by a final frame or by a reset) is removed from the connection's stream table, so that a long-lived connection does not accumulate finished streams.",
  "all histories of frames sent and received on a connection",
  "leaks show only after unbounded histories",
  ["stream.go: ResetByPeer, afterDone, AddOutFrame","framereader.go: ReadFrame"])
p("C15","Nothing is sent on a stream after its end",
  "Once a frame that ends the local side of a stream (non-streamed, end or reset frame) has been accepted for sending, every later non-reset frame for that stream is rejected with an error and not sent while the stream exists; a reset for a stream closed on both sides is not sent.",
  "all sequences of writes by any number of writers",
  "arbitrary histories and concurrent writers",
  ["stream.go: AddOutFrame","serveconn.go: collectWriteFrames","clientconn.go: collectWriteFrames"])
p("C16","Request streams and push streams do not interfere",
  "Frames of one stream never affect the state of another stream: a request id used by a pushed frame and the same id used by a request denote different streams, and operations on one id leave every other stream unchanged.",
  "all ids, all frame sequences",
  "unbounded id space and histories",
  ["stream.go: GetStream, CreateOrGetStream"])
p("C17","A reset by the peer ends the caller's wait",
  "If the peer resets the stream of a request before responding (for example because its handler panicked), Response.GetFrame returns ErrStreamClosed, as documented ('reset by peer').",
  "all histories in which the peer answers a request with a reset frame",
  "requires reasoning about every path from the wire to the response channel",
  ["clientconn.go: readFrames, ErrStreamClosed","framereader.go: ReadFrame"])
p("C18","Responses go to the right caller exactly once",
  "A Response returned by Request or StreamRequest yields only a frame whose request id is the id of that request, yields at most one frame, and the channel behind it is never written after being closed nor closed twice.",
  "all interleavings of requests, received frames, connection loss, reconnects and Close",
  "concurrent maps and channels; schedules are unbounded",
  ["clientconn.go: writeBuffers, readFrames, closeRWC, response","serveconn.go: writeBuffers, readFrames, closeUntracked"])
p("C19","Closing a connection releases every waiting caller",
  "When a connection is closed or lost, every Response that was registered on it and not yet answered is released (GetFrame returns ErrStreamClosed); no Response can be registered afterwards on the dead connection.",
  "all interleavings of writers, reader and closers",
  "a missed schedule is a caller blocked forever",
  ["clientconn.go: closeRWC, writeBuffers","serveconn.go: closeUntracked, writeBuffers"])
p("C20","Request ids are unique and tell who started the stream",
  "Ids generated by a client connection are odd, ids generated by a server connection are even, and the first 2^63 ids generated on a connection are pairwise different, so a client-initiated stream never collides with a server-initiated one and ErrNoNewUUID cannot occur before that.",
  "all numbers of requests up to 2^63 on a connection, all interleavings of concurrent requests",
  "wrap-around of a 64-bit counter cannot be reached by a test",
  ["clientconn.go: nextRequestID","serveconn.go: nextRequestID","frame.go: FromClient, FromServer"])
p("C21","Concurrent server writes: frames are never interleaved and keep submission order",
  "When any number of goroutines write frames to one server connection, the bytes on the wire are a concatenation of whole frames (the last possibly cut by a transport failure), each accepted frame appears exactly once, and frames appear in the order in which the writes were submitted.",
  "all numbers of writers and all schedules, all batch sizes, all transport failures",
  "lock hand-over and batching depend on schedules",
  ["serveconn.go: writeFrameBytes, collectWriteFrames, writeBuffers"])
p("C22","A nil result of EndWrite means the frame was handed to the transport",
  "If EndWrite returns nil for a frame that had to be sent, all bytes of that frame were accepted by the underlying net.Conn.",
  "all batches, all points at which the transport fails, all transports honouring the net.Conn contract and the WebSocket overlay",
  "depends on the exact byte at which a vectored write fails",
  ["writer.go: writeBuffers","serveconn.go: writeBuffers","clientconn.go: writeBuffers","ws/server/conn.go: Write"])
p("C23","Server writers make progress: no lost wake-up and no self-deadlock",
  "A goroutine blocked in EndWrite on a live server connection always has something to wait for: whenever a write is pending and no goroutine holds the write lock, some pending writer can take it; a lock holder always processes its own request in its batch, so it never waits for a result nobody will deliver.",
  "all schedules, all numbers of writers, all channel sizes",
  "deadlock freedom is a statement about all schedules",
  ["serveconn.go: writeFrameBytes, collectWriteFrames","server.go: NewServer (WriteFrameChSize at least 1)"])
p("C24","Writing to a finished stream fails",
  "EndWrite on a StreamWriter whose stream no longer exists fails with ErrStreamNotExists and sends nothing.",
  "all positions of the write inside a write batch, all histories",
  "depends on how concurrent writes are grouped into a batch",
  ["clientconn.go: collectWriteFrames","serveconn.go: collectWriteFrames"])
p("C25","Every submitted client write is answered",
  "A Request or EndWrite on a client connection returns: at most one result is produced per write, and with reconnect enabled a write that was accepted into the queue is eventually given a result (code comment: 'guaranteed to be processed finally once committed').",
  "all interleavings of writes, disconnects, reconnects and Close",
  "an unanswered write is an eternal hang on a rare schedule",
  ["clientconn.go: writeFrameBytes, collectWriteFrames, abortRequestsWhenClosed, writeBuffers"])
p("C26","Stream tables are released exactly once and only when idle",
  "A server connection releases all its streams exactly once, after its reader has quit and while no writer is manipulating streams, and no stream is created afterwards, so no stream outlives its connection.",
  "all interleavings of the reader and any number of writers",
  "reference counting races",
  ["serveconn.go: addAndCheckInflight, tryFreeStreams, writeFrameBytes, readFrames","stream.go: ConnStreams.Release"])
p("C27","Blocking requests are handled one at a time in arrival order",
  "On one server connection, requests sent without the nonblock or stream flag are handled strictly one after another in the order received, and no later frame is dispatched while a blocking handler runs, even if handlers panic.",
  "all frame sequences, all schedules, all handler durations and panics",
  "ordering must hold for all schedules",
  ["serveconn.go: readFrames, serve, gate"])
p("C28","Every handled request is answered",
  "When a handler returns or panics on a live connection, the local side of the request's stream is closed: either the handler sent the final frame or the library sends a reset frame; a panic never kills the connection or the process.",
  "all handlers (any sequence of writes, return or panic at any point), all request flags",
  "handlers are arbitrary programs",
  ["serveconn.go: serve, handleRequestPanic","clientconn.go: handleRequestPanic"])
p("C29","Limit on concurrent streams per connection",
  "With MaxInboundInflightStreamPerConn = n > 0, at most n nonblocking handlers run at the same time on one connection; the connection is closed when the limit is exceeded.",
  "all sequences of blocking and nonblocking requests and handler completions",
  "the counter depends on the whole history",
  ["serveconn.go: serve, handleRequestPanic","conf.go: MaxInboundInflightStreamPerConn"])
p("C30","Limit on inbound frames per second",
  "With MaxInboundFramePerSecond = n > 0, no more than n requests or pushes are dispatched in any one clock second on one connection; the frame exceeding the limit is not dispatched and closes the connection.",
  "all arrival times under a non-decreasing clock, all frame sequences",
  "depends on arbitrary arrival times",
  ["serveconn.go: readFrames"])
p("C31","Closing a connection terminates its goroutines",
  "After a connection is closed or lost, its reader goroutine terminates, so Wait returns, OnClose is called and Shutdown can finish.",
  "all states the connection can be in when it is closed, all schedules",
  "a liveness property over all schedules",
  ["framereader.go: ReadFrame","stream.go: AddInFrame, Done","clientconn.go: loop, endLoop","serveconn.go: serve, tryFreeStreams"])
p("C32","Close notifications run exactly once",
  "Every function registered with NotifyWhenClose is called exactly once when the connection closes (at once if it is closed already), whatever the interleaving of registrations and concurrent closes.",
  "all interleavings of any number of registrations and closers",
  "races between registration and close",
  ["serveconn.go: NotifyWhenClose, closeUntracked"])
p("C33","Teardown happens once",
  "However many goroutines close or kick a server connection concurrently, it is untracked once, OnKickCB runs at most once, its untracked channel is closed once, and every Close call returns only after untracking is complete.",
  "all interleavings of any number of closers and kickers",
  "double close panics only on rare schedules",
  ["server.go: untrack, bindID","serveconn.go: Close, closeUntracked"])
p("C34","One connection per id",
  "At any time at most one connection is registered under an id; when SetID(id) returns, every connection it displaced has been untracked and closed, and SetID reports kick = true iff it displaced one.",
  "all interleavings of SetID calls on any number of connections and ids",
  "concurrent registration races",
  ["serveconn.go: SetID","server.go: bindID, untrack"])
p("C35","SetID terminates",
  "SetID on a connection returns after finitely many steps.",
  "all reachable server states, including connections that were closed earlier",
  "the failing history needs a close at a particular moment",
  ["server.go: bindID, untrack","serveconn.go: SetID"])
p("C36","A live registered connection stays reachable by its id",
  "After SetID(id) returned on a connection, GetConnectionInfoByID(id) returns that connection until the connection itself is closed or displaced by a later SetID(id); closed connections are never returned.",
  "all interleavings of SetID and Close on any number of connections",
  "races between closing one connection and registering another",
  ["server.go: untrack, bindID, GetConnectionInfoByID, WalkConnByID"])
p("C37","Kick order",
  "The second result of SetID orders registrations: if a connection displaced another one under the same id, its number is greater than the number returned to the displaced one.",
  "all interleavings of SetID calls",
  "needs an adversarial schedule between two atomic operations",
  ["server.go: bindID, kickOrder"])
p("C38","Dispatch depends exactly on the low 16 bits of the command",
  "ServeMux dispatches a request to the handler most recently registered for its low 16 command bits, independently of the opaque byte; an unregistered command runs no handler and closes the connection.",
  "all registration histories and all commands",
  "2^24 commands and unbounded histories",
  ["server.go: ServeMux.Handle, ServeQRPC","qrpc.go: Routing"])
p("C39","Duplicate registration panics",
  "If a handler already exists for a command, Handle panics and leaves the table unchanged; commands above MaxCmd and nil handlers are refused too.",
  "all registration histories",
  "unbounded histories",
  ["server.go: ServeMux.Handle"])
p("C40","Middleware order and short circuit",
  "Middleware runs in registration order, exactly up to and including the first one returning false; the handler runs iff all returned true.",
  "all middleware lists and results",
  "unbounded lists",
  ["middleware.go: HandlerWithMW, handlerMW.ServeQRPC"])
p("C41","Throttling releases everybody and never panics",
  "While throttled, accept and read loops wait; ClearThrottle releases every waiter; SetThrottle and ClearThrottle may be called in any order and any number of times without panic.",
  "all sequences of SetThrottle, ClearThrottle and waits, by one or several controllers",
  "waiter/controller races",
  ["server.go: waitThrottle, SetThrottle, ClearThrottle"])
p("C42","Shutdown hooks run exactly once",
  "Every function registered with OnShutdown runs exactly once when the server shuts down (at once if it already has); Shutdown may be called concurrently and repeatedly without panic.",
  "all interleavings of OnShutdown and Shutdown calls",
  "races",
  ["server.go: Shutdown, OnShutdown"])
p("C43","Accept back-off is bounded",
  "After consecutive temporary accept errors the server waits 5 ms, 10 ms, 20 ms, ... never more than 1 s, and starts again at 5 ms after a successful accept; an accept error never terminates the server unless it has been shut down.",
  "all sequences of accept results",
  "unbounded sequences",
  ["server.go: Serve"])
p("C44","Reconnect tries every address",
  "A reconnecting client tries its addresses round-robin: any n consecutive failed attempts (n = number of addresses) try each address exactly once, and it sleeps between attempts only after a full round.",
  "all address lists and all sequences of dial results",
  "unbounded sequences",
  ["clientconn.go: connect"])
p("C45","Close stops a reconnecting connection",
  "After Close on a connection created with NewConnectionWithReconnect the connection makes no further successful connections and Wait returns.",
  "all dial outcomes after Close",
  "liveness",
  ["clientconn.go: loop, connect, Close"])
p("C46","Close succeeds exactly once",
  "Of any number of concurrent Close calls on a client connection exactly one returns nil, the others return ErrConnAlreadyClosed; afterwards IsClosed is true and Request fails without sending.",
  "all interleavings of Close, IsClosed and Request",
  "races",
  ["clientconn.go: Close, IsClosed, writeFirstFrame"])
p("C47","TLS configuration is honoured",
  "A connection created with a TLS configuration never talks plain text: every dial it performs uses that configuration.",
  "all constructors, all dial attempts including reconnects",
  "every reconnect attempt counts",
  ["clientconn.go: NewConnection, NewConnectionWithReconnect, connect, dialTCP"])
p("C48","Weighted endpoint selection",
  "API.Call picks endpoint i for exactly weight(i) out of total-weight equally likely draws; an endpoint with weight 0 is never picked; the fallback branch is unreachable.",
  "all weight lists with positive sum, all draws",
  "unbounded lists and draws",
  ["api.go: getIdx, NewAPI"])
p("C49","API connection cache is consistent under concurrency",
  "However calls, reconnects and Close interleave, the API keeps at most one cached connection per endpoint, never hits its internal 'bug' panic, and after Close returns every connection it ever cached is closed and no new connection is made.",
  "all interleavings of any number of Call/CallOne/CallAll/Close",
  "races on two concurrent maps and a mutex",
  ["api.go: callViaIdx, callWithoutConn, safeCloseDeleteConn, safeStoreConnLocked, reconnectIdx, Close"])
p("C50","API retry bound",
  "CallOne hands a request successfully to a connection at most once; Call at most twice, and more than once only if the first attempt was sent but its response failed (so a non-idempotent request can be executed twice).",
  "all outcomes of every send, dial and response",
  "combinatorial failure outcomes",
  ["api.go: Call, CallOne, callViaIdx, callWithoutConn, callViaActiveConns"])
p("C51","Generated client tries every connection once",
  "A generated client's Request tries each connection at most once, starting from a rotating position, reports ErrServiceNA only after all failed to accept the request, and sends the request successfully at most once.",
  "all numbers of connections, all counter values, all outcomes",
  "counter wrap-around and failure combinations",
  ["codegen/client.go: Client.Request"])
p("C52","Generated server dispatch",
  "The service handler invokes exactly the method registered for (namespace, method), writes exactly one response frame with the request's id, marks failures with the error command and closes the connection after failures; different (namespace, method) pairs never share a key.",
  "all requests, all callback tables",
  "unbounded names and tables",
  ["codegen/service_handler.go: ServeQRPC, FQMethod"])
p("C53","RPC request encoding round trip",
  "Unmarshal(Marshal(r)) returns r for every RpcRequest; Size is the exact encoded length.",
  "all namespaces, methods and parameter byte strings",
  "unbounded sizes, varint boundaries",
  ["codegen/pb/rpc.pb.go: Marshal, MarshalTo, Size, encodeVarintRpc, sovRpc, Unmarshal"])
p("C54","RPC request decoding never panics",
  "Unmarshal returns a message or an error on every byte string.",
  "all byte strings",
  "adversarial input",
  ["codegen/pb/rpc.pb.go: Unmarshal, skipRpc"])
p("C55","WebSocket overlay is a transparent byte stream",
  "Reading from a WebSocket-backed connection with buffers of any sizes yields the concatenation of the binary messages received, without loss, duplication or reordering.",
  "all message sequences, all read buffer sizes",
  "unbounded combinations",
  ["ws/server/conn.go: Read, readBuffer"])
p("C56","Channel messages",
  "With the channel package, messages passed to Send arrive through Receive in order; Send(end = true) ends the sending side; Receive decodes every message into its argument, whether or not the caller asks for the command.",
  "all message sequences and all combinations of arguments",
  "unbounded sequences",
  ["channel/clienttransport.go: clientSender.Send, End, getFrame","channel/servetransport.go: serveSender, serveReceiver.Receive"])
p("C57","Bytes are transmitted once and in order despite partial writes and timeouts",
  "Writer.Write and the vectored write deliver to the connection a prefix of the given bytes, in order, without repetition or gaps, whatever partial writes and timeouts occur; they return nil only when everything was delivered, and the returned count is the number of bytes delivered.",
  "all sequences of partial writes, timeouts, errors and cancellations",
  "unbounded failure sequences",
  ["writer.go: Write, writeBuffers"])
p("C58","Deadlines",
  "A payload read never waits longer than 3 seconds once the header has arrived; header reads honour the configured timeout; a write gives up no later than the configured write timeout and checks for cancellation at least every 3 seconds.",
  "all timeout configurations",
  "all integer configurations, including 0 and negative",
  ["reader.go: ReadBytesWithMaxTimeout","writer.go: Write, writeBuffers","framereader.go: payloadReadMaxTimeoutSecond"])
p("C59","Closing cancels every handler context",
  "When a server connection closes, the context of every stream on it is cancelled, so handlers watching request.Context() stop.",
  "all sets of open streams, all close paths",
  "unbounded sets of streams",
  ["serveconn.go: closeUntracked","stream.go: newStream, Release"])
p("C60","Server-initiated requests are accepted by the client",
  "Every first frame sent by a server connection's Request or StreamRequest has an even id and is nonblocking, so a client with a handler dispatches it and never drops the connection because of it; a pushed frame is given to the subscriber only.",
  "all flags passed by the server code",
  "all flag bytes",
  ["serveconn.go: Request, StreamRequest","clientconn.go: readFrames"])
p("C61","The client's reader never uses a missing transport connection",
  "readFrames never builds its frame reader on a nil net.Conn (which would crash the process at the first read).",
  "all interleavings of the reader goroutine with the loop goroutine and Close",
  "a window of a few instructions between a check and a use",
  ["clientconn.go: readFrames, closeRWC"])
p("C62","Every received frame counts for the rate limit",
  "MaxInboundFramePerSecond limits all frames a peer sends: after more than that many frames in one second the connection is closed.",
  "all frame sequences, including frames of established streams and resets",
  "needs a peer that keeps one stream busy",
  ["serveconn.go: readFrames","framereader.go: ReadFrame","conf.go: MaxInboundFramePerSecond"])
p("C63","Kicking a connection completes",
  "A SetID that displaces another connection returns, and so does Close of the displaced connection, whatever the state of its transport, provided OnKickCB only writes frames to the displaced connection.",
  "all interleavings of SetID, Close and writers, all transport failures",
  "needs a transport failure in the middle of a kick",
  ["server.go: bindID, untrack","serveconn.go: Close, closeUntracked, writeFrameBytes, writeBuffers"])
p("C64","Every accepted connection is served or closed",
  "Every connection returned by the inner listener is handed to exactly one serving goroutine, or is closed exactly once (and OnClose told, if it was refused by OnAccept).",
  "all sequences of accept results, all connection types",
  "unbounded sequences; leaks are invisible to tests",
  ["server.go: Serve, TCPKeepAliveListener.Accept"])
p("C65","No connection is accepted after Shutdown",
  "Once Shutdown has succeeded, no further connection is accepted or served.",
  "all interleavings of Serve and Shutdown",
  "a race at start-up",
  ["server.go: Serve, trackListener, Shutdown"])
p("C66","Generated calls end to end",
  "A call through a generated client returns the method's result if the method succeeded, and an error if it failed or was not registered.",
  "all methods, arguments, results and command numbers accepted by the constructors",
  "all command numbers and results",
  ["codegen/client.go: Request","codegen/service_handler.go: ServeQRPC","framewriter.go: StartWrite"])
p("C67","Responses to server-initiated requests",
  "A response object of a server-initiated request gets at most one event (its frame, or a close), never a frame of another request, no response channel is closed twice, every request sent is released when the connection is closed, and a response is never treated as a request of the client.",
  "all interleavings of requesters, the reader and closers",
  "needs a response that arrives while the connection is being closed",
  ["serveconn.go: writeFirstFrame, writeBuffers, readFrames, closeUntracked"])
p("C68","The transport takes the bytes that were submitted",
  "What is transmitted on a connection are frames submitted on that connection, byte for byte as they were when submitted, although the buffers of writers are reused and shared by all connections of the process.",
  "all interleavings of any number of connections, writers and goroutines",
  "needs a caller that gives up because of a cancelled context exactly while another goroutine is about to transmit its buffer",
  ["framewriter.go: fwPool, Finalize, endWrite", "serveconn.go: writeFrameBytes, collectWriteFrames, writeBuffers", "server.go: Serve"])
p("C69","A handler can reach its connection",
  "For every request given to a handler, on the server and on the client, ConnectionInfo / ClientConnectionInfo, StreamInitiator and Close give or close the connection the request came in on.",
  "all connections, all request ids, any number of reconnects",
  "differs between the first transport connection of a client and the later ones",
  ["frame.go: ConnectionInfo, ClientConnectionInfo, Close, StreamInitiator", "clientconn.go: newConnection, connect", "server.go: newConn"])
p("C70","OnConnect and OnDisconnect are paired",
  "OnConnect and OnDisconnect of a client connection are called alternately starting with OnConnect, OnConnect exactly once per transport connection; during OnConnect reader and writer are running, during OnDisconnect there is no transport connection and no caller is waiting for a response.",
  "all interleavings, any number of reconnects",
  "needs all orders of failures, reconnects and Close",
  ["clientconn.go: loop, closeRWC"])
p("C71","After Wait returned nothing happens any more",
  "When the loop goroutine of a client connection has ended (Wait returns), its reader, writer and handlers have ended and the transport connection is gone; afterwards no subscriber, handler or callback is called, nothing is dialed and no response is delivered.",
  "all executions and all continuations",
  "absence of later events",
  ["clientconn.go: loop, Wait, Close"])
p("C72","ListenAndServe leaves no listener open",
  "When ListenAndServe returns, whether because listening on one of the bindings failed or because the server was shut down, every listener it opened is closed.",
  "all numbers of bindings, all points of failure, all interleavings of Serve goroutines, connections and Shutdown calls, all continuations",
  "Tests use one binding and ports that are free; a leaked listener is only visible as a port that accepts connections nobody serves.",
  ["server.go:179-192", "server.go:195-236", "server.go:244-259"])
p("C73","No connection is served after Shutdown returned",
  "Once a call of Shutdown has returned nil, no connection goroutine is running and none is ever started again.",
  "all numbers of bindings and connections, all interleavings of accept loops, connection ends and Shutdown calls",
  "Needs Shutdown to run exactly between Accept returning and wg.Add; tests shut an idle server down.",
  ["server.go:281-339", "server.go:515-544"])
p("C74","A shut down server winds down completely",
  "After Shutdown closed doneChan, with the listeners of all running Serve calls closed, no handler inside Shutdown, and no new calls, only finitely many further steps are possible in any order, and when none is possible any more all Serve calls, connection goroutines, Shutdown calls and ListenAndServe itself have returned.",
  "all numbers of bindings, connections and callers, all reachable states, all schedules",
  "Termination under every schedule; a test sees one schedule and cannot tell slow from stuck.",
  ["server.go:244-259", "server.go:281-339", "server.go:515-544"])
p("C75","A failed Shutdown has no effect",
  "If Shutdown returns an error because a listener could not be closed, the server goes on as before: all bindings keep accepting.",
  "all reachable states, all bindings, all continuations",
  "Needs a listener whose Close fails; no test has one.",
  ["server.go:524-529", "server.go:596-607", "server.go:296-317"])
p("C76","Shutdown returns whoever calls it",
  "Every call of Shutdown returns, including calls made by request handlers.",
  "all reachable states and continuations",
  "Non-termination in every continuation cannot be observed by a test.",
  ["server.go:541", "serveconn.go:158-159"])
p("C77","The WebSocket overlay loses no connection",
  "Every connection upgraded by the WebSocket overlay is returned by Accept exactly once, in the order in which it entered the backlog, or is closed.",
  "all interleavings of any number of upgrades, Accept calls and Close, all backlog sizes",
  "Needs connections in flight while the listener is closed or a full backlog; the WebSocket test has one connection.",
  ["ws/server/overlay.go:45-59", "ws/server/overlay.go:80-94"])
p("C78","A waiting GetFrame returns when the response arrives or is closed",
  "Once a response object is set or closed, every pending or later call of GetFrame or GetFrameWithContext returns: the frame, or ErrStreamClosed, and only the frame that was set.",
  "any number of concurrent callers, all interleavings",
  "Tests call GetFrame once per response.",
  ["clientconn.go:62-97"])
p("C79","A reconnecting connection reconnects",
  "When the transport connection of a Connection with reconnect is lost, the loop goroutine takes it down and goes on to connect anew; nothing that handlers, the subscriber or the lifecycle callbacks send on the connection keeps it from doing so.",
  "all interleavings of the loss of the connection with writes made by handlers (including the reset frame sent after a handler returned), the subscriber and the callbacks",
  "The loss has to fall between the start of a write and the end of the writer goroutine; the result is a silent deadlock.",
  ["clientconn.go: loop, readFrames, handleRequestPanic, writeFrameBytes"])
p("C80","A frame is transmitted at most once",
  "Every frame submitted on a client connection is given to the transport at most once, over all transport connections of the client connection together: a reconnect never repeats a request. Frames of an earlier connection were submitted before those of a later one.",
  "all interleavings, losses of connections, partial writes and reconnects",
  "A duplicate needs a loss at a particular place; at-most-once is a statement about all of them.",
  ["clientconn.go: loop, collectWriteFrames, abortRequestsWhenClosed, writeBuffers"])
p("C81","The result of a write tells whether it was transmitted",
  "When a write returns, on either side, nil means that all bytes of the frame were taken by a transport connection and an error means that they were not, so that the peer cannot have got the frame.",
  "all interleavings, partial writes, losses and reconnects",
  "Needs partial vectored writes and losses at every byte.",
  ["clientconn.go: writeFrameBytes, collectWriteFrames, writeBuffers"])
p("C82","An answer belongs to the request it is given to",
  "The frame a caller of Request gets as the answer is one that the server wrote with the id of this very request, after it had read the request, on the transport connection on which the request was sent; and it is the first such frame. Answers of one connection never reach requests of another one, whatever the order, delay, repetition and number of answers and reconnects.",
  "all executions of a client connection together with its servers",
  "Cross-talk between callers needs particular orders of registering, writing, losing and answering; the statement covers all of them.",
  ["clientconn.go: Request, writeBuffers, readFrames, closeRWC", "serveconn.go: readFrames, handleRequestPanic"])
p("C83","No answer is lost",
  "While a transport connection is up, the response of every request written on it has got exactly the first answer among the frames the client has read so far, and nothing if there is none: the response is registered before the request can be answered.",
  "all executions of a client connection together with its servers",
  "An answer may arrive before the write returns; losing it needs a particular interleaving.",
  ["clientconn.go:722-747", "clientconn.go:504-543"])
p("C84","What is read is what was submitted",
  "Whatever part of the bytes written by a connection has arrived at the other end, in whatever pieces, the reader there returns nothing but frames submitted on that connection, with their ids, commands, flags and payloads, in the order of submission, none twice; and all frames that have arrived completely.",
  "all executions of the write path of either side, all fragmentations and truncations, all reader configurations that admit the frames",
  "Composes concurrent writers, batching, partial writes, the layout and the parser over unbounded streams.",
  ["clientconn.go: collectWriteFrames, writeBuffers", "serveconn.go: writeFrameBytes", "framewriter.go, framereader.go"])
p("C85","A stream does not hold up the others",
  "A handler that does not read its stream, or has given it up, does not keep the frames of other requests on the connection from being read. False: the reader offers a frame to the stream's channel and waits until it is taken or the stream's context ends; a reset by the own side does not end that context. On a live connection with a well-formed peer this is the only thing the reader ever waits for.",
  "all continuations of all reachable states of the stream table (refutation: every continuation in which nobody takes the frame and the connection is not closed)",
  "Head-of-line blocking is a liveness failure over infinite continuations.",
  ["stream.go: AddInFrame, AddOutFrame, ResetByPeer", "serveconn.go: handleRequestPanic", "framereader.go: ReadFrame"])
p("C86","A request is handled at most once",
  "Over all transport connections of a client connection, the frames handlers are started for are frames that were submitted, unchanged; on each connection in the order of submission; those on a later connection were submitted after those on an earlier one; and no submission is handled twice, not even after a reconnect; a submission whose write returned an error is never handled.",
  "all executions of a client connection and of its servers (reader, streams, dispatch), all fragmentations",
  "Composes the reconnecting writer, the wire, the parser, the streams and the concurrent dispatch over unbounded executions.",
  ["clientconn.go: collectWriteFrames, writeBuffers, loop", "framereader.go", "stream.go", "serveconn.go: readFrames, serve"])
p("C87","Walking over the connections finds each live connection once; push ids differ",
  "A call of WalkConn visits no connection twice, none whose Close had returned before the call, and - unless stopped - every connection that was there when it began and that nobody had begun to close when it ended. WalkConnByID calls its function for increasing positions of the list, with a connection whose id is at that position, for every position whose id was registered before the call on a connection not closed meanwhile. GetPushID never returns an id twice.",
  "all interleavings of any number of walks with connections coming, registering, kicking each other and closing",
  "The maps change during the walk.",
  ["server.go:562-594", "server.go:421-444, 450-511"])
p("C88","A call goes to an endpoint of the list",
  "Call, CallOne and CallAll use only endpoints given to NewAPI: CallOne the endpoint asked for, refusing unknown ones; CallAll each endpoint, with one entry per endpoint in its result, whatever the order in which the calls finish; and no call panics. False with more weights than endpoints: a draw may give an index outside the list; the call panics with the mutex locked, and then calls that must dial, and Close, hang forever.",
  "all configurations, draws and interleavings; all orders of completion",
  "Quantifies over configurations, random draws and interleavings; the damage is a lock that is never released.",
  ["api.go:30-63", "api.go:80-89", "api.go:97-133", "api.go:151-182", "api.go:205-216", "api.go:238-250"])
p("C89","When a client connection is closed or lost, everything ends",
  "After a connection made by NewConnection has been closed or lost, its callers and goroutines take a bounded number of further steps; when none of them can step any more, every Request and stream write has returned, the loop, the reader, the writer and all handlers have ended, the connection is closed, and every response ever registered has been answered or closed.",
  "all executions, any number of callers inside a call, frames still arriving, further Close calls; no new calls",
  "A leaked goroutine or a caller hanging depends on where each of them was when the connection broke.",
  ["clientconn.go:213-249", "clientconn.go:380-465", "clientconn.go:477-546", "clientconn.go:574-772"])
p("C90","Generated methods return what the service's method returns",
  "The generator accepts exactly services whose methods take a context and one input and return one output that takes errors, under names that differ after CamelCase, and prints code for them; a call of a generated client method, answered by the generated callback, returns what the service's method returns for that argument, and an output carrying the error if the argument or result cannot be encoded or decoded.",
  "all services, types, encodings that give values back, arguments, results and fragmentations of the answer",
  "Client and callback choose encodings independently from reflection; the tests generate no code at all.",
  ["codegen/generator.go:40-96", "codegen/generator.go:206-219, 270-303", "codegen/generator.go:363, 383-457", "codegen/client.go:37-75", "codegen/service_handler.go:27-68"])
p("C91","The command-line tool sends what it is told to send",
  "qrpcurl with host:port/cmd, a flag byte and a payload sends exactly one frame with that command, flag byte and payload to host:port and prints the response; with any other arguments it sends and dials nothing; it never panics.",
  "all argument lists, commands, flags, payloads and responses",
  "All flag bytes and argument shapes.",
  ["tool/qrpcurl/main.go:25-108", "clientconn.go:328-374"])
p("C92","Pushes reach the subscriber",
  "Every push whose write returned nil on a server connection, once its bytes have arrived and the client has read on until there was nothing more to read, was given to the subscriber exactly once, unchanged and in the order of submission; requests of the server reach the client's handler at most once, in the order of submission, also over reconnects; the subscriber gets nothing but pushes and the handler no push.",
  "all executions of a client connection and its server connections, all frames, fragmentations and reconnects",
  "Needs the composition of the server's write path, the byte stream, the stream tables and the client's reader.",
  ["serveconn.go:444-695", "framereader.go:40-127", "stream.go:38-59", "stream.go:106-158", "clientconn.go:477-546"])
p("C93","A stream arrives end to end",
  "The frames of a stream whose submissions contain no reset and nothing after the end, written by any goroutines on one side, are handed to the user of that stream on the other side (the first by ReadFrame, the others through FrameCh) in the order of submission, unchanged, none repeated and none of those given to the transport left out; once everything has arrived and been read, all whose write returned nil have been handed over or are being handed over; with the end of the stream, all frames of the stream that were given to the transport have been.",
  "all executions of the write paths of client and server connections, all frames, keys, other traffic, fragmentations and transport failures, all interleavings on the receiving side before the connection is torn down",
  "Needs the composition of the write path, the byte stream, the frame reader and the stream tables of the other side.",
  ["clientconn.go:380-426", "clientconn.go:548-772", "serveconn.go:444-695", "framereader.go:40-127", "stream.go:38-223"])
p("C94","Every handled request is counted once",
  "With a counter or latency metric configured, the metric is updated exactly once for every request given to the handler, when the handler has ended, with the request's command and with whether (and with what error) the handler ended; nothing else updates it; when the connection has ended, all requests given to a handler have been counted.",
  "all executions of the server connection's reader, dispatcher and handlers, blocking and not, all commands, all ways in which handlers end, all configurations of the two metrics",
  "Needs the interleavings of the reader, the dispatcher and any number of handlers with the end of the connection.",
  ["serveconn.go:194-221", "serveconn.go:227-248", "serveconn.go:250-278"])
p("C95","Writes to a connection work from the moment it can be found",
  "A write on a server connection works, i.e. is transmitted and returns, from the moment the connection can be found with WalkConn.",
  "all interleavings of any number of writers with the start of serve",
  "The window between newConn and the start of serve is a few instructions wide.",
  ["server.go:421-444", "serveconn.go:145-180", "serveconn.go:480-507", "serveconn.go:679-695"])
p("C96","Recycled read buffers do not mix connections",
  "The bytes that a connection's reader takes out of its buffered reader, which is shared through a pool with all other connections, are exactly the bytes of that connection from the first on, none left out; readers in use never share a buffer.",
  "all sequences of connections made, read and finalized, all fragmentations, all read sizes, all choices of the pool",
  "Depends on the reuse pattern of a global pool over the life of the process.",
  ["reader.go:33-53, 97", "clientconn.go:485-486", "serveconn.go:173, 379"])
p("C97","Changing the read timeout takes effect",
  "After SetReadTimeout the reader waits for the peer according to the new timeout, and setting it never fails.",
  "all interleavings of changes by handlers and by functions given to WalkConn with the reader, all timeouts and times",
  "Depends on what the reader is doing at the time of the change.",
  ["reader.go:55-58, 77-97", "serveconn.go:111-118, 173", "framereader.go:86, 110"])
p("C98","A channel message is received as it was sent",
  "A message given to Send and encoded without error is decoded by Receive at the other end to the same message.",
  "all message types, with and without own Marshal and Unmarshal methods on values or pointers, all messages, sent as value or pointer",
  "Depends on Go's method sets for every kind of message type.",
  ["channel/encode.go:6-25"])
p("C99","The WebSocket listener goes on after a failed Accept",
  "A listener of the WebSocket overlay that is not closed takes new connections and returns them from Accept, also after an Accept of the listener below it has failed; if it no longer can, its Accept reports an error.",
  "all executions of the HTTP server, the upgrade handlers, Accept and Close, all errors of the inner listener, all backlog capacities",
  "Needs a listener that fails at a chosen moment and the absence of any later progress.",
  ["ws/server/overlay.go:39-98", "server.go:296-317", "server.go:375-395"])
p("C100","Both ends of a connection are wrapped as configured",
  "An accepted connection uses TLS with the binding's configuration if one is given, WebSocket above it if the overlay is configured, keep-alive, and the configured buffer sizes; a dialled connection likewise; so both ends understand each other if and only if both configure TLS or neither, and both the overlay or neither.",
  "all bindings and client configurations, all three places that dial",
  "The combinations are never tested together.",
  ["server.go:195-236", "server.go:340-408", "ws/server/overlay.go:39-78", "ws/client/conn.go:17-62", "clientconn.go:99-176", "clientconn.go:259-305"])
p("C101","Dialling ends within DialTimeout",
  "A dial with a positive DialTimeout ends, with a connection or an error, within it.",
  "all configurations, all durations of connecting and of the handshakes, including silent peers",
  "A test needs a peer that accepts and stays silent, and unbounded waiting.",
  ["clientconn.go:117-150", "ws/client/conn.go:17-62"])
p("C102","Connections are closed at the configured rate",
  "With MaxCloseRate set, connections of a binding are closed no faster than the limiter allows, and closing one connection takes one passage through the limiter.",
  "all executions of any number of goroutines calling Close and SetID on any number of connections, all limiters, all timings",
  "a burst of displaced connections at a chosen moment, and the number of Close calls per connection, are not produced by tests; limits are statistical there",
  ["serveconn.go:755-767", "server.go:142", "server.go:156-160", "server.go:450-489"])
p("C103","A panic stays on its connection",
  "A panic in user code that runs for one connection (handler, middleware, subscriber, codec, callbacks, metrics), or in the reader of one connection, does not end the process and with it all other connections.",
  "any number of connections and frames, every choice of which calls panic",
  "tests do not make every callback panic; a crash of the process also ends the test that provokes it",
  ["serveconn.go:145-225", "serveconn.go:250-278", "serveconn.go:322-442", "server.go:281-339", "clientconn.go:213-249", "clientconn.go:477-568"])
p("C104","Package names in generated code mean the right packages",
  "In a generated file no package and no name is imported twice, and every package name in the text means the package that the generator had in mind there.",
  "all services, packages of their types, orders of iteration, names already given out in the process, and ways of choosing free names",
  "Depends on map order and on other packages' last names; the tests generate no code.",
  ["codegen/generator.go:98-169", "codegen/generator.go:272, 319, 351"])
p("C105","Recycled write requests carry the results of their own writes",
  "The write requests recycled through the process-wide pool never carry a result from one write to another: every write returns the result of its own frame, the goroutine that answers never blocks or finds a missing frame, and a request in the pool is empty and known to nobody else.",
  "all interleavings of any number of writes, connections and answering goroutines, including writes that give up and connections that end",
  "Needs the pool to hand a request from one connection to another at a chosen moment.",
  ["serveconn.go:307-310", "serveconn.go:448-540", "serveconn.go:542-620", "clientconn.go:380-418", "clientconn.go:703-772"])
p("C106","The table of outstanding requests holds only requests that somebody waits for",
  "A connection's response table holds exactly the requests that were given to the transport, are not answered, and whose caller still waits; so its size is bounded by the number of waiting callers.",
  "all executions, both sides",
  "A leak shows only after very many unanswered requests on one connection.",
  ["clientconn.go:722-743", "clientconn.go:504-543", "clientconn.go:71-97", "clientconn.go:429-443", "serveconn.go:393-412", "serveconn.go:550-582", "serveconn.go:769-795"])
p("C107","A call gets what its handler answered",
  "If every handler answers each request by a relation R (request frame, response frame), then whatever a caller's response object receives is R-related to the caller's own request frame: it was submitted by a handler started for exactly that frame, arrives with the same id, flags, command and payload, and is the first frame with this id; and on a live connection the caller gets it.",
  "all executions of a client with any number of callers and reconnects, any server interleaving, batching, fragmentation and answering order; all request, response frames and relations R",
  "Mixed-up answers need particular interleavings of many callers, batches, partial reads and reconnects; no test goes through them all.",
  ["clientconn.go:213-305", "clientconn.go:504-546", "clientconn.go:722-743", "serveconn.go:250-278", "serveconn.go:322-442", "serveconn.go:452-695", "framereader.go:40-127"])
p("C108","On a live client connection every call gets through",
  "While a client connection is up and nothing goes wrong on its transport, its callers, writer and reader never wait for each other in a circle: they take a bounded number of steps, after which every Request and stream write has returned with a result, the queue is empty, the writer and the reader are ready for more, and every request written successfully is outstanding or answered.",
  "all executions up to any live state, then all interleavings of any number of callers, the writer, the reader and arriving frames; with and without reconnect, all queue sizes",
  "Deadlocks between callers, the writer and the response table depend on the state reached and the interleaving from there.",
  ["clientconn.go:346-426", "clientconn.go:477-546", "clientconn.go:574-772"])
p("C109","A call of the server gets what the client's handler answered",
  "The frame that Request or StreamRequest of a server connection gets as the answer is one that a handler of the client submitted in answer to a frame the server submitted with the id of this very request, unchanged, after the client had read the request; it is the first such frame; no answer is lost while the connection is open; and an answer is taken for a request only if it is a further answer to the same request or the connection is closed.",
  "all executions of a server connection with its client: any number of requesters, handlers and closers, any batching on both sides, all fragmentations and truncations on the way, answers in any order, repeated, late or missing",
  "Mixed up, lost or misdirected answers depend on the interleaving of requesters, the reader, closers and the peer.",
  ["serveconn.go:393-412", "serveconn.go:548-620", "serveconn.go:698-795", "clientconn.go:503-568"])
p("C110","Calls of generated methods over real connections return what the service's method returns",
  "What a generated client makes of the frame that its request gets is what the generated service gives for that very request: the result of the method registered for its namespace and method name on its parameters, the error this method returned, or that there is no such service; for generated methods, the value returned is one that the service's method may return for the argument.",
  "all executions of a client connection with its servers: any number of concurrent generated calls and other requests, services with any methods and any state, any batching on both sides, all fragmentations and truncations on the way, answers in any order, resets, reconnects",
  "Mixed up answers of concurrent generated calls depend on interleavings, and on encodings of requests and answers that tests sample.",
  ["codegen/client.go:37-76", "codegen/service_handler.go: ServeQRPC", "clientconn.go:328-374", "clientconn.go:477-546", "serveconn.go:194-221"])
p("C111","Frames over the WebSocket overlay",
  "Over the WebSocket overlay a batch of frames is sent as one message per frame, none of them in part; and the frames read at the other end are those sent, unchanged and in order, however the bytes are cut into messages and whatever other messages come in between; every frame that has arrived completely is read. What is proved of calls, streams and pushes over plain connections therefore holds over the overlay.",
  "all batches of frames, all sequences of messages of all kinds, all points at which either direction fails",
  "Message boundaries inside headers and payloads, empty and foreign messages in between, and failing writes come in unbounded variety.",
  ["ws/server/conn.go:24-68", "reader.go:72-113", "framereader.go:83-127", "writer.go:85-136"])
p("C112","Channel messages end to end",
  "The messages passed to successive Sends of a channel, over a connection shared with any other traffic, are returned by Receive on the other side in the order sent, none repeated, each with its command and value; if every Send returned nil, over one transport connection, and everything has arrived and been handed over, exactly the messages sent are returned; and after a handler's last message Receive returns ErrStreamFinished.",
  "all message sequences of which none but the last is marked as last, all encodings that can be decoded, all executions of the write paths of client and server connections, all other traffic, fragmentations, failures and interleavings on the receiving side before the connection is torn down",
  "Messages of many channels, interleaved with other frames by the write path, cut by the transport and picked up by concurrent readers, combine in unboundedly many ways.",
  ["channel/clienttransport.go:66-94", "channel/clienttransport.go:114-151", "channel/servetransport.go:42-93", "framewriter.go:97-212", "framereader.go:40-127", "stream.go:106-158"])
p("C113","A frame returned by the API is the answer to this call's request",
  "A frame returned by Call, CallOne or CallAll is one the response of a request made by this very call got, on a connection dialled for the endpoint the call went to (for CallOne, the one asked for): the request carries the command and the payload of the call, no two calls share a request, and the frame is unchanged one that a handler at that endpoint submitted as its answer to that request.",
  "all executions of any number of goroutines calling through the API and closing it, over connections in any state, with any other traffic, failures and interleavings; all commands, payloads and answer relations",
  "Calls share, replace and close connections concurrently, while the connections multiplex requests of many calls; the combinations are unbounded.",
  ["api.go:80-89", "api.go:126-236", "clientconn.go:62-97", "clientconn.go:328-374", "clientconn.go:477-546", "serveconn.go:250-278", "serveconn.go:322-442", "framewriter.go:97-143"])
p("C114","The API sends a call's request at most twice per endpoint, and not just once",
  "CallOne makes at most two requests and Call at most four; neither makes more than one more than the number of failures it met, so exactly one if nothing fails. The requests it submits are different ones, each carrying the command and payload of the call, each on a connection dialled by the API, for CallOne to the endpoint asked for. At-most-once delivery does not hold: a request that a server has read in full is sent again when the connection breaks before its answer.",
  "all executions of any number of goroutines calling through the API and closing it, over connections in any state, with any other traffic, failures and interleavings; all commands and payloads",
  "The retries depend on failures at every point of a call and on what other goroutines do with the shared connections; a test injects a few failures into a few interleavings.",
  ["api.go:80-89", "api.go:126-236", "clientconn.go:328-374"])
p("C115","A generated call is carried out at most once, and ErrServiceNA means not at all",
  "However often connections break and whatever the servers do: over all connections of a generated client and all their transport connections, a handler is started for at most one of the requests of a call; if the call returned a frame it is that one, and if it returned ErrServiceNA there is none, then or later. Every request on the connections belongs to one call and carries its marshalled bytes and the client's command; a call tries the connections in turn, none twice, returns ErrServiceNA only when it has tried all, makes at most one request per connection and returns at most once. What it returns is what the generated service gives for its request.",
  "all executions of any number of goroutines calling through a generated client over any number of reconnecting connections, with any traffic, failures, reconnects and interleavings; all calls",
  "Whether a request is tried on the next connection depends on where a write fails relative to what the server has read, for every interleaving of callers, batches and reconnects.",
  ["codegen/client.go:22-76", "clientconn.go:328-426", "clientconn.go:595-772"])
p("C116","A generated call returns once its context has ended",
  "When the context given to a generated call ends, the call returns. False: Request does not look at the context, and on a reconnecting connection that is down a write that is in the queue waits until a later dial has succeeded; so does the ResetFrame that the call makes when it has noticed the end of its context. Other than that, a call whose context has ended waits for nothing but room in the queue of a connection that is up.",
  "all executions of any number of goroutines calling through a generated client, all continuations without a successful dial",
  "The statement is about all continuations of an execution; a test cannot show that a call never returns, nor list all the places where it may wait.",
  ["codegen/client.go:53-62", "clientconn.go:380-426"])
p("C117","A client connection is thread safe: its fields are used without data races",
  "In every execution of a client connection, two accesses to one of its fields of which at least one writes and one is not atomic are ordered by happens-before as the Go memory model defines it. False of rwc: the reader reads it at its start (482, 485) without the mutex, so that closeRWC's write (437) is unordered with it when the connection ends while the reader starts, and GetReusedCon (clientconn_reuse.go:25) reads it without any lock. True of all other fields (the response table, the contexts and the writer of the current transport connection, its wait group, the stream table, the batch, the address index), and on rwc there is no other race.",
  "all executions: any number of transport connections, handlers and other goroutines, all interleavings, all uses (writes, Close, GetReusedCon)",
  "The race detector reports races only of executions it sees, and only near in time; absence of races is a statement about all interleavings.",
  ["clientconn.go:23-58", "clientconn.go:187-305", "clientconn.go:429-546", "clientconn.go:574-772", "clientconn_reuse.go:24-26"])
p("C118","A server connection's fields are used without data races",
  "In every execution of a server connection, two accesses to one of its mutable fields (serveconn, ConnectionInfo, and the frame reader's timeout and buffer) of which at least one writes and one is not atomic are ordered by happens-before. False of three fields: a goroutine that gets the connection from WalkConn before serve has set it up races with it on reader (118 against 173) and on inflight (683, 684, 692 against the plain store at 177), since newConn publishes the connection in activeConn first; and SetReadTimeout (reader.go:57) called by the handler of a non-blocking frame races with the reader's next read (reader.go:83). True of all other fields (closed, id, closeNotify, respes, the batch, writer, the read buffer); and of reader and inflight if nobody got the connection from WalkConn, and of the timeout if it is set only by blocking handlers or by the reader itself.",
  "all executions: any number of handlers and of other goroutines that have the connection, all interleavings, all sequences of nested calls of GetID, SetID, NotifyWhenClose, ReaderConfig, Close and the frame writer",
  "The race detector reports races only of executions it sees; absence of races is a statement about all interleavings.",
  ["serveconn.go:27-225", "serveconn.go:322-442", "serveconn.go:452-695", "serveconn.go:755-795", "server.go:421-444", "server.go:589-594", "reader.go:38-58", "reader.go:83"])
p("C119","A server's fields are used without data races",
  "In every execution of a server, two accesses to one of its mutable fields (listeners, done, shutdownFunc, and ln of its bindings) of which at least one writes are ordered by happens-before. True of listeners, done and shutdownFunc, although Shutdown walks shutdownFunc without the mutex (server.go:536): it does so after it has set done under the mutex, and OnShutdown appends only while done is false. False of ln, which ListenAll stores without the mutex (220): another goroutine that has the server, in BindingConfig (240), ListenAll or ServeAll, races with it. Every race on ln is one of that store, and there is none if nobody calls ListenAll once another goroutine has the server.",
  "all executions: any number of goroutines, all interleavings, all sequences of calls of ListenAll, ServeAll, BindingConfig, Serve (trackListener), Shutdown and OnShutdown, nested through hooks and callbacks",
  "The race detector reports races only of executions it sees; that the unlocked walk over the hooks is never concurrent with an append is a statement about all interleavings.",
  ["server.go:127-176", "server.go:194-259", "server.go:281-287", "server.go:410-418", "server.go:515-559", "server.go:596-607"])
p("C120","A write waits for a slow peer",
  "A write whose context is not cancelled and whose timeout, if it has one, is not reached does not fail because the peer reads slowly: it goes on where it stopped and returns nil when and only when the peer has taken all bytes. True over TCP. False over TLS and the WebSocket overlay, where it fails if the peer does not take all bytes within the first three seconds, also without any write timeout, since the error of the internal deadline (writer.go:59, 113) is no *net.OpError there and is taken for a failure.",
  "all lists of buffers and all sequences of amounts the peer takes before each internal deadline, any number of stalls",
  "A test has to stall a peer for more than three seconds over each transport, at every possible position in the data.",
  ["writer.go:34-83", "writer.go:85-136", "ws/server/conn.go:66-68"])
p("C121","Calls of the API do not wait for each other's dials",
  "A call of the API that needs a connection to one endpoint is not held up by another call dialling a different one, and neither is Close. False: callWithoutConn dials with the API's mutex held (api.go:152-162), so while a dial lasts every call that has to dial, or that has to take a broken connection out of the cache, and Close stand still, whatever the endpoint. What holds: the mutex is the only thing a call waits for besides its own dial, Request and response; whoever has it gives it back after finitely many of its own steps unless it dials; and a call that has found a cached connection and whose Request and response succeed never asks for the mutex.",
  "all executions of any number of goroutines calling Call, CallOne and Close in any order, with any results of dials, requests and responses",
  "A test needs an endpoint whose dial hangs at the moment another goroutine's connection breaks, and shows one schedule; the claim is about what a goroutine can wait for in any of them.",
  ["api.go:135-182", "api.go:184-216", "api.go:252-268"])
p("C122","Queues hold no more than they are configured for",
  "At every moment of every execution: the write queue of a server connection holds at most WriteFrameChSize requests (NewServer makes it at least 1) and a batch handed to the transport at most as many frames; the same for a client connection; the read queue of a server connection holds at most ReadFrameChSize frames; the accept queue of the WebSocket listener holds at most backlog connections. A submission that finds the queue full waits.",
  "all queue sizes, all executions of any number of goroutines on a connection or listener",
  "The size of a batch depends on how submissions interleave with the collection of the batch; a test shows one interleaving.",
  ["serveconn.go:452-540", "serveconn.go:622-677", "clientconn.go:574-701", "serveconn.go:322-442", "server.go:161-164", "server.go:428-431", "ws/server/overlay.go:45-89"])
p("C123","A configuration that is accepted does not panic later",
  "If NewServer, NewConnection, NewConnectionWithReconnect or NewAPI accepts a configuration (sizes of queues, list of addresses, weights), no connection accepted or made from it, no attempt to reconnect and no Call panics because of these values; and a constructor that refuses its configuration leaves no transport connection open.",
  "all integers as sizes and weights, all numbers of addresses and endpoints, all behaviour of peers and handlers on an accepted connection",
  "The sizes are unbounded integers, and the panic happens in another goroutine than the one that passed the value.",
  ["server.go:155-176", "server.go:334-337", "server.go:421-432", "clientconn.go:99-116", "clientconn.go:151-176", "clientconn.go:187-196", "clientconn.go:267", "api.go:30-63", "api.go:238-239"])
p("C124","Registering and dispatching at the same time",
  "Handle and ServeQRPC of one ServeMux may be called by any number of goroutines at once: each call has the outcome it would have if the calls were made one at a time, in an order in which each takes effect between its beginning and its end; the table is used without data races and is never assigned to while nil; goroutines within calls never all wait for each other; handlers, middleware and panics of Handle run with the lock released. So a request dispatched after a registration of its command has returned finds a handler, and of concurrent registrations of one command (without opaque byte) one at most is accepted.",
  "all numbers of goroutines, all calls, handlers, middleware and commands, all interleavings",
  "The schedules are unbounded, and a lost registration or a race on the map shows up only in few of them.",
  ["server.go:69-78", "server.go:86-106", "server.go:110-124"])
p("C125","A handler can call its peer and wait for the answer",
  "A handler of the server, or a subscriber, that sends a request on the connection its own request came from (ConnectionInfo.SC.Request, StreamRequest; Connection.Request) gets the answer. False for handlers of requests without NBFlag, for SubFunc and for the subscriber of a client: the goroutine that would read the answer waits for them to return, so as long as the connection is open they wait for ever, nothing more is read from the connection, and no other call on it gets an answer. It holds for handlers of requests with NBFlag while the reader is reading, and such a wait is the only thing that keeps the reader from it.",
  "all executions of a server connection with its reader, main goroutine, any number of handlers, calls and closers (refutation: every continuation of every state with such a wait); all executions of a client connection with a subscriber",
  "The circle is closed only by programs that call back from within a handler, and the usual request (no flags) is of the blocking kind; tests of handlers that only answer never see it.",
  ["serveconn.go:385-412", "serveconn.go:425-436", "serveconn.go:194-221", "clientconn.go:71-77", "clientconn.go:494-501"])
p("C126","A live server connection serves every request",
  "While a server connection is open, its reader, its main goroutine and its handlers never wait for each other in a circle: from any state they take at most a fixed number of steps, plus eleven for each return of ReadFrame. When none of them can take a step and the connection was not throttled, the reader is in ReadFrame, the main goroutine waits for the next frame, no handler is running or cleaning up, and for every frame that is neither a push nor a response a handler was started and has finished, and the side of its stream that answers is closed.",
  "all executions of a server connection up to any state, then all interleavings of its reader, main goroutine, handlers (blocking and nonblocking) and arriving frames while it stays open; all rate limits and frames",
  "A circle of waits between the unbuffered channel, the wait group and the handlers needs particular interleavings; a test sees only that the requests it sends are served under the schedule it happens to get.",
  ["serveconn.go:145-225", "serveconn.go:250-278", "serveconn.go:322-442"])
p("C127","Every call is answered",
  "When a client connection that is up and its server have come to rest - everything written has arrived and been read, nobody can take a step - and every handler that finished has written an answer, then every call whose write returned nil on this connection was given to a handler, which has finished, and its response object has got exactly one thing: a frame with the call's id that a handler submitted, unchanged; and if handlers answer by a relation R, this frame answers the call's own frame by R.",
  "all executions of a client with any number of callers and reconnects and of its server, all frames, interleavings, batchings and fragmentations that lead to such a moment; all relations R",
  "A lost call shows only as a caller that waits for ever; which of the dozen hand-overs between caller and handler lost it depends on the schedule, and a test can only time out.",
  ["clientconn.go:328-418", "clientconn.go:477-546", "clientconn.go:574-772", "framereader.go:40-77", "stream.go:106-217", "serveconn.go:322-442", "serveconn.go:452-695"])
p("C128","OnKickCB is called while the displaced connection is still open",
  "Whenever OnKickCB is called it is for a connection that a SetID is displacing: it can no longer be found by id or by walking over the connections, but is not closed, its context is not cancelled, everybody who wants to close it waits, and the displacing connection is not registered yet. A connection that is untracked by the SetID displacing it has the callback called for it before it is closed and before that SetID or any Close of it returns; one that a Close untracked first never has.",
  "all interleavings of any number of SetID, Close and NotifyWhenClose calls on any number of connections and ids",
  "A callback that finds its connection already closed only fails when another goroutine closes the connection between two particular instructions of untrack.",
  ["server.go:450-489", "server.go:491-512", "serveconn.go:755-795"])
p("C129","Every call of the server is answered",
  "When a server connection that is open and its client, which has a handler, have come to rest - everything written has arrived and been read - and every handler the client started has written an answer, then every request of the server whose write returned nil was given to a handler of the client, and its response object has got exactly one thing: a frame with the request's id that the client submitted, unchanged; and if the client's handlers answer by a relation R, this frame answers the request's own frame by R. Whenever its reader is about to read, a client with a handler has started one for every frame with a server's id that ReadFrame returned on the current transport connection.",
  "all executions of a server connection with any number of requesters and of its client with any number of callers, handlers and reconnects; all frames, interleavings, batchings and fragmentations that lead to such a moment; all relations R",
  "A lost request of the server shows only as a requester that waits for ever; which hand-over lost it depends on the schedule, and no test of the repository has a client handler that is called by several requesters at once.",
  ["serveconn.go:322-412", "serveconn.go:452-695", "serveconn.go:698-795", "clientconn.go:429-443", "clientconn.go:477-568", "clientconn.go:574-772", "framereader.go:40-77", "stream.go:106-217"])
p("C130","A streamed call gets what the handler made of the whole stream",
  "When a client connection that is up and its server have come to rest, every finished handler has answered and handlers answer whole streams by a relation R, then for every call all of whose frames were written successfully on this connection, with an answer all of whose frames were written successfully: the handler was given exactly the frames of the call, in order; the frames it submitted answer them by R; the call's response object got exactly one thing, the first of these; and the caller's stream handed over exactly these frames, in order. The two streaming handlers of README.md submit exactly the frames they are to answer, for every request: one frame with the payloads of all frames in order, or one frame for each frame; the latter form a proper stream whose last frame ends it just in case the last frame of the request does.",
  "all executions of a client with any number of callers and reconnects and of its server; all streams of any number of frames without resets and without frames after their end; all interleavings, batchings and fragmentations that lead to such a moment; all relations R; for the README programs, all requests and all states of a writer that is ready for a frame",
  "A frame lost or exchanged in the middle of a stream shows only under particular interleavings of several streams on the reader of either side; tests check one stream with fixed payloads and compare nothing but the first answer frame.",
  ["README.md:168-252", "serveconn.go:322-412", "serveconn.go:452-695", "clientconn.go:429-443", "clientconn.go:477-546", "framereader.go:40-77", "framewriter.go:51-143", "stream.go:106-217"])
p("C131","Calls of the API and of generated clients get their answers",
  "A goroutine that called the API (Call, CallOne) or a generated client waits for the answer to its request, whose write returned nil. Whenever the connection it waits on is up and both sides of it have come to rest, every finished handler has answered and the answers are streams without resets and without frames after their end: exactly one thing has happened to the response object it waits for, and if the request was written to the current transport connection, this is a frame with its id that the server submitted; the call can return this frame and no other one. If the handlers of each endpoint answer by a relation R, the frame answers the arguments of this call by the R of the endpoint it was sent to, which for CallOne is the one it was told; if the server serves the command with a generated service, the generated call returns what the service gives for its request. Calls of a generated client that gave up and sent resets do not disturb the others.",
  "all executions of the API or of a generated client with any number of goroutines, endpoints and connections, all reconnects, retries, failed attempts and resets; all interleavings, batchings and fragmentations that lead to such a moment; all commands, payloads, relations R and services",
  "It spans four write and read paths, the tables of response objects and the retry loops; a wrong assignment of an answer needs several goroutines on the same connection, retries and resets interleaved.",
  ["codegen/client.go:37-76", "api.go:80-95", "api.go:126-182", "api.go:218-236", "clientconn.go:328-374", "clientconn.go:477-546", "serveconn.go:322-412", "serveconn.go:452-680"])
p("C132","A message pushed to all connections reaches each of them once",
  "When the documented handler that pushes a message to all connections answers its request, the push has been written, with its write returned nil, on every connection that was there when its walk began, that nobody had begun to close when the walk ended and that is not being closed. If no other writer writes the very same bytes, it is in the history of no connection twice and of none that the walk did not visit; and when all that was written on such a connection has arrived and its client has read until there was nothing more, the client has got the message exactly once.",
  "all executions of a server with any number of such handlers, other walks, push ids, writers and connections that come, register, displace each other and close at any moment; writes from before a connection is served; all batchings and fragmentations; all commands and payloads",
  "It spans sync.Map iteration, a goroutine per connection, the group commit of every connection with other writers, the start and end of connections; a push missed or made twice needs a particular interleaving of several of them.",
  ["README.md:283-304", "server.go:562-565", "server.go:589-594", "serveconn.go:286-289", "serveconn.go:453-527", "serveconn.go:145-180"])
p("C133","The contexts of streams do not pile up",
  "The contexts registered with the context of a connection are, each once, those of the streams in its tables that have not been cancelled, and one more for each of the two goroutines that is in the middle of CreateOrGetStream; none are once the connection's context has been cancelled or its streams have been released. So there are never more of them than streams in the tables, plus two, however many frames are read and written: the stream that CreateOrGetStream makes in vain for every frame of an existing stream leaves nothing behind.",
  "all executions of the reader, the writer, the consumers and the cancellation of one connection; all frames; all interleavings, also within CreateOrGetStream",
  "A leak shows only as memory growing with the number of frames; a test sees the right frames with or without it.",
  ["stream.go:38-59", "stream.go:89-94", "stream.go:198-223", "stream.go:61-72"])
p("C134","A handler that pushes to all connections comes to its end",
  "Once nothing new begins, the handlers that push to all connections as documented, their goroutines and everybody else inside writeFrameBytes take a bounded number of steps altogether, in any order and with any results of the writes. When none of them can take a step, and the contexts of closing connections are cancelled, every handler that had got a push id has got past its wg.Wait() to its answer; and its push has been written, with success, to every connection that was there when its walk began, was registered when the walk ended, and is not being closed.",
  "all executions with any number of handlers, connections, goroutines and other writers; all interleavings from any state in which every connection was served before anybody wrote to it",
  "A test sees a few schedules finish; that no schedule leaves a handler waiting needs an argument about all of them.",
  ["README.md:283-304", "server.go:589-594", "serveconn.go:286-289", "serveconn.go:452-540"])
p("C135","Objects use the configuration they were made with, whatever the caller does with its slices",
  "An API goes on using the endpoints it was given, a reconnecting connection the addresses, and an API without weights equal weights, whatever the caller assigns to its slices afterwards. With weights, calls are distributed by the weights given, and a server serves the listeners it opened itself.",
  "all executions with any number of APIs, connections and servers made from any of the caller's slices, and any assignments by the caller at any moment",
  "Whether an array is shared shows only when somebody changes it at the right moment; a test would have to try every assignment at every moment.",
  ["api.go:30-63", "clientconn.go:153-176", "server.go:155-177", "server.go:194-236", "codegen/client.go:22-31"])
p("C136","A channel's Sender and Receiver are used without data races",
  "When goroutines send, receive and end on one channel (channel.Transport.Pipe) at the same time, the fields of its Sender and Receiver are used without data races.",
  "all executions with any number of goroutines calling Send, End and Receive, all interleavings, any synchronisation of their own, and any results of StreamRequest and GetFrameWithContext",
  "A race detector sees only the schedules that occur; absence of races is a statement about happens-before in all of them.",
  ["channel/clienttransport.go:38-51", "channel/clienttransport.go:66-112", "channel/clienttransport.go:114-139"])
p("C137","Streams and frames are used without data races",
  "However the reader, the writers, handlers, callers and the release of all streams interleave on a connection, the fields of streams and of frames are used without data races. A frame returned by ReadFrame has its stream, the one of its own request id, and is the only frame that has this one; a frame received from the channel of a stream has none, so FrameCh, Context and the other methods that need it panic on it.",
  "all executions of one ConnStreams with any number of goroutines that write, release, receive, share and use frames, all keys, all interleavings",
  "A race detector sees only the schedules that occur; absence of races is a statement about happens-before in all of them.",
  ["stream.go:14-101", "stream.go:106-230", "framereader.go:40-77", "frame.go:10-124"])
p("C138","A handler's channel can be used by several goroutines",
  "When goroutines send, end and receive on the Sender and Receiver given to a channel handler at the same time, their fields and the frame writer behind them are used without data races, and every message is received once and in order.",
  "all executions of one handler's Sender and Receiver with any number of goroutines that have them, all interleavings, any means by which they synchronise",
  "Absence of races is a statement about happens-before in all schedules; the double reception of the first frame needs two Receives within a few instructions of each other.",
  ["channel/servetransport.go:42-46", "channel/servetransport.go:48-68", "channel/servetransport.go:70-93"])
p("C139","The API is used without data races",
  "When any number of goroutines call Call, CallOne, CallAll and Close of one API, its fields, what NewConnection set up in the connections they find in its tables, and the maps returned by CallAll are used without data races; when CallAll returns, the goroutines it started are done with its map.",
  "all executions with any number of goroutines, connections and calls, all interleavings",
  "A race detector sees only the schedules that occur; absence of races is a statement about happens-before in all of them.",
  ["api.go:30-63", "api.go:65-77", "api.go:97-115", "api.go:135-216", "api.go:252-267"])
p("C140","A WebSocket connection is read and written by one goroutine at a time",
  "gorilla/websocket allows one concurrent reader and one concurrent writer per connection. All uses of a WebSocket connection's reading half (Read with its buffer, SetReadDeadline) are ordered by happens-before, and so are all uses of its writing half (Write, SetWriteDeadline), on the server and on the client, across reconnects and whoever closes the connection; the overlay listener and what is set up in a connection are used without data races.",
  "all executions with any number of connections, handlers, writers, closers and reconnects, all interleavings",
  "Concurrent use breaks the library's state only in rare schedules; the guarantee is a statement about happens-before in all of them.",
  ["ws/server/overlay.go:39-94", "ws/server/conn.go:14-119", "ws/client/conn.go:15-62", "serveconn.go:174-182", "serveconn.go:466-508", "serveconn.go:587", "clientconn.go:212-249", "clientconn.go:428-443", "clientconn.go:478-500", "clientconn.go:746"])
p("C141","A generated call is answered whatever other calls of its connection return",
  "On a connection that nobody else closes, each call of a generated service whose request decodes and whose method succeeds is answered with its method's result exactly once, whatever other calls on the connection return.",
  "all services, all requests, all interleavings of any number of calls on one connection",
  "Whether a call is still running when another one fails depends on scheduling and on how long methods take.",
  ["codegen/service_handler.go:32-68", "frame.go:78-83", "serveconn.go:213-219", "serveconn.go:754-797"])
p("C142","A server keeps nothing of connections that have ended",
  "When all calls have returned, the server's table of connections, the contexts registered with its own, the lists of close callbacks and the table of ids hold something of a connection if and only if nobody has closed or displaced it (for ids: only if).",
  "all interleavings of connections coming, SetID, Close, NotifyWhenClose and kicks, on any number of connections; after any number of connections",
  "A leak shows only after many connections, and this one only if a connection is closed before or while its handler calls SetID.",
  ["server.go:420-512 newConn, bindID, untrack", "serveconn.go:96-133 SetID, NotifyWhenClose", "serveconn.go:755-795 Close, closeUntracked"])
p("C143","Closing a request closes the transport connection that it came in on",
  "Close of a request that a client's handler was given closes the transport connection the request came in on, and no other one.",
  "all executions of a client connection with any number of reconnects, any number of requests, and any number of calls of Close, by handlers and by goroutines that they have given the request to",
  "It takes a reconnect between the end of the handler and the call of Close.",
  ["frame.go:76-92 RequestFrame.Close", "clientconn.go:429-443 closeRWC", "clientconn.go:213-249 loop", "clientconn.go:523-528 readFrames"])
p("C144","The contexts of a client's transport connections do not pile up",
  "At most one context of a transport connection is registered with the context of a client connection, that of the current one; none is while the loop takes a transport connection down, nor after the loop has ended or the connection's context has been cancelled; while the current one is up, its context is registered.",
  "all executions of a client connection, any number of reconnects, failed dials and concurrent calls, Close at any time",
  "A context kept per reconnect is a leak that shows only after very many reconnects.",
  ["clientconn.go:202-208 newConnection", "clientconn.go:284-290 connect", "clientconn.go:213-249 loop", "clientconn.go:479 readFrames", "clientconn.go:576 writeFrames"])
p("C145","Decoding concatenated requests merges them",
  "If a byte string decodes into a message and a second one decodes into the result, their concatenation decodes into the message with that same result: fields given again replace the earlier ones, and fields the decoder does not know are carried along without disturbing the others. Unknown fields already held are never dropped, and what is added to them comes from the input in its order. So what a newer peer appends to a request does not change its name space, method and parameters.",
  "all byte strings of a total length below 2^62, all messages decoded into, any nesting of unknown groups that the stack allows",
  "Unknown fields of every wire type, nested groups and overflowing lengths cannot be enumerated.",
  ["codegen/pb/rpc.pb.go:171-310 Unmarshal", "codegen/pb/rpc.pb.go:311-409 skipRpc"])
with open(os.path.join(os.path.dirname(__file__), "..", "properties.jsonl"), "w") as f:
    for x in P:
        f.write(json.dumps(x, ensure_ascii=False) + "\n")
print(len(P))
