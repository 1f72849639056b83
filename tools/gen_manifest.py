#!/usr/bin/env python3
"""Writes MANIFEST.json. Theorem names are fully qualified (namespace Qrpc)."""
import json, os
C = []
def c(pid, status, theorems, note):
    C.append({"property": pid, "status": status, "theorems": ["Qrpc." + t for t in theorems.split()], "note": note})

c("C01", "proved", "C01_round_trip", "any fragmentation, any number of frames without the codec flag (C08 covers the flag)")
c("C02", "proved", "C02_layout C02_layout_compressed C02_packet_tool", "writer (also with leftover payload) and tool/packet against a separate layout spec")
c("C03", "proved", "C03_truncated", "all truncation points and fragmentations")
c("C04", "partial", "C04_reject C04_accept C04_alloc C04_refuted_large_max", "full for maxima below 2^32; false for maxima >= 2^32 (32-bit truncation), refuted by witness")
c("C05", "proved", "C05_pack C05_unpack C05_wire", "all 2^32 x 2^8 inputs")
c("C06", "partial", "C06_predicates C06_conversions_partial C06_refuted_toNonStream", "all conversions except ToNonStream, which is proved to change nothing")
c("C07", "partial", "C07_request_partial C07_refuted", "false when the caller passes a stream bit; holds otherwise")
c("C08", "partial", "C08_transparent_partial C08_empty_no_codec_flag C08_end_write_compressed C08_refuted_empty_encoding C08_refuted_in_place", "holds for lossless codecs that never encode to nothing and do not overwrite a buffer they fail to shrink; refuted for the two other kinds")
c("C09", "partial", "C09_payload_partial C09_exact C09_one C09_marks C09_typed C09_refuted_recycled C09_refuted_failed_end", "holds for all histories in which every begun frame is finished; refuted when a frame is abandoned. C09_exact, C09_one: what is submitted in every history, with abandoned frames and failing codecs; a frame is right exactly when its writer was empty at StartWrite")
c("C10", "partial", "C10_identity_partial C10_refuted_after_reset", "full except for frames from the first ResetFrame on, where the stream bit claim is refuted")
c("C11", "proved", "C11_in_order_exactly_once C11_channel_closed_at_end C11_every_frame_accounted", "every schedule of reader, writer, consumers and connection cancellation; for peers that break the protocol the accounting theorem still holds")
c("C12", "proved", "C12_at_most_once_after_both C12_closed_when_both_ended C12_open_stream_in_table", "single atomic operations of both goroutines, all interleavings; peers ending by a final frame (resets: C14), reader not panicked (C13)")
c("C13", "partial", "C13_refuted_reset_then_response C13_panic_only_after_reset_partial C13_no_reset_no_panic_partial", "false: reset followed by a response panics the reader; proved that this is the only way in the stream machinery")
c("C14", "partial", "C14_refuted_reset_leaks C14_refuted_unbounded C14_removed_partial C14_reset_before_local_end_partial", "false when the peer's reset comes after the local side closed; proved otherwise")
c("C15", "proved", "C15_nothing_after_end C15_rejected_only_after_end C15_reset_of_closed_stream_not_sent C15_write_always_decided", "per stream object, all schedules")
c("C16", "proved", "C16_isolation", "every step of every reachable state")
c("C21", "proved", "C21 C21_client", "any number of writers, all schedules, batch sizes and transport failures")
c("C22", "partial", "C22_partial C22_batch write_refines C22_refuted_websocket C22_client_partial", "proved for transports honouring the net.Conn contract (whole system on both sides); refuted for the WebSocket overlay")
c("C23", "proved", "C23_all_return C23_holder C23_waiter C23_take C23_results C23_bounded", "assuming distinct ids of outstanding requests (C20)")
c("C26", "proved", "C26 C26_no_use_after", "all interleavings of the reader and any number of writers")
c("C57", "proved", "C57_write C57_vectored", "Write and writeBuffers, both ways net.Buffers writes")
c("C17", "partial", "C17_refuted_reset_never_returned C17_refuted_reset_swallowed C17_refuted_wait_goes_on C17_answer_ends_wait_partial", "false: a reset never reaches the response, in every continuation the caller keeps waiting until a response or the end of the connection")
c("C18", "proved", "C18 C18_no_sharing", "client connection, all interleavings including reconnects and Close; the server side is covered with C60")
c("C19", "proved", "C19_no_outstanding C19_released C19_close_releases C19_no_late_registration", "client connection; safety in every state and enabledness of the releasing steps")
c("C20", "proved", "C20_parity C20_server_inj C20_unique C20_no_collision C20_bound_sharp", "")
c("C24", "partial", "C24_stream_writer C24_server C24_client_first_partial C24_refuted_client_later C24_refuted_client_batch", "server: full; client: only the first frame of a batch is checked, later ones are refuted")
c("C25", "partial", "C25_at_most_one C25_not_dropped_partial C25_not_stuck_partial C25_progress C25_writer_runs C25_refuted_stranded C25_refuted_stranded_example", "false when the loop ends (Close while reconnecting); otherwise nothing is dropped, the goroutines are never stuck, and a write is answered within a bounded number of steps of the writer")
c("C44", "proved", "C44_round_robin C44_covers C44_sleeps", "dials made by connect; the very first dial of the constructor is separate")
c("C45", "partial", "C45_refuted C45_refuted_never_ends C45_failed_dial_ends_partial C45_no_reconnect_partial", "false: as long as dials succeed a closed connection reconnects forever; proved for NewConnection and for the first failing dial")
c("C46", "proved", "C46_once C46_closes C46_stays_closed C46_request_after_close", "")
c("C47", "partial", "C47_newConnection_partial C47_refuted_reconnect C47_refuted", "false: NewConnectionWithReconnect drops the TLS configuration")
c("C61", "partial", "C61_refuted C61_partial", "false: the test of conn.rwc and its use are not atomic; proved: in every execution that is the only way, closeRWC (by the loop or a handler) has to fall between them")
c("C27", "proved", "C27_order C27_exclusive C27_no_read_ahead C27_dispatch C27_gate_opens", "all schedules, queue sizes, handler durations; return and panic are the same event")
c("C28", "proved", "C28_answered C28_accounted C28_cleanup C28_cleanup_blocking C28_teardown C28_client_answered C28_client_wg C28_client_cleanup C28_client_no_reset", "server and client side; the reset's effect on the stream is C15")
c("C29", "partial", "C29_bound_partial C29_nonblocking_partial C29_closes C29_refuted", "false: with limit 1 any number of handlers can run, after as many blocking requests; holds without blocking requests, exact bound otherwise")
c("C30", "proved", "C30 C30_excess C30_no_more", "all arrival times under a non-decreasing clock")
c("C31", "partial", "C31_refuted_reader_stuck C31_refuted_example C31_reader_progress_partial C31_reader_not_stuck_partial C31_serve_ends_partial C31_all_end_partial", "false: the reader can wait forever inside ReadFrame; outside ReadFrame every step leads to its end")
c("C62", "partial", "C62_refuted C62_partial", "false: frames of an established stream and resets are not counted; all others are")

c("C32", "proved", "C32_at_most_once C32_exactly_once C32_quiescent C32_progress", "any number of connections and goroutines; every way of ending a connection")
c("C33", "proved", "C33_once C33_close_returns C33_progress C33_close_bounded C35_all_return_partial", "all interleavings of Close, end of serve and kicks")
c("C34", "partial", "C34_displaced_closed C34_kick_iff C34_own_id C34_one_live_partial C34_refuted_two_live", "displaced connections, the kick result and the table are proved in every execution; two live connections under one id are refuted (a connection closed during its SetID); one live connection proved when none is closed before or during its SetID")
c("C35", "partial", "C35_refuted_loop C35_refuted C35_partial C35_all_return_partial", "false: SetID that finds a connection that was closed before its own SetID loops forever; proved when no connection is closed before or during its SetID")
c("C36", "partial", "C36_refuted_closed C36_refuted_unreachable C36_reachable_partial C36_not_closed_partial C36_removed_by", "false in two ways (closed connection found, live connection unreachable); proved when no connection is closed before or during its SetID")
c("C37", "partial", "C37_refuted C37_refuted_greater C37_partial", "false: a displaced SetID still in progress can report an equal or greater number; proved for connections whose SetID returned before they were displaced")
c("C38", "proved", "C38 C38_opaque", "all sequences of Handle calls")
c("C39", "partial", "C39_partial C39_refuted C39_opaque_never_refused", "false: a command written with an opaque byte is never refused as a duplicate; proved for commands without one")
c("C40", "proved", "C40 C40_handler_iff", "")
c("C41", "partial", "C41_partial C41_no_panic_partial C41_waits C41_refuted_panic C41_refuted_stranded C41_refuted", "false for several controllers (double close panics, stranded waiters); proved for one controller")
c("C42", "proved", "C42_at_most_once C42_quiescent C42_progress", "any number of goroutines; hooks and listeners chosen by the environment; wg.Wait is environment")
c("C43", "proved", "C43_waits C43_doubling C43_goes_on", "all accept results")
c("C59", "partial", "C59_contexts C59_streams C59_cancelled C59_before_callbacks C59_quiescent C59_refuted_return", "the contexts of all streams are cancelled with that of the connection (any tree), before the close callbacks and at quiescence; refuted: a second concurrent Close may return before that")
c("C63", "partial", "C63_refuted_forever C63_refuted C63_refuted_alone C63_partial", "false: a failed write during a kick keeps the write lock and OnKickCB's write waits forever")
c("C64", "partial", "C64_partial C64_refuted_leak C64_refuted", "false: a connection that is not a TCPConn is dropped without being closed")
c("C65", "partial", "C65_partial C65_refuted", "false: Shutdown before Serve tracks its listener")

c("C48", "partial", "C48_weights C48_no_fallback C48_zero C48_uniform C48_refuted_negative", "proved for all lists of non-negative weights of positive sum; false for lists with a negative weight, which NewAPI accepts")
c("C49", "proved", "C49_all_return C49_one C49_maps_agree C49_no_panic C49_close C49_done_iff C49_no_leak C49_progress", "any number of goroutines and endpoints")
c("C50", "proved", "C50 C50_twice C50_result", "all outcomes of every send, dial and response")
c("C53", "proved", "C53 C53_size C53_fields", "all requests whose encoding is shorter than 2^63 bytes; fields in any order and repeated")
c("C54", "partial", "C54_partial C54_refuted C54_refuted_unknown C54_refuted_stack", "false: a declared length near 2^63 overflows and panics, nested groups exhaust any stack; proved for inputs without eight consecutive bytes with the high bit set and a stack as deep as the input is long")

c("C51", "partial", "C51 C51_wrap C51_rotates C51_wrap_repeats C51_refuted_32bit", "proved for 64-bit int, across the wrap of the counter; false where int has 32 bits (negative index, panic)")
c("C52", "partial", "C52_dispatch C52_response C52_refuted C52_refuted_no_response", "proved for names without a colon and payloads that unmarshal without panic; false: two services/methods whose joined names clash, and a payload that panics in Unmarshal gets no response")
c("C55", "proved", "C55_read C55 C55_complete C55_transparent C55_refines C55_stays", "all sequences of messages, message kinds and read sizes")
c("C56", "partial", "C56_client_send_partial C56_refuted_end C56_refuted_end_resets C56_after_end C56_server_send C56_server_receive_partial C56_refuted_receive C56_client_receive C56_client_decodes C56_end_to_end_partial C56_refuted_concurrent", "false: end is ignored on later Sends and End resets the stream, server Receive without a place for the command loses the message, two first Sends at once open two streams; proved otherwise")
c("C58", "partial", "C58_header C58_payload_partial C58_refuted_payload C58_read_ends C58_payload_ends_partial C58_refuted_wait C58_refuted_overflow C58_round C58_write_ends C58_write_stops C58_cancel C58_cancel_stops C58_refuted_write_overflow", "headers, writes and cancelled writes proved, payloads proved with a positive read timeout; false: without a read timeout (the default) the payload has no deadline either; timeouts of 2^63 ns or more overflow")
c("C66", "partial", "C66 C66_refuted", "proved for 24-bit commands and names without a colon; false: an error command of 2^24 or more makes an error text arrive as a success")

c("C60", "proved", "C60_sent C60_frames C60_dispatch C60", "all flags; end to end for frames without the codec bit (for the others C08)")
c("C67", "partial", "C67 C67_no_sharing C67_registered C67_closed C67_released C67_close_ends C67_delivered C67_refuted_dispatched", "proved except the last part, which is false: a response read while the connection is closed is dispatched as a request")
c("C68", "partial", "C68_partial C68_refuted", "false: after Serve's context is cancelled, a caller returns while its buffer is still in a batch, and a frame of another connection is transmitted; proved as long as the context of the connection is not cancelled")
c("C69", "partial", "C69_server_partial C69_client_partial C69_refuted", "false on the transport connection a client starts with: its loop context lacks the value, all methods panic; proved for the server and for connections made by connect")
c("C70", "proved", "C70_paired C70_when", "all executions of the client model")
c("C71", "proved", "C71", "all executions of the client model")
c("C72", "partial", "C72_partial C72_refuted", "false: when listening on binding k fails, the listeners of bindings 0..k-1 stay open in every continuation; proved for the return of ServeAll")
c("C73", "partial", "C73_partial C73_refuted", "false: a connection accepted but not yet counted in srv.wg is served after Shutdown returned; proved when no Serve holds such a connection and every listener was tracked")
c("C74", "proved", "C74_closes C74", "decreasing measure plus absence of deadlock; connections end once their Serve's context is cancelled (C31)")
c("C75", "partial", "C75_refuted", "false: the listeners before the failing one are closed, their Serve goroutines retry Accept on a closed listener until a later Shutdown succeeds")
c("C76", "partial", "C76_refuted C74", "false: a handler's call never returns and blocks every other call; calls from elsewhere return (C74)")
c("C77", "partial", "C77_order C77_errors C77_partial C77_refuted", "order and at-most-once proved in every execution, no loss until Close; false afterwards: a connection still being offered is dropped without being closed")
c("C78", "partial", "C78_results C78_closed C78_set_partial C78_refuted", "false for a second GetFrame on a response that was set: it never returns, even when the connection is closed; proved for closed responses, contexts and the first caller")
c("C79", "partial", "C79_refuted_handler C79_refuted_handler_example C79_refuted_subscriber C79_refuted_subscriber_example C79_refuted_callback C79_refuted_callback_example C79_terminates_partial C79_only_deadlock_partial", "false: a write committed by a handler, the subscriber or a callback after the writer ended waits for the writer of the next connection, which is made only after it returned; proved that taking down terminates and that this is the only deadlock")
c("C80", "proved", "C80", "client connections, any number of reconnects")
c("C81", "partial", "C81 C81_refuted_ctx C81_server C81_refuted_server_ctx", "proved for every result a caller receives, over transports honouring the net.Conn contract; both sides; false for a caller that returns the error of the context (client: without reconnect), whose frame may have been transmitted")
c("C82", "proved", "C82 C82_transmitted", "client connection composed with abstract servers that answer only what they have read; fewer than 2^63 requests")
c("C83", "proved", "C83", "same composed model as C82")
c("C84", "proved", "C84_client C84_server C84_peer C84_encodes C84_encodes_codec", "frames with the codec flag need the codec hypotheses of C08")
c("C85", "partial", "C85_refuted C85_refuted_example C85_partial", "false for the code: a handler that returned without reading its stream blocks the reader; positive part: the offer is the only place where the reader waits")
c("C86", "proved", "C86 C86_failed C86_each", "submissions are calls that queued a frame; a caller that retries by itself makes a new submission")
c("C87", "partial", "C87_walk C87_byID_partial C87_info_partial C87_push C87_refuted_closed C87_refuted_missed", "WalkConn and push ids proved; WalkConnByID and GetConnectionInfoByID in executions where no connection is closed before or during its SetID (false otherwise, as of C36). sync.Map.Range is assumed as documented; at most 2^64 push ids")
c("C88", "partial", "C88_one C88_all C88_partial C88_refuted C88_refuted_example", "false when len(weights) > len(endpoints); proved otherwise")
c("C89", "proved", "C89_all_end", "connections without reconnect. ReadFrame returning an error on a closed connection, handlers and callbacks returning count as steps, so their returning is assumed; C31 shows ReadFrame need not return")
c("C90", "partial", "C90_register C90_names C90_output C90_partial C90_errors C90_marshaler C90_refuted_marshaler C90_refuted_sub", "registration proved exactly; calls proved for the main service and results encoded by JSON. False for results that implement Marshaler (encoded by JSON, decoded by Unmarshal: generator.go:274 asks the input types) and with sub services (a printed header has no parameter list, so Output panics). format.Source is modelled only by the method headers and type names")
c("C91", "partial", "C91_partial C91_only C91_refuted_push C91_refuted_flag", "proved for flag bytes without the push and codec bits, and that nothing is sent for other arguments; false: a flag with the push bit makes the tool panic on a nil Response after sending, and a flag out of range is refused only after dialling")
c("C92", "partial", "C92 C92_returned C92_all_partial C92_subscriber C92_streams C92_streamed_partial C92_refuted_race", "order, at most once and no mixing proved for all executions; that no push is lost is proved, for streamed pushes too, if the client does not itself reset push streams and no push is a reset. With such a reset it is false: the next push with the same id can be thrown away")
c("C93", "proved", "C93_client C93_server", "a client connection is taken with all its transport connections; each is shown to carry an ordered part of the stream. A reset stream and a connection being torn down may lose frames (C11)")
c("C94", "proved", "C94 C94_label", "the metric objects themselves (With, Add, Observe) are taken as recording their calls. A panic whose value is printed as <nil> has the label of a handler that returned (C94_label)")
c("C95", "partial", "C95_partial C95_quiet_partial C95_refuted C95_refuted_example", "false of the code: a writer that checks the inflight counter before serve has set it to 1 takes the connection for a closed one and keeps the write lock for ever; proved: writes begun after the start are those of the model of C21-C24, and in all executions either that holds or the connection is jammed with nothing written")
c("C96", "proved", "C96", "sync.Pool as documented: hands out each object to one caller or makes a new one")
c("C97", "partial", "C97_partial C97_nopanic_partial C97_refuted_early C97_refuted_waiting", "false of the code: the read under way keeps its deadline, so a silent peer of a connection without timeout is waited for without limit, whatever is set; before serve has made the reader a change panics. Proved: every read begun later has exactly the deadline of the timeout set last; only changes through WalkConn before serve panic")
c("C98", "partial", "C98_partial C98_refuted", "false of the code when the sender's argument does not show the Marshal method whose counterpart the receiver uses, e.g. a value of a type with methods on the pointer; exactly these cases are refuted, all others proved, given that each encoding alone is faithful")
c("C99", "partial", "C99_partial C99_refuted", "false of the code: one error that is not temporary ends the HTTP server, whose result is only logged, and Accept waits for ever; proved as long as all errors are temporary. net/http's Serve is taken as documented")
c("C100", "partial", "C100_server C100_partial C100_reconnect_partial C100_refuted C100_refuted_reused", "server and NewConnection proved; false for NewConnectionWithReconnect and every reconnection, which drop the TLS configuration (C47), and for NewReusedConnection, which drops TLS, overlay and buffer sizes")
c("C101", "partial", "C101_partial C101_refuted", "proved without TLS and overlay; false with either: the timeout covers only the TCP connection, and a peer that stays silent in the handshake is waited for without limit")
c("C102", "partial", "C102_partial C102_refuted C102_refuted_waste", "false of the code both ways: displaced connections (SetID) do not pass the limiter, any number can be closed at one moment; and every Close call passes it, also of a connection already closed, so one connection can use up the allowance. Proved: each closed connection was let through or displaced. The limiter is a parameter")
c("C103", "partial", "C103_partial C103_refuted C103_refuted_remote C103_client", "proved for handlers and middleware, and metrics of blocking requests; false for every other call (subscriber, codec, NotifyWhenClose and lifecycle callbacks, metrics of non-blocking requests) and for the reader, so that with C13 one peer can end the whole server. util.GoFunc is taken not to recover; only the calls that may panic and the deferred functions around them are modelled")
c("C104", "partial", "C104_partial C104_distinct_partial C104_refuted_second C104_refuted_clash", "imports and names printed by alias proved for all inputs; everything proved if last names differ and are free; false for the second file generated in a process, and for types of a package whose last name is context or qrpc, because three places print these names literally. RegisterUniquePackageName is a parameter")
c("C105", "partial", "C105_partial C105_refuted", "proved as long as ErrNoNewUUID does not occur (it needs 2^63 requests on one connection); if it does, the request returns to the pool without a channel, and the next write of any connection that gets it never returns its result")
c("C106", "partial", "C106_partial C106_server_partial C106_refuted", "exact content proved on both sides: entered, not answered, not closed; false that a caller must still wait: one that gives up (GetFrameWithContext) leaves its entry, any number of them, until the connection ends")
c("C107", "proved", "C107 C107_stream C107_gets", "composition of C82, C83, C84, C86 and C92: both write paths, both frame readers, streams, dispatch and the response table; hypothesis: fewer than 2^63 requests, and (for C107, C107_gets) no further frames but resets submitted with the call's id - C107_stream is without this. rpc_example meets all hypotheses")
c("C108", "proved", "C108", "measure on the transition system of Model/Client; no new calls from the chosen state on (each new call adds a bounded amount). Handlers returning is a step; the subscriber is taken to return (C79, C85 for what happens otherwise)")
c("C109", "proved", "C109_belongs C109_first C109_dispatched C109 C109_gets", "composition of the response table (C67) with an abstract client that answers only what it has read, and with both write paths, frame readers and streams (C84, C92); hypothesis: fewer than 2^63 requests")
c("C110", "proved", "C110 C110_gets C110_typed", "composition of C107 with C52, C53, C66 and C90; hypotheses: names without colons, command and error command of 24 bits and different (C66_refuted without), clean writers (C09), no other frame but resets submitted with the call's id, fewer than 2^63 requests; C110_typed: encodings give the values back and the result type is no Marshaler (C90_refuted_marshaler)")
c("C111", "proved", "C111_same C111 C111_serves C111_arrives C111_sent", "the frame reader run on the overlay's own Read, shown to give the same results as over the connection of Model/Reader (C55_refines), then composed with C84; C111_serves and C111_arrives make the overlay an instance of the hypotheses of C86, C92, C107, C109 and C110. That the sender is told which frames were sent is false over the overlay (C22_refuted_websocket)")
c("C112", "proved", "C112_client C112_server C112_end", "C56 (channel package) composed with C93 (streams end to end). Receive is called with a place for the command (otherwise a handler's Receiver loses the message: C56_refuted_receive), Sends do not overlap on the first message (C56_refuted_concurrent), End is not used (it resets: C56_refuted_end_resets); the first frame of a response is handed over by the reader of the response table (C18, C67)")
c("C113", "proved", "C113_requests C113", "Model/Api (api.go) over Model/EndToEnd (a client connection with its peer), with C107 for the way through the server. C113_requests needs nothing but the run; C113 assumes the wiring of the connection used (bytes written are bytes read by the peer, either way) and ids not wrapped around; that no two requests share an id is part of the proof. CallAll is a CallOne for every endpoint (C88)")
c("C114", "proved", "C114_one C114_call C114_frames C114_refuted_once C114_refuted_four", "Potential-function argument over the composition of Model/Api and Model/EndToEnd. C114_one and C114_call count the requests from the call on; C114_frames says what the submitted ones are. C114_refuted_once exhibits one CallOne read in full by the server on two connections, C114_refuted_four one Call read four times (the bounds are reached)")
c("C115", "proved", "C115 C115_requests C115_result C115_tries C115_start", "invariant on the composition of Client.Request with one EndToEnd connection per address, C86_failed (a write that returned an error is never handled) and C110. The connections reconnect, as NewClient makes them; the API, whose connections do not, may carry out a call twice (C114). Serves and Wired as in C86 and C107. int is 64 bits wide (C51_refuted_32bit otherwise)")
c("C116", "partial", "C116_refuted_request C116_refuted_reset C116_partial", "false of the code: two executions after which, in every continuation in which the connection is not dialled successfully, the call has not returned. C116_partial: the only places where a call with an ended context can wait are inside a write on one of its connections (on one that is up such a write returns: C108)")
c("C117", "partial", "C117_partial C117_refuted C117_refuted_reused", "false of the code on rwc (two executions with the racing accesses). C117_partial: all other fields are race free, and the races on rwc are only those named. Happens-before is defined from the trace alone (Spec.HB: program order, release before a later acquire of the same object, start of a goroutine, transitivity); a trace lists accesses with their source lines and the synchronising operations")
c("C118", "partial", "C118_partial C118_refuted_reader C118_refuted_inflight C118_refuted_timeout", "false of the code on reader, inflight and timeout (three executions with the racing accesses). C118_partial: all other fields are race free, the races on these three are only those named, and they disappear under the two conditions on the use of the connection. Not covered: anything (documented as unsynchronised), the write requests (C105) and their buffers (C68)")
c("C119", "partial", "C119_partial C119_refuted_ln", "false of the code on ln (an execution with the racing accesses). C119_partial: the other three fields are race free in all executions, and ln is if ListenAll is called before the server is shared. Not covered: fields that synchronise themselves (sync.Map, atomic.Value, WaitGroup, pushID), user callbacks inside ListenAll that call the server")
c("C120", "partial", "C120_tcp_partial C120_refuted_wrapped", "false of the code over TLS and WebSocket (exactly when the first round does not suffice), proved over TCP. How crypto/tls and gorilla/websocket wrap the error of an expired deadline is taken from their sources (not part of the project)")
c("C121", "partial", "C121_only_partial C121_holder_partial C121_cached_partial C121_refuted", "false of the code: the mutex is held during the dial. Proved: nothing but the mutex is waited for, everyone but a dialling goroutine gives it back by its own steps, and calls over a cached connection that works do not use it. A call of Connection.Close counts as one step; the fairness of sync.Mutex is not modelled")
c("C122", "proved", "C122_server C122_client C122_read C122_accept", "invariants of the transition systems of C21-C28 and C77. The goroutines that wait to submit are not counted, nor are the tables of streams and responses (C14, C106)")
c("C123", "partial", "C123_server_partial C123_refuted_server C123_client C123_refuted_leak C123_api_partial C123_refuted_api", "false of the code: a negative ReadFrameChSize is accepted and ends the process at the first connection; NewAPI accepts lists and weights of sum 0, or whose sum overflows, and each Call panics; the client's constructors dial before they refuse a negative WriteFrameChSize, and leave the connection open. Proved: exactly which values work; a client connection that was returned has no such problem")
c("C124", "proved", "C124_atomic C124_raceFree C124_made C124_progress C124_unlocked C124_seen C124_once", "the RWMutex is the lock of Go's memory model with two objects (Unlock and RUnlock); that waiting writers keep out later readers is covered by the progress theorem; fairness is not modelled")
c("C125", "partial", "C125_partial C125_only_partial C125_refuted C125_refuted_example C125_refuted_sub C125_refuted_sub_example C125_refuted_client C125_refuted_client_example", "false for blocking handlers and subscribers (default flags); positive part: nonblocking handlers, and the wait is the only obstacle. GetFrameWithContext with a context that ends is not modelled")
c("C126", "proved", "C126", "measure on the transition system of Model/ServeRead; that a handler or SubFunc returns is a step (for handlers that wait for their own peer see C125)")
c("C127", "proved", "C127 C127_result", "composition of C126, C93, C83 and C107; that both sides come to rest is C108, C126 and C23. Streams of the call and of the answer without resets and without frames after their end (a handler that is answered by a reset leaves its caller waiting: C17); fewer than 2^63 requests. rest_example meets all hypotheses")
c("C128", "proved", "C128 C128_told C128_not_told", "closing by the server's own context (Shutdown) is not part of Model/Registry; that the write made by the callback completes is C63")
c("C129", "proved", "C129_handled C129 C129_result", "the mirror of C127: composition of C93, C129_handled and C109. Streams of the request and of the answer without resets and without frames after their end; fewer than 2^63 requests; a client without handler drops the request (example). back_example meets all hypotheses")
c("C130", "proved", "C130 C130_collect C130_echo C130_echo_ends", "C127 for streams: composition of C93 (both ways), C127 and C83; the README part by C84_encodes. str_example meets all hypotheses with README's answer. README's second handler leaves the stream of its answer open if the request is no stream (example)")
c("C131", "proved", "C131 C131_result C131_api C131_api_result", "Composition of C127 with ApiNet and GenNet; new invariant: a reset frame of a generated client belongs to a request whose call gave up. Examples: the executions of C113 and C115 before the calls return")
c("C132", "proved", "C132 C132_written C132_once", "Composition of C87, C95, C21 and C92. The handler's own wait can last for ever: a push to a connection that can be found but is not served yet can jam it (C95_refuted; example beside C132). At most 2^64 push ids; pushes on the connection not streamed, the client resets no push streams (C92)")
c("C133", "proved", "C133 C133_bound C133_all C133_only", "context.WithCancel as documented: a context is registered with its parent until either is cancelled. Streams themselves can pile up in the tables (C14)")
c("C134", "proved", "C134", "Connections that can be found before they are served are excluded: there the handler may wait for ever (C95, example beside C132)")
c("C135", "partial", "C135 C135_addrs C135_weights_partial C135_servers_partial C135_refuted_weights C135_refuted_servers", "Proved for endpoints, addresses and default weights. NewAPI keeps the caller's slice of weights and NewServer the caller's slice of bindings, changing it in place, so the rest is false of the code (refuted) and proved only while the caller leaves these slices alone and makes one server of each")
c("C136", "partial", "C136_closed C136_partial C136_end C136_first_partial C136_refuted_send C136_refuted_receive C136_refuted_resp", "closed is race free whatever the callers do. The rest is false of the code: Send assigns streamWriter and resp with the lock for reading only, Receive takes no lock (refuted with two senders, with two receivers, and with one of each). Proved for one sender, one receiver that begins after it has learnt that the stream was opened, and anybody calling End")
c("C137", "proved", "C137 C137_first C137_next C137_one", "the accesses of each method of Stream may come in any order and number (more executions than the code has). stash is left to the user. That FrameCh and Context panic on later frames is as documented at frame.go:14, though frame.go:25 says the context is always non-nil")
c("C138", "partial", "C138_send_partial C138_receive_partial C138_two C138_frames C138_refuted_send C138_refuted_end C138_refuted_receive", "False without conditions: two Sends (or a Send and an End) at the same time race on the one writer; two Receives race on hasReceivedFirstFrame and both return the request's frame. True if the calls of Send and End are made one after the other (in the sense of happens-before), and those of Receive too; sending and receiving may go on at the same time. Whoever receives, no frame of the stream is returned twice")
c("C139", "proved", "C139 C139_done", "goroutines may do what the code does in any order and number, also without mu (more executions than the code has). That the slice of weights is the caller's is C135, what connections do with their own fields C117")
c("C140", "proved", "C140_server C140_client", "foreign code that gets the net.Conn itself (OnAccept, OnClose, GetReusedCon) is assumed not to read or write it; races on the fields that hold the connection are C117 and C118")
c("C141", "partial", "C141_partial C141_refuted C141_refuted_example C141_error", "proved as long as no call fails; false otherwise: after an error returned by a method (or an unknown method, or a request that does not decode) the service handler closes the whole connection, and no call that is still running or comes later is answered. The failing call's own answer is written before")
c("C142", "partial", "C142_tables C142_ids_partial C142_refuted C142_refuted_kept", "connections, contexts and callbacks in every execution; ids as long as no connection is closed before or during its SetID. Otherwise the id table grows without bound: for every n there is an execution in which n connections have come and gone and n ids lead to them, and such an entry stays. Contexts: context.WithCancel as documented, a context is registered with its parent until it is cancelled")
c("C143", "partial", "C143_partial C143_current C143_closes C143_refuted", "proved for Close while the handler is running; false after it has returned: the request leads to the Connection, not to the transport connection, so that after a reconnect the new transport connection is closed. On a transport connection made before newConnection Close panics (C69). On the server a connection is never made anew, Close of a request is Close of its connection (C69)")
c("C144", "proved", "C144 C144_all", "context.WithCancel as documented: a context is registered with its parent until either is cancelled. The contexts of streams, registered with that of the transport connection: C133")
c("C145", "proved", "C145 C145_unknown C145_kept C145_cut", "The first part has to decode by itself (C145_cut shows why). What does not decode: C54")

here = os.path.dirname(os.path.abspath(__file__))
json.dump({"claims": C}, open(os.path.join(here, "..", "MANIFEST.json"), "w"), indent=1)
