{
 "claims": [
  {
   "property": "C01",
   "status": "proved",
   "theorems": [
    "Qrpc.C01_round_trip"
   ],
   "note": "any fragmentation, any number of frames without the codec flag (C08 covers the flag)"
  },
  {
   "property": "C02",
   "status": "proved",
   "theorems": [
    "Qrpc.C02_layout",
    "Qrpc.C02_layout_compressed",
    "Qrpc.C02_packet_tool"
   ],
   "note": "writer (also with leftover payload) and tool/packet against a separate layout spec"
  },
  {
   "property": "C03",
   "status": "proved",
   "theorems": [
    "Qrpc.C03_truncated"
   ],
   "note": "all truncation points and fragmentations"
  },
  {
   "property": "C04",
   "status": "partial",
   "theorems": [
    "Qrpc.C04_reject",
    "Qrpc.C04_accept",
    "Qrpc.C04_alloc",
    "Qrpc.C04_refuted_large_max"
   ],
   "note": "full for maxima below 2^32; false for maxima >= 2^32 (32-bit truncation), refuted by witness"
  },
  {
   "property": "C05",
   "status": "proved",
   "theorems": [
    "Qrpc.C05_pack",
    "Qrpc.C05_unpack",
    "Qrpc.C05_wire"
   ],
   "note": "all 2^32 x 2^8 inputs"
  },
  {
   "property": "C06",
   "status": "partial",
   "theorems": [
    "Qrpc.C06_predicates",
    "Qrpc.C06_conversions_partial",
    "Qrpc.C06_refuted_toNonStream"
   ],
   "note": "all conversions except ToNonStream, which is proved to change nothing"
  },
  {
   "property": "C07",
   "status": "partial",
   "theorems": [
    "Qrpc.C07_request_partial",
    "Qrpc.C07_refuted"
   ],
   "note": "false when the caller passes a stream bit; holds otherwise"
  },
  {
   "property": "C08",
   "status": "partial",
   "theorems": [
    "Qrpc.C08_transparent_partial",
    "Qrpc.C08_empty_no_codec_flag",
    "Qrpc.C08_end_write_compressed",
    "Qrpc.C08_refuted_empty_encoding",
    "Qrpc.C08_refuted_in_place"
   ],
   "note": "holds for lossless codecs that never encode to nothing and do not overwrite a buffer they fail to shrink; refuted for the two other kinds"
  },
  {
   "property": "C09",
   "status": "partial",
   "theorems": [
    "Qrpc.C09_payload_partial",
    "Qrpc.C09_exact",
    "Qrpc.C09_one",
    "Qrpc.C09_marks",
    "Qrpc.C09_typed",
    "Qrpc.C09_refuted_recycled",
    "Qrpc.C09_refuted_failed_end"
   ],
   "note": "holds for all histories in which every begun frame is finished; refuted when a frame is abandoned. C09_exact, C09_one: what is submitted in every history, with abandoned frames and failing codecs; a frame is right exactly when its writer was empty at StartWrite"
  },
  {
   "property": "C10",
   "status": "partial",
   "theorems": [
    "Qrpc.C10_identity_partial",
    "Qrpc.C10_refuted_after_reset"
   ],
   "note": "full except for frames from the first ResetFrame on, where the stream bit claim is refuted"
  },
  {
   "property": "C11",
   "status": "proved",
   "theorems": [
    "Qrpc.C11_in_order_exactly_once",
    "Qrpc.C11_channel_closed_at_end",
    "Qrpc.C11_every_frame_accounted"
   ],
   "note": "every schedule of reader, writer, consumers and connection cancellation; for peers that break the protocol the accounting theorem still holds"
  },
  {
   "property": "C12",
   "status": "proved",
   "theorems": [
    "Qrpc.C12_at_most_once_after_both",
    "Qrpc.C12_closed_when_both_ended",
    "Qrpc.C12_open_stream_in_table"
   ],
   "note": "single atomic operations of both goroutines, all interleavings; peers ending by a final frame (resets: C14), reader not panicked (C13)"
  },
  {
   "property": "C13",
   "status": "partial",
   "theorems": [
    "Qrpc.C13_refuted_reset_then_response",
    "Qrpc.C13_panic_only_after_reset_partial",
    "Qrpc.C13_no_reset_no_panic_partial"
   ],
   "note": "false: reset followed by a response panics the reader; proved that this is the only way in the stream machinery"
  },
  {
   "property": "C14",
   "status": "partial",
   "theorems": [
    "Qrpc.C14_refuted_reset_leaks",
    "Qrpc.C14_refuted_unbounded",
    "Qrpc.C14_removed_partial",
    "Qrpc.C14_reset_before_local_end_partial"
   ],
   "note": "false when the peer's reset comes after the local side closed; proved otherwise"
  },
  {
   "property": "C15",
   "status": "proved",
   "theorems": [
    "Qrpc.C15_nothing_after_end",
    "Qrpc.C15_rejected_only_after_end",
    "Qrpc.C15_reset_of_closed_stream_not_sent",
    "Qrpc.C15_write_always_decided"
   ],
   "note": "per stream object, all schedules"
  },
  {
   "property": "C16",
   "status": "proved",
   "theorems": [
    "Qrpc.C16_isolation"
   ],
   "note": "every step of every reachable state"
  },
  {
   "property": "C21",
   "status": "proved",
   "theorems": [
    "Qrpc.C21",
    "Qrpc.C21_client"
   ],
   "note": "any number of writers, all schedules, batch sizes and transport failures"
  },
  {
   "property": "C22",
   "status": "partial",
   "theorems": [
    "Qrpc.C22_partial",
    "Qrpc.C22_batch",
    "Qrpc.write_refines",
    "Qrpc.C22_refuted_websocket",
    "Qrpc.C22_client_partial"
   ],
   "note": "proved for transports honouring the net.Conn contract (whole system on both sides); refuted for the WebSocket overlay"
  },
  {
   "property": "C23",
   "status": "proved",
   "theorems": [
    "Qrpc.C23_all_return",
    "Qrpc.C23_holder",
    "Qrpc.C23_waiter",
    "Qrpc.C23_take",
    "Qrpc.C23_results",
    "Qrpc.C23_bounded"
   ],
   "note": "assuming distinct ids of outstanding requests (C20)"
  },
  {
   "property": "C26",
   "status": "proved",
   "theorems": [
    "Qrpc.C26",
    "Qrpc.C26_no_use_after"
   ],
   "note": "all interleavings of the reader and any number of writers"
  },
  {
   "property": "C57",
   "status": "proved",
   "theorems": [
    "Qrpc.C57_write",
    "Qrpc.C57_vectored"
   ],
   "note": "Write and writeBuffers, both ways net.Buffers writes"
  },
  {
   "property": "C17",
   "status": "partial",
   "theorems": [
    "Qrpc.C17_refuted_reset_never_returned",
    "Qrpc.C17_refuted_reset_swallowed",
    "Qrpc.C17_refuted_wait_goes_on",
    "Qrpc.C17_answer_ends_wait_partial"
   ],
   "note": "false: a reset never reaches the response, in every continuation the caller keeps waiting until a response or the end of the connection"
  },
  {
   "property": "C18",
   "status": "proved",
   "theorems": [
    "Qrpc.C18",
    "Qrpc.C18_no_sharing"
   ],
   "note": "client connection, all interleavings including reconnects and Close; the server side is covered with C60"
  },
  {
   "property": "C19",
   "status": "proved",
   "theorems": [
    "Qrpc.C19_no_outstanding",
    "Qrpc.C19_released",
    "Qrpc.C19_close_releases",
    "Qrpc.C19_no_late_registration"
   ],
   "note": "client connection; safety in every state and enabledness of the releasing steps"
  },
  {
   "property": "C20",
   "status": "proved",
   "theorems": [
    "Qrpc.C20_parity",
    "Qrpc.C20_server_inj",
    "Qrpc.C20_unique",
    "Qrpc.C20_no_collision",
    "Qrpc.C20_bound_sharp"
   ],
   "note": ""
  },
  {
   "property": "C24",
   "status": "partial",
   "theorems": [
    "Qrpc.C24_stream_writer",
    "Qrpc.C24_server",
    "Qrpc.C24_client_first_partial",
    "Qrpc.C24_refuted_client_later",
    "Qrpc.C24_refuted_client_batch"
   ],
   "note": "server: full; client: only the first frame of a batch is checked, later ones are refuted"
  },
  {
   "property": "C25",
   "status": "partial",
   "theorems": [
    "Qrpc.C25_at_most_one",
    "Qrpc.C25_not_dropped_partial",
    "Qrpc.C25_not_stuck_partial",
    "Qrpc.C25_progress",
    "Qrpc.C25_writer_runs",
    "Qrpc.C25_refuted_stranded",
    "Qrpc.C25_refuted_stranded_example"
   ],
   "note": "false when the loop ends (Close while reconnecting); otherwise nothing is dropped, the goroutines are never stuck, and a write is answered within a bounded number of steps of the writer"
  },
  {
   "property": "C44",
   "status": "proved",
   "theorems": [
    "Qrpc.C44_round_robin",
    "Qrpc.C44_covers",
    "Qrpc.C44_sleeps"
   ],
   "note": "dials made by connect; the very first dial of the constructor is separate"
  },
  {
   "property": "C45",
   "status": "partial",
   "theorems": [
    "Qrpc.C45_refuted",
    "Qrpc.C45_refuted_never_ends",
    "Qrpc.C45_failed_dial_ends_partial",
    "Qrpc.C45_no_reconnect_partial"
   ],
   "note": "false: as long as dials succeed a closed connection reconnects forever; proved for NewConnection and for the first failing dial"
  },
  {
   "property": "C46",
   "status": "proved",
   "theorems": [
    "Qrpc.C46_once",
    "Qrpc.C46_closes",
    "Qrpc.C46_stays_closed",
    "Qrpc.C46_request_after_close"
   ],
   "note": ""
  },
  {
   "property": "C47",
   "status": "partial",
   "theorems": [
    "Qrpc.C47_newConnection_partial",
    "Qrpc.C47_refuted_reconnect",
    "Qrpc.C47_refuted"
   ],
   "note": "false: NewConnectionWithReconnect drops the TLS configuration"
  },
  {
   "property": "C61",
   "status": "partial",
   "theorems": [
    "Qrpc.C61_refuted",
    "Qrpc.C61_partial"
   ],
   "note": "false: the test of conn.rwc and its use are not atomic; proved: in every execution that is the only way, closeRWC (by the loop or a handler) has to fall between them"
  },
  {
   "property": "C27",
   "status": "proved",
   "theorems": [
    "Qrpc.C27_order",
    "Qrpc.C27_exclusive",
    "Qrpc.C27_no_read_ahead",
    "Qrpc.C27_dispatch",
    "Qrpc.C27_gate_opens"
   ],
   "note": "all schedules, queue sizes, handler durations; return and panic are the same event"
  },
  {
   "property": "C28",
   "status": "proved",
   "theorems": [
    "Qrpc.C28_answered",
    "Qrpc.C28_accounted",
    "Qrpc.C28_cleanup",
    "Qrpc.C28_cleanup_blocking",
    "Qrpc.C28_teardown",
    "Qrpc.C28_client_answered",
    "Qrpc.C28_client_wg",
    "Qrpc.C28_client_cleanup",
    "Qrpc.C28_client_no_reset"
   ],
   "note": "server and client side; the reset's effect on the stream is C15"
  },
  {
   "property": "C29",
   "status": "partial",
   "theorems": [
    "Qrpc.C29_bound_partial",
    "Qrpc.C29_nonblocking_partial",
    "Qrpc.C29_closes",
    "Qrpc.C29_refuted"
   ],
   "note": "false: with limit 1 any number of handlers can run, after as many blocking requests; holds without blocking requests, exact bound otherwise"
  },
  {
   "property": "C30",
   "status": "proved",
   "theorems": [
    "Qrpc.C30",
    "Qrpc.C30_excess",
    "Qrpc.C30_no_more"
   ],
   "note": "all arrival times under a non-decreasing clock"
  },
  {
   "property": "C31",
   "status": "partial",
   "theorems": [
    "Qrpc.C31_refuted_reader_stuck",
    "Qrpc.C31_refuted_example",
    "Qrpc.C31_reader_progress_partial",
    "Qrpc.C31_reader_not_stuck_partial",
    "Qrpc.C31_serve_ends_partial",
    "Qrpc.C31_all_end_partial"
   ],
   "note": "false: the reader can wait forever inside ReadFrame; outside ReadFrame every step leads to its end"
  },
  {
   "property": "C62",
   "status": "partial",
   "theorems": [
    "Qrpc.C62_refuted",
    "Qrpc.C62_partial"
   ],
   "note": "false: frames of an established stream and resets are not counted; all others are"
  },
  {
   "property": "C32",
   "status": "proved",
   "theorems": [
    "Qrpc.C32_at_most_once",
    "Qrpc.C32_exactly_once",
    "Qrpc.C32_quiescent",
    "Qrpc.C32_progress"
   ],
   "note": "any number of connections and goroutines; every way of ending a connection"
  },
  {
   "property": "C33",
   "status": "proved",
   "theorems": [
    "Qrpc.C33_once",
    "Qrpc.C33_close_returns",
    "Qrpc.C33_progress",
    "Qrpc.C33_close_bounded",
    "Qrpc.C35_all_return_partial"
   ],
   "note": "all interleavings of Close, end of serve and kicks"
  },
  {
   "property": "C34",
   "status": "partial",
   "theorems": [
    "Qrpc.C34_displaced_closed",
    "Qrpc.C34_kick_iff",
    "Qrpc.C34_own_id",
    "Qrpc.C34_one_live_partial",
    "Qrpc.C34_refuted_two_live"
   ],
   "note": "displaced connections, the kick result and the table are proved in every execution; two live connections under one id are refuted (a connection closed during its SetID); one live connection proved when none is closed before or during its SetID"
  },
  {
   "property": "C35",
   "status": "partial",
   "theorems": [
    "Qrpc.C35_refuted_loop",
    "Qrpc.C35_refuted",
    "Qrpc.C35_partial",
    "Qrpc.C35_all_return_partial"
   ],
   "note": "false: SetID that finds a connection that was closed before its own SetID loops forever; proved when no connection is closed before or during its SetID"
  },
  {
   "property": "C36",
   "status": "partial",
   "theorems": [
    "Qrpc.C36_refuted_closed",
    "Qrpc.C36_refuted_unreachable",
    "Qrpc.C36_reachable_partial",
    "Qrpc.C36_not_closed_partial",
    "Qrpc.C36_removed_by"
   ],
   "note": "false in two ways (closed connection found, live connection unreachable); proved when no connection is closed before or during its SetID"
  },
  {
   "property": "C37",
   "status": "partial",
   "theorems": [
    "Qrpc.C37_refuted",
    "Qrpc.C37_refuted_greater",
    "Qrpc.C37_partial"
   ],
   "note": "false: a displaced SetID still in progress can report an equal or greater number; proved for connections whose SetID returned before they were displaced"
  },
  {
   "property": "C38",
   "status": "proved",
   "theorems": [
    "Qrpc.C38",
    "Qrpc.C38_opaque"
   ],
   "note": "all sequences of Handle calls"
  },
  {
   "property": "C39",
   "status": "partial",
   "theorems": [
    "Qrpc.C39_partial",
    "Qrpc.C39_refuted",
    "Qrpc.C39_opaque_never_refused"
   ],
   "note": "false: a command written with an opaque byte is never refused as a duplicate; proved for commands without one"
  },
  {
   "property": "C40",
   "status": "proved",
   "theorems": [
    "Qrpc.C40",
    "Qrpc.C40_handler_iff"
   ],
   "note": ""
  },
  {
   "property": "C41",
   "status": "partial",
   "theorems": [
    "Qrpc.C41_partial",
    "Qrpc.C41_no_panic_partial",
    "Qrpc.C41_waits",
    "Qrpc.C41_refuted_panic",
    "Qrpc.C41_refuted_stranded",
    "Qrpc.C41_refuted"
   ],
   "note": "false for several controllers (double close panics, stranded waiters); proved for one controller"
  },
  {
   "property": "C42",
   "status": "proved",
   "theorems": [
    "Qrpc.C42_at_most_once",
    "Qrpc.C42_quiescent",
    "Qrpc.C42_progress"
   ],
   "note": "any number of goroutines; hooks and listeners chosen by the environment; wg.Wait is environment"
  },
  {
   "property": "C43",
   "status": "proved",
   "theorems": [
    "Qrpc.C43_waits",
    "Qrpc.C43_doubling",
    "Qrpc.C43_goes_on"
   ],
   "note": "all accept results"
  },
  {
   "property": "C59",
   "status": "partial",
   "theorems": [
    "Qrpc.C59_contexts",
    "Qrpc.C59_streams",
    "Qrpc.C59_cancelled",
    "Qrpc.C59_before_callbacks",
    "Qrpc.C59_quiescent",
    "Qrpc.C59_refuted_return"
   ],
   "note": "the contexts of all streams are cancelled with that of the connection (any tree), before the close callbacks and at quiescence; refuted: a second concurrent Close may return before that"
  },
  {
   "property": "C63",
   "status": "partial",
   "theorems": [
    "Qrpc.C63_refuted_forever",
    "Qrpc.C63_refuted",
    "Qrpc.C63_refuted_alone",
    "Qrpc.C63_partial"
   ],
   "note": "false: a failed write during a kick keeps the write lock and OnKickCB's write waits forever"
  },
  {
   "property": "C64",
   "status": "partial",
   "theorems": [
    "Qrpc.C64_partial",
    "Qrpc.C64_refuted_leak",
    "Qrpc.C64_refuted"
   ],
   "note": "false: a connection that is not a TCPConn is dropped without being closed"
  },
  {
   "property": "C65",
   "status": "partial",
   "theorems": [
    "Qrpc.C65_partial",
    "Qrpc.C65_refuted"
   ],
   "note": "false: Shutdown before Serve tracks its listener"
  },
  {
   "property": "C48",
   "status": "partial",
   "theorems": [
    "Qrpc.C48_weights",
    "Qrpc.C48_no_fallback",
    "Qrpc.C48_zero",
    "Qrpc.C48_uniform",
    "Qrpc.C48_refuted_negative"
   ],
   "note": "proved for all lists of non-negative weights of positive sum; false for lists with a negative weight, which NewAPI accepts"
  },
  {
   "property": "C49",
   "status": "proved",
   "theorems": [
    "Qrpc.C49_all_return",
    "Qrpc.C49_one",
    "Qrpc.C49_maps_agree",
    "Qrpc.C49_no_panic",
    "Qrpc.C49_close",
    "Qrpc.C49_done_iff",
    "Qrpc.C49_no_leak",
    "Qrpc.C49_progress"
   ],
   "note": "any number of goroutines and endpoints"
  },
  {
   "property": "C50",
   "status": "proved",
   "theorems": [
    "Qrpc.C50",
    "Qrpc.C50_twice",
    "Qrpc.C50_result"
   ],
   "note": "all outcomes of every send, dial and response"
  },
  {
   "property": "C53",
   "status": "proved",
   "theorems": [
    "Qrpc.C53",
    "Qrpc.C53_size",
    "Qrpc.C53_fields"
   ],
   "note": "all requests whose encoding is shorter than 2^63 bytes; fields in any order and repeated"
  },
  {
   "property": "C54",
   "status": "partial",
   "theorems": [
    "Qrpc.C54_partial",
    "Qrpc.C54_refuted",
    "Qrpc.C54_refuted_unknown",
    "Qrpc.C54_refuted_stack"
   ],
   "note": "false: a declared length near 2^63 overflows and panics, nested groups exhaust any stack; proved for inputs without eight consecutive bytes with the high bit set and a stack as deep as the input is long"
  },
  {
   "property": "C51",
   "status": "partial",
   "theorems": [
    "Qrpc.C51",
    "Qrpc.C51_wrap",
    "Qrpc.C51_rotates",
    "Qrpc.C51_wrap_repeats",
    "Qrpc.C51_refuted_32bit"
   ],
   "note": "proved for 64-bit int, across the wrap of the counter; false where int has 32 bits (negative index, panic)"
  },
  {
   "property": "C52",
   "status": "partial",
   "theorems": [
    "Qrpc.C52_dispatch",
    "Qrpc.C52_response",
    "Qrpc.C52_refuted",
    "Qrpc.C52_refuted_no_response"
   ],
   "note": "proved for names without a colon and payloads that unmarshal without panic; false: two services/methods whose joined names clash, and a payload that panics in Unmarshal gets no response"
  },
  {
   "property": "C55",
   "status": "proved",
   "theorems": [
    "Qrpc.C55_read",
    "Qrpc.C55",
    "Qrpc.C55_complete",
    "Qrpc.C55_transparent",
    "Qrpc.C55_refines",
    "Qrpc.C55_stays"
   ],
   "note": "all sequences of messages, message kinds and read sizes"
  },
  {
   "property": "C56",
   "status": "partial",
   "theorems": [
    "Qrpc.C56_client_send_partial",
    "Qrpc.C56_refuted_end",
    "Qrpc.C56_refuted_end_resets",
    "Qrpc.C56_after_end",
    "Qrpc.C56_server_send",
    "Qrpc.C56_server_receive_partial",
    "Qrpc.C56_refuted_receive",
    "Qrpc.C56_client_receive",
    "Qrpc.C56_client_decodes",
    "Qrpc.C56_end_to_end_partial",
    "Qrpc.C56_refuted_concurrent"
   ],
   "note": "false: end is ignored on later Sends and End resets the stream, server Receive without a place for the command loses the message, two first Sends at once open two streams; proved otherwise"
  },
  {
   "property": "C58",
   "status": "partial",
   "theorems": [
    "Qrpc.C58_header",
    "Qrpc.C58_payload_partial",
    "Qrpc.C58_refuted_payload",
    "Qrpc.C58_read_ends",
    "Qrpc.C58_payload_ends_partial",
    "Qrpc.C58_refuted_wait",
    "Qrpc.C58_refuted_overflow",
    "Qrpc.C58_round",
    "Qrpc.C58_write_ends",
    "Qrpc.C58_write_stops",
    "Qrpc.C58_cancel",
    "Qrpc.C58_cancel_stops",
    "Qrpc.C58_refuted_write_overflow"
   ],
   "note": "headers, writes and cancelled writes proved, payloads proved with a positive read timeout; false: without a read timeout (the default) the payload has no deadline either; timeouts of 2^63 ns or more overflow"
  },
  {
   "property": "C66",
   "status": "partial",
   "theorems": [
    "Qrpc.C66",
    "Qrpc.C66_refuted"
   ],
   "note": "proved for 24-bit commands and names without a colon; false: an error command of 2^24 or more makes an error text arrive as a success"
  },
  {
   "property": "C60",
   "status": "proved",
   "theorems": [
    "Qrpc.C60_sent",
    "Qrpc.C60_frames",
    "Qrpc.C60_dispatch",
    "Qrpc.C60"
   ],
   "note": "all flags; end to end for frames without the codec bit (for the others C08)"
  },
  {
   "property": "C67",
   "status": "partial",
   "theorems": [
    "Qrpc.C67",
    "Qrpc.C67_no_sharing",
    "Qrpc.C67_registered",
    "Qrpc.C67_closed",
    "Qrpc.C67_released",
    "Qrpc.C67_close_ends",
    "Qrpc.C67_delivered",
    "Qrpc.C67_refuted_dispatched"
   ],
   "note": "proved except the last part, which is false: a response read while the connection is closed is dispatched as a request"
  },
  {
   "property": "C68",
   "status": "partial",
   "theorems": [
    "Qrpc.C68_partial",
    "Qrpc.C68_refuted"
   ],
   "note": "false: after Serve's context is cancelled, a caller returns while its buffer is still in a batch, and a frame of another connection is transmitted; proved as long as the context of the connection is not cancelled"
  },
  {
   "property": "C69",
   "status": "partial",
   "theorems": [
    "Qrpc.C69_server_partial",
    "Qrpc.C69_client_partial",
    "Qrpc.C69_refuted"
   ],
   "note": "false on the transport connection a client starts with: its loop context lacks the value, all methods panic; proved for the server and for connections made by connect"
  },
  {
   "property": "C70",
   "status": "proved",
   "theorems": [
    "Qrpc.C70_paired",
    "Qrpc.C70_when"
   ],
   "note": "all executions of the client model"
  },
  {
   "property": "C71",
   "status": "proved",
   "theorems": [
    "Qrpc.C71"
   ],
   "note": "all executions of the client model"
  },
  {
   "property": "C72",
   "status": "partial",
   "theorems": [
    "Qrpc.C72_partial",
    "Qrpc.C72_refuted"
   ],
   "note": "false: when listening on binding k fails, the listeners of bindings 0..k-1 stay open in every continuation; proved for the return of ServeAll"
  },
  {
   "property": "C73",
   "status": "partial",
   "theorems": [
    "Qrpc.C73_partial",
    "Qrpc.C73_refuted"
   ],
   "note": "false: a connection accepted but not yet counted in srv.wg is served after Shutdown returned; proved when no Serve holds such a connection and every listener was tracked"
  },
  {
   "property": "C74",
   "status": "proved",
   "theorems": [
    "Qrpc.C74_closes",
    "Qrpc.C74"
   ],
   "note": "decreasing measure plus absence of deadlock; connections end once their Serve's context is cancelled (C31)"
  },
  {
   "property": "C75",
   "status": "partial",
   "theorems": [
    "Qrpc.C75_refuted"
   ],
   "note": "false: the listeners before the failing one are closed, their Serve goroutines retry Accept on a closed listener until a later Shutdown succeeds"
  },
  {
   "property": "C76",
   "status": "partial",
   "theorems": [
    "Qrpc.C76_refuted",
    "Qrpc.C74"
   ],
   "note": "false: a handler's call never returns and blocks every other call; calls from elsewhere return (C74)"
  },
  {
   "property": "C77",
   "status": "partial",
   "theorems": [
    "Qrpc.C77_order",
    "Qrpc.C77_errors",
    "Qrpc.C77_partial",
    "Qrpc.C77_refuted"
   ],
   "note": "order and at-most-once proved in every execution, no loss until Close; false afterwards: a connection still being offered is dropped without being closed"
  },
  {
   "property": "C78",
   "status": "partial",
   "theorems": [
    "Qrpc.C78_results",
    "Qrpc.C78_closed",
    "Qrpc.C78_set_partial",
    "Qrpc.C78_refuted"
   ],
   "note": "false for a second GetFrame on a response that was set: it never returns, even when the connection is closed; proved for closed responses, contexts and the first caller"
  },
  {
   "property": "C79",
   "status": "partial",
   "theorems": [
    "Qrpc.C79_refuted_handler",
    "Qrpc.C79_refuted_handler_example",
    "Qrpc.C79_refuted_subscriber",
    "Qrpc.C79_refuted_subscriber_example",
    "Qrpc.C79_refuted_callback",
    "Qrpc.C79_refuted_callback_example",
    "Qrpc.C79_terminates_partial",
    "Qrpc.C79_only_deadlock_partial"
   ],
   "note": "false: a write committed by a handler, the subscriber or a callback after the writer ended waits for the writer of the next connection, which is made only after it returned; proved that taking down terminates and that this is the only deadlock"
  },
  {
   "property": "C80",
   "status": "proved",
   "theorems": [
    "Qrpc.C80"
   ],
   "note": "client connections, any number of reconnects"
  },
  {
   "property": "C81",
   "status": "partial",
   "theorems": [
    "Qrpc.C81",
    "Qrpc.C81_refuted_ctx",
    "Qrpc.C81_server",
    "Qrpc.C81_refuted_server_ctx"
   ],
   "note": "proved for every result a caller receives, over transports honouring the net.Conn contract; both sides; false for a caller that returns the error of the context (client: without reconnect), whose frame may have been transmitted"
  },
  {
   "property": "C82",
   "status": "proved",
   "theorems": [
    "Qrpc.C82",
    "Qrpc.C82_transmitted"
   ],
   "note": "client connection composed with abstract servers that answer only what they have read; fewer than 2^63 requests"
  },
  {
   "property": "C83",
   "status": "proved",
   "theorems": [
    "Qrpc.C83"
   ],
   "note": "same composed model as C82"
  },
  {
   "property": "C84",
   "status": "proved",
   "theorems": [
    "Qrpc.C84_client",
    "Qrpc.C84_server",
    "Qrpc.C84_peer",
    "Qrpc.C84_encodes",
    "Qrpc.C84_encodes_codec"
   ],
   "note": "frames with the codec flag need the codec hypotheses of C08"
  },
  {
   "property": "C85",
   "status": "partial",
   "theorems": [
    "Qrpc.C85_refuted",
    "Qrpc.C85_refuted_example",
    "Qrpc.C85_partial"
   ],
   "note": "false for the code: a handler that returned without reading its stream blocks the reader; positive part: the offer is the only place where the reader waits"
  },
  {
   "property": "C86",
   "status": "proved",
   "theorems": [
    "Qrpc.C86",
    "Qrpc.C86_failed",
    "Qrpc.C86_each"
   ],
   "note": "submissions are calls that queued a frame; a caller that retries by itself makes a new submission"
  },
  {
   "property": "C87",
   "status": "partial",
   "theorems": [
    "Qrpc.C87_walk",
    "Qrpc.C87_byID_partial",
    "Qrpc.C87_info_partial",
    "Qrpc.C87_push",
    "Qrpc.C87_refuted_closed",
    "Qrpc.C87_refuted_missed"
   ],
   "note": "WalkConn and push ids proved; WalkConnByID and GetConnectionInfoByID in executions where no connection is closed before or during its SetID (false otherwise, as of C36). sync.Map.Range is assumed as documented; at most 2^64 push ids"
  },
  {
   "property": "C88",
   "status": "partial",
   "theorems": [
    "Qrpc.C88_one",
    "Qrpc.C88_all",
    "Qrpc.C88_partial",
    "Qrpc.C88_refuted",
    "Qrpc.C88_refuted_example"
   ],
   "note": "false when len(weights) > len(endpoints); proved otherwise"
  },
  {
   "property": "C89",
   "status": "proved",
   "theorems": [
    "Qrpc.C89_all_end"
   ],
   "note": "connections without reconnect. ReadFrame returning an error on a closed connection, handlers and callbacks returning count as steps, so their returning is assumed; C31 shows ReadFrame need not return"
  },
  {
   "property": "C90",
   "status": "partial",
   "theorems": [
    "Qrpc.C90_register",
    "Qrpc.C90_names",
    "Qrpc.C90_output",
    "Qrpc.C90_partial",
    "Qrpc.C90_errors",
    "Qrpc.C90_marshaler",
    "Qrpc.C90_refuted_marshaler",
    "Qrpc.C90_refuted_sub"
   ],
   "note": "registration proved exactly; calls proved for the main service and results encoded by JSON. False for results that implement Marshaler (encoded by JSON, decoded by Unmarshal: generator.go:274 asks the input types) and with sub services (a printed header has no parameter list, so Output panics). format.Source is modelled only by the method headers and type names"
  },
  {
   "property": "C91",
   "status": "partial",
   "theorems": [
    "Qrpc.C91_partial",
    "Qrpc.C91_only",
    "Qrpc.C91_refuted_push",
    "Qrpc.C91_refuted_flag"
   ],
   "note": "proved for flag bytes without the push and codec bits, and that nothing is sent for other arguments; false: a flag with the push bit makes the tool panic on a nil Response after sending, and a flag out of range is refused only after dialling"
  },
  {
   "property": "C92",
   "status": "partial",
   "theorems": [
    "Qrpc.C92",
    "Qrpc.C92_returned",
    "Qrpc.C92_all_partial",
    "Qrpc.C92_subscriber",
    "Qrpc.C92_streams",
    "Qrpc.C92_streamed_partial",
    "Qrpc.C92_refuted_race"
   ],
   "note": "order, at most once and no mixing proved for all executions; that no push is lost is proved, for streamed pushes too, if the client does not itself reset push streams and no push is a reset. With such a reset it is false: the next push with the same id can be thrown away"
  },
  {
   "property": "C93",
   "status": "proved",
   "theorems": [
    "Qrpc.C93_client",
    "Qrpc.C93_server"
   ],
   "note": "a client connection is taken with all its transport connections; each is shown to carry an ordered part of the stream. A reset stream and a connection being torn down may lose frames (C11)"
  },
  {
   "property": "C94",
   "status": "proved",
   "theorems": [
    "Qrpc.C94",
    "Qrpc.C94_label"
   ],
   "note": "the metric objects themselves (With, Add, Observe) are taken as recording their calls. A panic whose value is printed as <nil> has the label of a handler that returned (C94_label)"
  },
  {
   "property": "C95",
   "status": "partial",
   "theorems": [
    "Qrpc.C95_partial",
    "Qrpc.C95_quiet_partial",
    "Qrpc.C95_refuted",
    "Qrpc.C95_refuted_example"
   ],
   "note": "false of the code: a writer that checks the inflight counter before serve has set it to 1 takes the connection for a closed one and keeps the write lock for ever; proved: writes begun after the start are those of the model of C21-C24, and in all executions either that holds or the connection is jammed with nothing written"
  },
  {
   "property": "C96",
   "status": "proved",
   "theorems": [
    "Qrpc.C96"
   ],
   "note": "sync.Pool as documented: hands out each object to one caller or makes a new one"
  },
  {
   "property": "C97",
   "status": "partial",
   "theorems": [
    "Qrpc.C97_partial",
    "Qrpc.C97_nopanic_partial",
    "Qrpc.C97_refuted_early",
    "Qrpc.C97_refuted_waiting"
   ],
   "note": "false of the code: the read under way keeps its deadline, so a silent peer of a connection without timeout is waited for without limit, whatever is set; before serve has made the reader a change panics. Proved: every read begun later has exactly the deadline of the timeout set last; only changes through WalkConn before serve panic"
  },
  {
   "property": "C98",
   "status": "partial",
   "theorems": [
    "Qrpc.C98_partial",
    "Qrpc.C98_refuted"
   ],
   "note": "false of the code when the sender's argument does not show the Marshal method whose counterpart the receiver uses, e.g. a value of a type with methods on the pointer; exactly these cases are refuted, all others proved, given that each encoding alone is faithful"
  },
  {
   "property": "C99",
   "status": "partial",
   "theorems": [
    "Qrpc.C99_partial",
    "Qrpc.C99_refuted"
   ],
   "note": "false of the code: one error that is not temporary ends the HTTP server, whose result is only logged, and Accept waits for ever; proved as long as all errors are temporary. net/http's Serve is taken as documented"
  },
  {
   "property": "C100",
   "status": "partial",
   "theorems": [
    "Qrpc.C100_server",
    "Qrpc.C100_partial",
    "Qrpc.C100_reconnect_partial",
    "Qrpc.C100_refuted",
    "Qrpc.C100_refuted_reused"
   ],
   "note": "server and NewConnection proved; false for NewConnectionWithReconnect and every reconnection, which drop the TLS configuration (C47), and for NewReusedConnection, which drops TLS, overlay and buffer sizes"
  },
  {
   "property": "C101",
   "status": "partial",
   "theorems": [
    "Qrpc.C101_partial",
    "Qrpc.C101_refuted"
   ],
   "note": "proved without TLS and overlay; false with either: the timeout covers only the TCP connection, and a peer that stays silent in the handshake is waited for without limit"
  },
  {
   "property": "C102",
   "status": "partial",
   "theorems": [
    "Qrpc.C102_partial",
    "Qrpc.C102_refuted",
    "Qrpc.C102_refuted_waste"
   ],
   "note": "false of the code both ways: displaced connections (SetID) do not pass the limiter, any number can be closed at one moment; and every Close call passes it, also of a connection already closed, so one connection can use up the allowance. Proved: each closed connection was let through or displaced. The limiter is a parameter"
  },
  {
   "property": "C103",
   "status": "partial",
   "theorems": [
    "Qrpc.C103_partial",
    "Qrpc.C103_refuted",
    "Qrpc.C103_refuted_remote",
    "Qrpc.C103_client"
   ],
   "note": "proved for handlers and middleware, and metrics of blocking requests; false for every other call (subscriber, codec, NotifyWhenClose and lifecycle callbacks, metrics of non-blocking requests) and for the reader, so that with C13 one peer can end the whole server. util.GoFunc is taken not to recover; only the calls that may panic and the deferred functions around them are modelled"
  },
  {
   "property": "C104",
   "status": "partial",
   "theorems": [
    "Qrpc.C104_partial",
    "Qrpc.C104_distinct_partial",
    "Qrpc.C104_refuted_second",
    "Qrpc.C104_refuted_clash"
   ],
   "note": "imports and names printed by alias proved for all inputs; everything proved if last names differ and are free; false for the second file generated in a process, and for types of a package whose last name is context or qrpc, because three places print these names literally. RegisterUniquePackageName is a parameter"
  },
  {
   "property": "C105",
   "status": "partial",
   "theorems": [
    "Qrpc.C105_partial",
    "Qrpc.C105_refuted"
   ],
   "note": "proved as long as ErrNoNewUUID does not occur (it needs 2^63 requests on one connection); if it does, the request returns to the pool without a channel, and the next write of any connection that gets it never returns its result"
  },
  {
   "property": "C106",
   "status": "partial",
   "theorems": [
    "Qrpc.C106_partial",
    "Qrpc.C106_server_partial",
    "Qrpc.C106_refuted"
   ],
   "note": "exact content proved on both sides: entered, not answered, not closed; false that a caller must still wait: one that gives up (GetFrameWithContext) leaves its entry, any number of them, until the connection ends"
  },
  {
   "property": "C107",
   "status": "proved",
   "theorems": [
    "Qrpc.C107",
    "Qrpc.C107_stream",
    "Qrpc.C107_gets"
   ],
   "note": "composition of C82, C83, C84, C86 and C92: both write paths, both frame readers, streams, dispatch and the response table; hypothesis: fewer than 2^63 requests, and (for C107, C107_gets) no further frames but resets submitted with the call's id - C107_stream is without this. rpc_example meets all hypotheses"
  },
  {
   "property": "C108",
   "status": "proved",
   "theorems": [
    "Qrpc.C108"
   ],
   "note": "measure on the transition system of Model/Client; no new calls from the chosen state on (each new call adds a bounded amount). Handlers returning is a step; the subscriber is taken to return (C79, C85 for what happens otherwise)"
  },
  {
   "property": "C109",
   "status": "proved",
   "theorems": [
    "Qrpc.C109_belongs",
    "Qrpc.C109_first",
    "Qrpc.C109_dispatched",
    "Qrpc.C109",
    "Qrpc.C109_gets"
   ],
   "note": "composition of the response table (C67) with an abstract client that answers only what it has read, and with both write paths, frame readers and streams (C84, C92); hypothesis: fewer than 2^63 requests"
  },
  {
   "property": "C110",
   "status": "proved",
   "theorems": [
    "Qrpc.C110",
    "Qrpc.C110_gets",
    "Qrpc.C110_typed"
   ],
   "note": "composition of C107 with C52, C53, C66 and C90; hypotheses: names without colons, command and error command of 24 bits and different (C66_refuted without), clean writers (C09), no other frame but resets submitted with the call's id, fewer than 2^63 requests; C110_typed: encodings give the values back and the result type is no Marshaler (C90_refuted_marshaler)"
  },
  {
   "property": "C111",
   "status": "proved",
   "theorems": [
    "Qrpc.C111_same",
    "Qrpc.C111",
    "Qrpc.C111_serves",
    "Qrpc.C111_arrives",
    "Qrpc.C111_sent"
   ],
   "note": "the frame reader run on the overlay's own Read, shown to give the same results as over the connection of Model/Reader (C55_refines), then composed with C84; C111_serves and C111_arrives make the overlay an instance of the hypotheses of C86, C92, C107, C109 and C110. That the sender is told which frames were sent is false over the overlay (C22_refuted_websocket)"
  },
  {
   "property": "C112",
   "status": "proved",
   "theorems": [
    "Qrpc.C112_client",
    "Qrpc.C112_server",
    "Qrpc.C112_end"
   ],
   "note": "C56 (channel package) composed with C93 (streams end to end). Receive is called with a place for the command (otherwise a handler's Receiver loses the message: C56_refuted_receive), Sends do not overlap on the first message (C56_refuted_concurrent), End is not used (it resets: C56_refuted_end_resets); the first frame of a response is handed over by the reader of the response table (C18, C67)"
  },
  {
   "property": "C113",
   "status": "proved",
   "theorems": [
    "Qrpc.C113_requests",
    "Qrpc.C113"
   ],
   "note": "Model/Api (api.go) over Model/EndToEnd (a client connection with its peer), with C107 for the way through the server. C113_requests needs nothing but the run; C113 assumes the wiring of the connection used (bytes written are bytes read by the peer, either way) and ids not wrapped around; that no two requests share an id is part of the proof. CallAll is a CallOne for every endpoint (C88)"
  },
  {
   "property": "C114",
   "status": "proved",
   "theorems": [
    "Qrpc.C114_one",
    "Qrpc.C114_call",
    "Qrpc.C114_frames",
    "Qrpc.C114_refuted_once",
    "Qrpc.C114_refuted_four"
   ],
   "note": "Potential-function argument over the composition of Model/Api and Model/EndToEnd. C114_one and C114_call count the requests from the call on; C114_frames says what the submitted ones are. C114_refuted_once exhibits one CallOne read in full by the server on two connections, C114_refuted_four one Call read four times (the bounds are reached)"
  },
  {
   "property": "C115",
   "status": "proved",
   "theorems": [
    "Qrpc.C115",
    "Qrpc.C115_requests",
    "Qrpc.C115_result",
    "Qrpc.C115_tries",
    "Qrpc.C115_start"
   ],
   "note": "invariant on the composition of Client.Request with one EndToEnd connection per address, C86_failed (a write that returned an error is never handled) and C110. The connections reconnect, as NewClient makes them; the API, whose connections do not, may carry out a call twice (C114). Serves and Wired as in C86 and C107. int is 64 bits wide (C51_refuted_32bit otherwise)"
  },
  {
   "property": "C116",
   "status": "partial",
   "theorems": [
    "Qrpc.C116_refuted_request",
    "Qrpc.C116_refuted_reset",
    "Qrpc.C116_partial"
   ],
   "note": "false of the code: two executions after which, in every continuation in which the connection is not dialled successfully, the call has not returned. C116_partial: the only places where a call with an ended context can wait are inside a write on one of its connections (on one that is up such a write returns: C108)"
  },
  {
   "property": "C117",
   "status": "partial",
   "theorems": [
    "Qrpc.C117_partial",
    "Qrpc.C117_refuted",
    "Qrpc.C117_refuted_reused"
   ],
   "note": "false of the code on rwc (two executions with the racing accesses). C117_partial: all other fields are race free, and the races on rwc are only those named. Happens-before is defined from the trace alone (Spec.HB: program order, release before a later acquire of the same object, start of a goroutine, transitivity); a trace lists accesses with their source lines and the synchronising operations"
  },
  {
   "property": "C118",
   "status": "partial",
   "theorems": [
    "Qrpc.C118_partial",
    "Qrpc.C118_refuted_reader",
    "Qrpc.C118_refuted_inflight",
    "Qrpc.C118_refuted_timeout"
   ],
   "note": "false of the code on reader, inflight and timeout (three executions with the racing accesses). C118_partial: all other fields are race free, the races on these three are only those named, and they disappear under the two conditions on the use of the connection. Not covered: anything (documented as unsynchronised), the write requests (C105) and their buffers (C68)"
  },
  {
   "property": "C119",
   "status": "partial",
   "theorems": [
    "Qrpc.C119_partial",
    "Qrpc.C119_refuted_ln"
   ],
   "note": "false of the code on ln (an execution with the racing accesses). C119_partial: the other three fields are race free in all executions, and ln is if ListenAll is called before the server is shared. Not covered: fields that synchronise themselves (sync.Map, atomic.Value, WaitGroup, pushID), user callbacks inside ListenAll that call the server"
  },
  {
   "property": "C120",
   "status": "partial",
   "theorems": [
    "Qrpc.C120_tcp_partial",
    "Qrpc.C120_refuted_wrapped"
   ],
   "note": "false of the code over TLS and WebSocket (exactly when the first round does not suffice), proved over TCP. How crypto/tls and gorilla/websocket wrap the error of an expired deadline is taken from their sources (not part of the project)"
  },
  {
   "property": "C121",
   "status": "partial",
   "theorems": [
    "Qrpc.C121_only_partial",
    "Qrpc.C121_holder_partial",
    "Qrpc.C121_cached_partial",
    "Qrpc.C121_refuted"
   ],
   "note": "false of the code: the mutex is held during the dial. Proved: nothing but the mutex is waited for, everyone but a dialling goroutine gives it back by its own steps, and calls over a cached connection that works do not use it. A call of Connection.Close counts as one step; the fairness of sync.Mutex is not modelled"
  },
  {
   "property": "C122",
   "status": "proved",
   "theorems": [
    "Qrpc.C122_server",
    "Qrpc.C122_client",
    "Qrpc.C122_read",
    "Qrpc.C122_accept"
   ],
   "note": "invariants of the transition systems of C21-C28 and C77. The goroutines that wait to submit are not counted, nor are the tables of streams and responses (C14, C106)"
  },
  {
   "property": "C123",
   "status": "partial",
   "theorems": [
    "Qrpc.C123_server_partial",
    "Qrpc.C123_refuted_server",
    "Qrpc.C123_client",
    "Qrpc.C123_refuted_leak",
    "Qrpc.C123_api_partial",
    "Qrpc.C123_refuted_api"
   ],
   "note": "false of the code: a negative ReadFrameChSize is accepted and ends the process at the first connection; NewAPI accepts lists and weights of sum 0, or whose sum overflows, and each Call panics; the client's constructors dial before they refuse a negative WriteFrameChSize, and leave the connection open. Proved: exactly which values work; a client connection that was returned has no such problem"
  },
  {
   "property": "C124",
   "status": "proved",
   "theorems": [
    "Qrpc.C124_atomic",
    "Qrpc.C124_raceFree",
    "Qrpc.C124_made",
    "Qrpc.C124_progress",
    "Qrpc.C124_unlocked",
    "Qrpc.C124_seen",
    "Qrpc.C124_once"
   ],
   "note": "the RWMutex is the lock of Go's memory model with two objects (Unlock and RUnlock); that waiting writers keep out later readers is covered by the progress theorem; fairness is not modelled"
  },
  {
   "property": "C125",
   "status": "partial",
   "theorems": [
    "Qrpc.C125_partial",
    "Qrpc.C125_only_partial",
    "Qrpc.C125_refuted",
    "Qrpc.C125_refuted_example",
    "Qrpc.C125_refuted_sub",
    "Qrpc.C125_refuted_sub_example",
    "Qrpc.C125_refuted_client",
    "Qrpc.C125_refuted_client_example"
   ],
   "note": "false for blocking handlers and subscribers (default flags); positive part: nonblocking handlers, and the wait is the only obstacle. GetFrameWithContext with a context that ends is not modelled"
  },
  {
   "property": "C126",
   "status": "proved",
   "theorems": [
    "Qrpc.C126"
   ],
   "note": "measure on the transition system of Model/ServeRead; that a handler or SubFunc returns is a step (for handlers that wait for their own peer see C125)"
  },
  {
   "property": "C127",
   "status": "proved",
   "theorems": [
    "Qrpc.C127",
    "Qrpc.C127_result"
   ],
   "note": "composition of C126, C93, C83 and C107; that both sides come to rest is C108, C126 and C23. Streams of the call and of the answer without resets and without frames after their end (a handler that is answered by a reset leaves its caller waiting: C17); fewer than 2^63 requests. rest_example meets all hypotheses"
  },
  {
   "property": "C128",
   "status": "proved",
   "theorems": [
    "Qrpc.C128",
    "Qrpc.C128_told",
    "Qrpc.C128_not_told"
   ],
   "note": "closing by the server's own context (Shutdown) is not part of Model/Registry; that the write made by the callback completes is C63"
  },
  {
   "property": "C129",
   "status": "proved",
   "theorems": [
    "Qrpc.C129_handled",
    "Qrpc.C129",
    "Qrpc.C129_result"
   ],
   "note": "the mirror of C127: composition of C93, C129_handled and C109. Streams of the request and of the answer without resets and without frames after their end; fewer than 2^63 requests; a client without handler drops the request (example). back_example meets all hypotheses"
  },
  {
   "property": "C130",
   "status": "proved",
   "theorems": [
    "Qrpc.C130",
    "Qrpc.C130_collect",
    "Qrpc.C130_echo",
    "Qrpc.C130_echo_ends"
   ],
   "note": "C127 for streams: composition of C93 (both ways), C127 and C83; the README part by C84_encodes. str_example meets all hypotheses with README's answer. README's second handler leaves the stream of its answer open if the request is no stream (example)"
  },
  {
   "property": "C131",
   "status": "proved",
   "theorems": [
    "Qrpc.C131",
    "Qrpc.C131_result",
    "Qrpc.C131_api",
    "Qrpc.C131_api_result"
   ],
   "note": "Composition of C127 with ApiNet and GenNet; new invariant: a reset frame of a generated client belongs to a request whose call gave up. Examples: the executions of C113 and C115 before the calls return"
  },
  {
   "property": "C132",
   "status": "proved",
   "theorems": [
    "Qrpc.C132",
    "Qrpc.C132_written",
    "Qrpc.C132_once"
   ],
   "note": "Composition of C87, C95, C21 and C92. The handler's own wait can last for ever: a push to a connection that can be found but is not served yet can jam it (C95_refuted; example beside C132). At most 2^64 push ids; pushes on the connection not streamed, the client resets no push streams (C92)"
  },
  {
   "property": "C133",
   "status": "proved",
   "theorems": [
    "Qrpc.C133",
    "Qrpc.C133_bound",
    "Qrpc.C133_all",
    "Qrpc.C133_only"
   ],
   "note": "context.WithCancel as documented: a context is registered with its parent until either is cancelled. Streams themselves can pile up in the tables (C14)"
  },
  {
   "property": "C134",
   "status": "proved",
   "theorems": [
    "Qrpc.C134"
   ],
   "note": "Connections that can be found before they are served are excluded: there the handler may wait for ever (C95, example beside C132)"
  },
  {
   "property": "C135",
   "status": "partial",
   "theorems": [
    "Qrpc.C135",
    "Qrpc.C135_addrs",
    "Qrpc.C135_weights_partial",
    "Qrpc.C135_servers_partial",
    "Qrpc.C135_refuted_weights",
    "Qrpc.C135_refuted_servers"
   ],
   "note": "Proved for endpoints, addresses and default weights. NewAPI keeps the caller's slice of weights and NewServer the caller's slice of bindings, changing it in place, so the rest is false of the code (refuted) and proved only while the caller leaves these slices alone and makes one server of each"
  },
  {
   "property": "C136",
   "status": "partial",
   "theorems": [
    "Qrpc.C136_closed",
    "Qrpc.C136_partial",
    "Qrpc.C136_end",
    "Qrpc.C136_first_partial",
    "Qrpc.C136_refuted_send",
    "Qrpc.C136_refuted_receive",
    "Qrpc.C136_refuted_resp"
   ],
   "note": "closed is race free whatever the callers do. The rest is false of the code: Send assigns streamWriter and resp with the lock for reading only, Receive takes no lock (refuted with two senders, with two receivers, and with one of each). Proved for one sender, one receiver that begins after it has learnt that the stream was opened, and anybody calling End"
  },
  {
   "property": "C137",
   "status": "proved",
   "theorems": [
    "Qrpc.C137",
    "Qrpc.C137_first",
    "Qrpc.C137_next",
    "Qrpc.C137_one"
   ],
   "note": "the accesses of each method of Stream may come in any order and number (more executions than the code has). stash is left to the user. That FrameCh and Context panic on later frames is as documented at frame.go:14, though frame.go:25 says the context is always non-nil"
  },
  {
   "property": "C138",
   "status": "partial",
   "theorems": [
    "Qrpc.C138_send_partial",
    "Qrpc.C138_receive_partial",
    "Qrpc.C138_two",
    "Qrpc.C138_frames",
    "Qrpc.C138_refuted_send",
    "Qrpc.C138_refuted_end",
    "Qrpc.C138_refuted_receive"
   ],
   "note": "False without conditions: two Sends (or a Send and an End) at the same time race on the one writer; two Receives race on hasReceivedFirstFrame and both return the request's frame. True if the calls of Send and End are made one after the other (in the sense of happens-before), and those of Receive too; sending and receiving may go on at the same time. Whoever receives, no frame of the stream is returned twice"
  },
  {
   "property": "C139",
   "status": "proved",
   "theorems": [
    "Qrpc.C139",
    "Qrpc.C139_done"
   ],
   "note": "goroutines may do what the code does in any order and number, also without mu (more executions than the code has). That the slice of weights is the caller's is C135, what connections do with their own fields C117"
  },
  {
   "property": "C140",
   "status": "proved",
   "theorems": [
    "Qrpc.C140_server",
    "Qrpc.C140_client"
   ],
   "note": "foreign code that gets the net.Conn itself (OnAccept, OnClose, GetReusedCon) is assumed not to read or write it; races on the fields that hold the connection are C117 and C118"
  },
  {
   "property": "C141",
   "status": "partial",
   "theorems": [
    "Qrpc.C141_partial",
    "Qrpc.C141_refuted",
    "Qrpc.C141_refuted_example",
    "Qrpc.C141_error"
   ],
   "note": "proved as long as no call fails; false otherwise: after an error returned by a method (or an unknown method, or a request that does not decode) the service handler closes the whole connection, and no call that is still running or comes later is answered. The failing call's own answer is written before"
  },
  {
   "property": "C142",
   "status": "partial",
   "theorems": [
    "Qrpc.C142_tables",
    "Qrpc.C142_ids_partial",
    "Qrpc.C142_refuted",
    "Qrpc.C142_refuted_kept"
   ],
   "note": "connections, contexts and callbacks in every execution; ids as long as no connection is closed before or during its SetID. Otherwise the id table grows without bound: for every n there is an execution in which n connections have come and gone and n ids lead to them, and such an entry stays. Contexts: context.WithCancel as documented, a context is registered with its parent until it is cancelled"
  },
  {
   "property": "C143",
   "status": "partial",
   "theorems": [
    "Qrpc.C143_partial",
    "Qrpc.C143_current",
    "Qrpc.C143_closes",
    "Qrpc.C143_refuted"
   ],
   "note": "proved for Close while the handler is running; false after it has returned: the request leads to the Connection, not to the transport connection, so that after a reconnect the new transport connection is closed. On a transport connection made before newConnection Close panics (C69). On the server a connection is never made anew, Close of a request is Close of its connection (C69)"
  },
  {
   "property": "C144",
   "status": "proved",
   "theorems": [
    "Qrpc.C144",
    "Qrpc.C144_all"
   ],
   "note": "context.WithCancel as documented: a context is registered with its parent until either is cancelled. The contexts of streams, registered with that of the transport connection: C133"
  },
  {
   "property": "C145",
   "status": "proved",
   "theorems": [
    "Qrpc.C145",
    "Qrpc.C145_unknown",
    "Qrpc.C145_kept",
    "Qrpc.C145_cut"
   ],
   "note": "The first part has to decode by itself (C145_cut shows why). What does not decode: C54"
  }
 ]
}