{
 "claims": [
  {
   "property": "C01",
   "status": "proved",
   "theorems": [
    "Zcc.c01_stream_delivery",
    "Zcc.c01_frames_recorded",
    "Zcc.c01_stream_delivery_all"
   ],
   "note": "Any sequence of frames (with data), any chunking, any well-behaved receiver."
  },
  {
   "property": "C02",
   "status": "partial",
   "theorems": [
    "Zcc.c02_chunking_partial",
    "Zcc.c02_chunking_refuted",
    "Zcc.c02_damage_confined"
   ],
   "note": "Chunking is irrelevant as long as the receiver never raises. It is relevant when it raises (refuted with a witness): the rest of the read is lost; the damage is confined to that read."
  },
  {
   "property": "C03",
   "status": "partial",
   "theorems": [
    "Zcc.c03_sound_partial",
    "Zcc.c03_sound_no_exception",
    "Zcc.c03_contiguous_refuted"
   ],
   "note": "Every delivered frame is made of received bytes in order with a correct checksum; contiguity fails after a receiver exception on a zero-data frame (refuted)."
  },
  {
   "property": "C04",
   "status": "partial",
   "theorems": [
    "Zcc.c04_corruption_rejected_partial",
    "Zcc.c04_stream",
    "Zcc.c04_empty",
    "Zcc.c04_refuted"
   ],
   "note": "false for a corrupted frame without data followed by one byte of noise: the next frame is lost (c04_refuted); c04_empty says what happens to such frames"
  },
  {
   "property": "C05",
   "status": "proved",
   "theorems": [
    "Zcc.c05_buffer_bounded"
   ],
   "note": ""
  },
  {
   "property": "C06",
   "status": "partial",
   "theorems": [
    "Zcc.c06_prompt_partial",
    "Zcc.c06_empty_frame_waits",
    "Zcc.c06_prompt_refuted"
   ],
   "note": "True of frames with data; zero-data frames are held until another byte arrives (refuted)."
  },
  {
   "property": "C07",
   "status": "proved",
   "theorems": [
    "Zcc.c07_wire_format",
    "Zcc.c07_wire_injective",
    "Zcc.c07_max_data_size_not_enforced"
   ],
   "note": "The limit enforced is 255 data bytes, not MaxDataSize = 250."
  },
  {
   "property": "C08",
   "status": "partial",
   "theorems": [
    "Zcc.c08_noise_partial",
    "Zcc.c08_noise_refuted"
   ],
   "note": "Fails for exactly one noise byte after a zero-data frame."
  },
  {
   "property": "C09",
   "status": "partial",
   "theorems": [
    "Zcc.c09_undefined_code_partial",
    "Zcc.c09_empty",
    "Zcc.c09_rest_refuted",
    "Zcc.c09_later_refuted"
   ],
   "note": "Never delivered. With data the parser stays in sync for later reads, but the rest of the same read is lost (c09_rest_refuted). Without data the byte after the frame stays in the buffer, and later reads can be lost, too (c09_empty, c09_later_refuted)."
  },
  {
   "property": "C10",
   "status": "proved",
   "theorems": [
    "Zcc.c10_params_round_trip",
    "Zcc.c10_encode_decode"
   ],
   "note": ""
  },
  {
   "property": "C11",
   "status": "partial",
   "theorems": [
    "Zcc.c11_reencode_partial",
    "Zcc.c11_reencode_stable",
    "Zcc.c11_lqi_masked",
    "Zcc.c11_refuted"
   ],
   "note": "Exact for all writable types but neighbour lists, whose unused bits are cleared."
  },
  {
   "property": "C12",
   "status": "proved",
   "theorems": [
    "Zcc.c12_no_truncation",
    "Zcc.c12_injective",
    "Zcc.c12_int8",
    "Zcc.c12_command_raises"
   ],
   "note": ""
  },
  {
   "property": "C13",
   "status": "proved",
   "theorems": [
    "Zcc.c13_truncation"
   ],
   "note": ""
  },
  {
   "property": "C14",
   "status": "proved",
   "theorems": [
    "Zcc.c14_table_unambiguous",
    "Zcc.c14_name_id_lookup"
   ],
   "note": ""
  },
  {
   "property": "C15",
   "status": "proved",
   "theorems": [
    "Zcc.c15_announced_sizes"
   ],
   "note": ""
  },
  {
   "property": "C16",
   "status": "proved",
   "theorems": [
    "Zcc.c16_neighbor_round_trip",
    "Zcc.c16_neighbor_layout",
    "Zcc.c16_neighbor_decode"
   ],
   "note": ""
  },
  {
   "property": "C17",
   "status": "partial",
   "theorems": [
    "Zcc.c17_receivable_partial",
    "Zcc.c17_unreceivable",
    "Zcc.c17_refuted"
   ],
   "note": "Five ZDO responses can never be decoded; all other indications can."
  },
  {
   "property": "C18",
   "status": "proved",
   "theorems": [
    "Zcc.c18_one_at_a_time",
    "Zcc.c18_at_most_one_outstanding"
   ],
   "note": ""
  },
  {
   "property": "C19",
   "status": "proved",
   "theorems": [
    "Zcc.c19_submission_order",
    "Zcc.c19_written_once",
    "Zcc.c19_not_skipped"
   ],
   "note": ""
  },
  {
   "property": "C20",
   "status": "proved",
   "theorems": [
    "Zcc.c20_own_response",
    "Zcc.c20_finishes_once"
   ],
   "note": ""
  },
  {
   "property": "C21",
   "status": "partial",
   "theorems": [
    "Zcc.c21_status_partial",
    "Zcc.c21_decides",
    "Zcc.c29_refuted"
   ],
   "note": "Holds except when the caller's response waiter is already gone: then an unexpected status raises KeyError instead of CommandError."
  },
  {
   "property": "C22",
   "status": "proved",
   "theorems": [
    "Zcc.c22_resolved_once",
    "Zcc.c22_resolved_gone",
    "Zcc.c22_ids_increase",
    "Zcc.c22_never_back",
    "Zcc.c22_only_registered",
    "Zcc.c22_given_up"
   ],
   "note": ""
  },
  {
   "property": "C23",
   "status": "proved",
   "theorems": [
    "Zcc.c23_timer_pending",
    "Zcc.c23_timer_removes",
    "Zcc.c23_not_overdue",
    "Zcc.c23_stays"
   ],
   "note": ""
  },
  {
   "property": "C24",
   "status": "partial",
   "theorems": [
    "Zcc.c24_oldest",
    "Zcc.c24_kth",
    "Zcc.c24_refuted"
   ],
   "note": "Proved for non-zero transaction numbers; with transaction number 0 one reply resolves all waiting requests and carries no number."
  },
  {
   "property": "C25",
   "status": "partial",
   "theorems": [
    "Zcc.c25_partial",
    "Zcc.c25_refuted",
    "Zcc.c25_refuted_unhandled"
   ],
   "note": "Proved for transaction numbers 1..255 and the reply kinds in zdoReplies. Number 0 is lost, and so are replies of kinds the application does not know (e.g. unbindRsp)."
  },
  {
   "property": "C26",
   "status": "proved",
   "theorems": [
    "Zcc.c26_unrelated",
    "Zcc.c26_only_answered",
    "Zcc.c26_left_was_answered",
    "Zcc.c26_undecodable"
   ],
   "note": ""
  },
  {
   "property": "C27",
   "status": "proved",
   "theorems": [
    "Zcc.c27_matching_never_raises"
   ],
   "note": ""
  },
  {
   "property": "C28",
   "status": "partial",
   "theorems": [
    "Zcc.c28_data_confirm",
    "Zcc.c28_zdo_response_partial",
    "Zcc.c28_undirected_fails",
    "Zcc.c28_others",
    "Zcc.c28_refuted"
   ],
   "note": "nwkAddrReq, ieeeAddrReq and serverDiscReq have no destination field: registering raises KeyError."
  },
  {
   "property": "C29",
   "status": "partial",
   "theorems": [
    "Zcc.c29_refused_partial",
    "Zcc.c29_keyerror_only_if_gone",
    "Zcc.c29_refuted"
   ],
   "note": "If the response waiter expired before the refusal, KeyError is raised instead of CommandError."
  },
  {
   "property": "C30",
   "status": "proved",
   "theorems": [
    "Zcc.c30_holder",
    "Zcc.c30_next",
    "Zcc.c30_no_deadlock"
   ],
   "note": ""
  },
  {
   "property": "C31",
   "status": "proved",
   "theorems": [
    "Zcc.c31_reset",
    "Zcc.c31_areq_at_once",
    "Zcc.c31_not_a_request"
   ],
   "note": ""
  },
  {
   "property": "C32",
   "status": "partial",
   "theorems": [
    "Zcc.c32_known_partial",
    "Zcc.c32_unknown",
    "Zcc.c32_ext_dropped",
    "Zcc.c32_refuted"
   ],
   "note": "True of incomingMsg. The 8-byte source address of incomingMsgExt is looked up as a network address, so it is always dropped."
  },
  {
   "property": "C33",
   "status": "proved",
   "theorems": [
    "Zcc.c33_announcement"
   ],
   "note": ""
  },
  {
   "property": "C34",
   "status": "partial",
   "theorems": [
    "Zcc.c34_decodes",
    "Zcc.c34_reply_partial",
    "Zcc.c34_neighbors",
    "Zcc.c34_refuted"
   ],
   "note": "Exact for all kinds but neighbour lists, whose reserved bits arrive cleared. Trailing bytes that do not belong to the body are dropped."
  },
  {
   "property": "C35",
   "status": "proved",
   "theorems": [
    "Zcc.c35_unconcerned",
    "Zcc.c35_not_indication",
    "Zcc.c35_ignored",
    "Zcc.c35_unawaited"
   ],
   "note": "A permit join reply may still cause the LED command."
  },
  {
   "property": "C36",
   "status": "proved",
   "theorems": [
    "Zcc.c36_unicast_bytes",
    "Zcc.c36_unicast_written",
    "Zcc.c36_at_most_once",
    "Zcc.c36_own_write",
    "Zcc.c36_unfit_raises",
    "Zcc.c36_unicast_sent"
   ],
   "note": "Over all executions of the application: what is written, that it is written at most once and by a returned call exactly once, that a call that does not fit writes nothing and raises, and that a call is written at once when a place is free, the port open and the radio idle."
  },
  {
   "property": "C37",
   "status": "partial",
   "theorems": [
    "Zcc.c37_multicast_bytes",
    "Zcc.c37_multicast_written",
    "Zcc.c37_multicast_sent",
    "Zcc.c37_broadcast_bytes",
    "Zcc.c37_broadcast_written",
    "Zcc.c37_broadcast_sent",
    "Zcc.c37_unfit_raises",
    "Zcc.c37_multicast_unfit_raises",
    "Zcc.c37_hops_refuted"
   ],
   "note": "Broadcasts are exact. The radius of a multicast is always 30, its hops argument is ignored (c37_hops_refuted)."
  },
  {
   "property": "C38",
   "status": "partial",
   "theorems": [
    "Zcc.c38_zdo_bytes_partial",
    "Zcc.c38_zdo_written_partial",
    "Zcc.c38_zdo_sent_partial",
    "Zcc.c38_zdo_prefix",
    "Zcc.c38_refuted",
    "Zcc.c38_undirected_raises",
    "Zcc.c38_unknown_raises",
    "Zcc.c38_nwk_addr",
    "Zcc.c38_ieee_addr",
    "Zcc.c38_short_raises",
    "Zcc.c38_group_raises"
   ],
   "note": "Exact for 18 request clusters with well-formed bodies. False for others (network address request and more): the body is cut off or shifted; the address requests are described exactly, for the rest only the prefix theorem holds."
  },
  {
   "property": "C39",
   "status": "proved",
   "theorems": [
    "Zcc.c39_permit_bytes",
    "Zcc.c39_permit_written",
    "Zcc.c39_permit_refused",
    "Zcc.c39_permit_sent"
   ],
   "note": ""
  },
  {
   "property": "C40",
   "status": "partial",
   "theorems": [
    "Zcc.c40_bounded_partial",
    "Zcc.c40_bounded_per_start",
    "Zcc.c40_none_before_start",
    "Zcc.c40_place_can_be_had",
    "Zcc.c40_full_waits",
    "Zcc.c40_refuted"
   ],
   "note": "Holds for the calls of one start-up; a restart creates a new semaphore while calls of the old one may still be in flight (c40_refuted)."
  },
  {
   "property": "C41",
   "status": "partial",
   "theorems": [
    "Zcc.c41_truthful_partial",
    "Zcc.c41_permit",
    "Zcc.c41_refuted"
   ],
   "note": "Holds for the Home Automation profile and for cluster numbers below 0x40 otherwise; larger numbers select MT commands without answer, for which success is reported at once (c41_refuted)."
  },
  {
   "property": "C42",
   "status": "partial",
   "theorems": [
    "Zcc.c42_partial",
    "Zcc.c42_exact_partial",
    "Zcc.c42_needed",
    "Zcc.c42_refuted",
    "Zcc.c42_refuted_extended"
   ],
   "note": "Exact characterisation for every memory, version and history; the claim as stated is false on Z-Stack 1.2 (PAN ids ignored) and, if the stored PAN id is 0xFFFF, for the extended PAN id."
  },
  {
   "property": "C43",
   "status": "proved",
   "theorems": [
    "Zcc.c43_result",
    "Zcc.c43_started",
    "Zcc.c43_backup",
    "Zcc.c43_genuine",
    "Zcc.c43_wire"
   ],
   "note": "Options must have a 16-byte key and an 8-byte extended PAN id, as their types say. c43_wire: the order on the wire; nobody else may pass the waiter's id to request_raw. c43_backup: a backup file never leads to a restored stick."
  },
  {
   "property": "C44",
   "status": "proved",
   "theorems": [
    "Zcc.c44_idempotent"
   ],
   "note": "For a stick that stores what is written; whatever a reset does to the memory."
  },
  {
   "property": "C45",
   "status": "partial",
   "theorems": [
    "Zcc.c45_partial",
    "Zcc.c45_repeated_partial",
    "Zcc.c45_refuted"
   ],
   "note": "Holds if the stick is not marked as configured at first; false for re-configuration, because the flag is not cleared first."
  },
  {
   "property": "C46",
   "status": "partial",
   "theorems": [
    "Zcc.c46_register",
    "Zcc.c46_active",
    "Zcc.c46_prefix",
    "Zcc.c46_again",
    "Zcc.c46_start",
    "Zcc.c46_wire_refuted"
   ],
   "note": "For every activeEpRsp that is received; that it is the answer to this request is not guaranteed by the code: the reply of another node is accepted and the endpoints are not registered (c46_wire_refuted)."
  },
  {
   "property": "C47",
   "status": "proved",
   "theorems": [
    "Zcc.c47_group",
    "Zcc.c58_form"
   ],
   "note": ""
  },
  {
   "property": "C48",
   "status": "partial",
   "theorems": [
    "Zcc.c48_partial",
    "Zcc.c48_wellFormed",
    "Zcc.c48_refuted"
   ],
   "note": "False for PAN id 0 and an empty channel list (falsy in Python)."
  },
  {
   "property": "C49",
   "status": "proved",
   "theorems": [
    "Zcc.c49_sent",
    "Zcc.c49_lengths",
    "Zcc.c49_wire"
   ],
   "note": "c49_wire: the bytes on the port, as long as nobody else makes requests."
  },
  {
   "property": "C50",
   "status": "partial",
   "theorems": [
    "Zcc.c50_true",
    "Zcc.c50_limit",
    "Zcc.c50_timeout",
    "Zcc.c50_request",
    "Zcc.c50_answered",
    "Zcc.c50_open",
    "Zcc.c50_outcome",
    "Zcc.c50_closed_partial",
    "Zcc.c50_leaks",
    "Zcc.c50_refuted"
   ],
   "note": "The results are as claimed. The port is closed unless the time limit (or a cancellation) strikes while the port is being opened: then it stays open (c50_leaks, c50_refuted). Exceptions of other kinds are passed on. Conversely, an answered version request makes it return True with the port closed (c50_answered)."
  },
  {
   "property": "C51",
   "status": "partial",
   "theorems": [
    "Zcc.c51_once",
    "Zcc.c51_shutdown",
    "Zcc.c51_closed",
    "Zcc.c51_deliberate",
    "Zcc.c51_loss",
    "Zcc.c51_unreported",
    "Zcc.c51_refuted"
   ],
   "note": "An unexpected loss is reported exactly once if API.new had returned; before that (during the sleep(1) of connect) the callback raises AttributeError and the loss is never reported."
  },
  {
   "property": "C52",
   "status": "partial",
   "theorems": [
    "Zcc.c52_until",
    "Zcc.c52_begin",
    "Zcc.c52_attempt",
    "Zcc.c52_retry_open",
    "Zcc.c52_retry",
    "Zcc.c52_recovers",
    "Zcc.c52_loops",
    "Zcc.c52_one_partial",
    "Zcc.c52_closed_partial",
    "Zcc.c52_refuted"
   ],
   "note": "The loop goes on until a start-up succeeds. One loop and one port at a time only if no connection is lost while a start-up or loop is under way and the user does not interfere; otherwise two loops with two open ports are possible (c52_refuted). When the port opens and a start-up succeeds the loop ends with the application connected (c52_recovers); one loop is started per reported loss (c52_loops)."
  },
  {
   "property": "C53",
   "status": "proved",
   "theorems": [
    "Zcc.c53_auto",
    "Zcc.c53_none",
    "Zcc.c53_path",
    "Zcc.c53_flow",
    "Zcc.c53_run",
    "Zcc.c53_fails"
   ],
   "note": "pyserial's grep is modelled as re.search of the two literal alternatives, ignoring case of ASCII letters."
  },
  {
   "property": "C54",
   "status": "proved",
   "theorems": [
    "Zcc.c54_limit",
    "Zcc.c54_not_early",
    "Zcc.c54_in_time"
   ],
   "note": "Waiters other than those of requests, create_response_waiter and the startup code (without sequence) are excluded; they could intercept the message."
  },
  {
   "property": "C55",
   "status": "proved",
   "theorems": [
    "Zcc.c55_led"
   ],
   "note": "The product must be known (start-up reads it first)."
  },
  {
   "property": "C56",
   "status": "partial",
   "theorems": [
    "Zcc.c56_never_raises_partial",
    "Zcc.c56_exact",
    "Zcc.c56_early",
    "Zcc.c56_refuted"
   ],
   "note": "handle_znp encodes every indication again; eight MAC indications have parameters that cannot be written, so it raises TODO for them. Before the version is known, the two messages that switch the LED raise KeyError (c56_early)."
  },
  {
   "property": "C57",
   "status": "proved",
   "theorems": [
    "Zcc.c57_running",
    "Zcc.c57_wire"
   ],
   "note": "c57_wire: the exchange on the wire; nobody else may pass the waiter's id to request_raw."
  },
  {
   "property": "C58",
   "status": "proved",
   "theorems": [
    "Zcc.c58_startup",
    "Zcc.c58_supported",
    "Zcc.c58_form"
   ],
   "note": ""
  },
  {
   "property": "C59",
   "status": "partial",
   "theorems": [
    "Zcc.c59_partial",
    "Zcc.c59_refuted"
   ],
   "note": "Holds if no start-up or reconnect loop is under way; shutdown does not stop a reconnect loop."
  },
  {
   "property": "C60",
   "status": "proved",
   "theorems": [
    "Zcc.c60_history",
    "Zcc.c60_traced",
    "Zcc.c60_written",
    "Zcc.c60_once",
    "Zcc.c60_once_ended",
    "Zcc.c60_wait_limit",
    "Zcc.c60_lent_refuted"
   ],
   "note": "c60_history, c60_once and c60_wait_limit need nothing about waiters (c60_once: nobody else makes requests); c60_traced and c60_written provided nobody else passes the id of a waiter of the coroutine to request_raw; without that they are false (c60_lent_refuted)."
  },
  {
   "property": "C61",
   "status": "partial",
   "theorems": [
    "Zcc.c61_story_partial",
    "Zcc.c61_reports",
    "Zcc.c61_raises",
    "Zcc.c61_refuted"
   ],
   "note": "False in general: an indication that decodes but cannot be encoded again raises and takes the rest of its chunk with it (c61_refuted; c61_raises says that the loss ends with the chunk). Proved for messages with data that can be handled, after any history that left no half-received frame."
  },
  {
   "property": "C62",
   "status": "partial",
   "theorems": [
    "Zcc.c62_in_time_partial",
    "Zcc.c62_refuted"
   ],
   "note": "False if an indication that makes the receiver raise comes earlier in the same chunk (c62_refuted). Proved for messages as in c61_story_partial: each with data and one that can be handled, no half-received frame when they begin to arrive; waiters other than those of requests, create_response_waiter and the startup code are excluded."
  },
  {
   "property": "C63",
   "status": "proved",
   "theorems": [
    "Zcc.c63_wakeup",
    "Zcc.c63_once",
    "Zcc.c63_before_use"
   ],
   "note": "The byte itself (0xEF) is not in the model; the log entry stands for the write."
  },
  {
   "property": "C64",
   "status": "proved",
   "theorems": [
    "Zcc.c64_reply",
    "Zcc.c64_neighbors",
    "Zcc.c64_stale_refuted",
    "Zcc.c64_in_flight_refuted"
   ],
   "note": "The provisos of the statement are hypotheses; besides, nobody but the call itself uses the id of its waiter, and waiters registered directly are those of start-up. Without the provisos on calls from before a restart it is false (c64_stale_refuted, c64_in_flight_refuted)."
  },
  {
   "property": "C65",
   "status": "partial",
   "theorems": [
    "Zcc.c65_partial",
    "Zcc.c65_first",
    "Zcc.c65_lag",
    "Zcc.c65_refuted"
   ],
   "note": "Proved for executions in which no request with the command is given up (timeout, cancellation) after it was written, and in which waiters registered directly are those of start-up (c65_partial). False otherwise: a late response is taken by the next request with the same command (c65_refuted). For all executions: a request that ends with a response ends with the first one to its command that arrives after it was written (c65_first), and the response is too old by at most the number of requests with the command given up before it since the radio had last answered everything (c65_lag)."
  },
  {
   "property": "C66",
   "status": "proved",
   "theorems": [
    "Zcc.c66_bounded"
   ],
   "note": "Time passes by explicit events; KeepsUp states that none passes while a call could start, has its response, or is past its limit. Examples show the bound is reached exactly."
  },
  {
   "property": "C67",
   "status": "proved",
   "theorems": [
    "Zcc.c67_not_written",
    "Zcc.c67_fails",
    "Zcc.c67_at_once"
   ],
   "note": "AttributeError because API._uart is None. The waiter of the failed request stays until its timer fires."
  },
  {
   "property": "C68",
   "status": "proved",
   "theorems": [
    "Zcc.c68_pause",
    "Zcc.c68_at_once",
    "Zcc.c68_returns"
   ],
   "note": "Time is that of the connection on which the call runs; it passes by explicit events."
  },
  {
   "property": "C69",
   "status": "proved",
   "theorems": [
    "Zcc.c69_dialect"
   ],
   "note": "Z-Stack 3.0.x gets both: the code reads the key by SAPI and writes it by SYS there."
  },
  {
   "property": "C70",
   "status": "proved",
   "theorems": [
    "Zcc.c70_stream",
    "Zcc.c70_order",
    "Zcc.c70_unique",
    "Zcc.c70_decoded"
   ],
   "note": "Bytes of one API object; the wake-up byte written by connect is C63."
  },
  {
   "property": "C71",
   "status": "proved",
   "theorems": [
    "Zcc.c71_no_deadlock"
   ],
   "note": "Existence of a continuation from every reachable state; the time bound for API calls is C66."
  },
  {
   "property": "C72",
   "status": "partial",
   "theorems": [
    "Zcc.c72_unawaited",
    "Zcc.c72_permit",
    "Zcc.c72_outcome_partial",
    "Zcc.c72_refuted",
    "Zcc.c72_refuted_restart",
    "Zcc.c72_refuted_slow",
    "Zcc.c72_refuted_replied"
   ],
   "note": "Proved without conditions for calls that expect no reply. A call with a response waiter can end with KeyError when it is refused: after a restart (c72_refuted_restart), when its waiter has expired while it queued (c72_refuted_slow), when a reply came first (c72_refuted_replied); c72_outcome_partial excludes these."
  },
  {
   "property": "C73",
   "status": "proved",
   "theorems": [
    "Zcc.c73_bounded",
    "Zcc.c73_restarts"
   ],
   "note": "c73_bounded: without a restart and with no open call in a replaced API object, the work of the current connection counts. c73_restarts: with any number of restarts, before and meanwhile, the work of all connections counts; time passes for all of them alike (Moment). The event loop is assumed to keep up. Examples show that the bound is reached."
  },
  {
   "property": "C74",
   "status": "proved",
   "theorems": [
    "Zcc.c74_calls",
    "Zcc.c74_reply",
    "Zcc.c74_neighbors"
   ],
   "note": "Hypotheses as in C64; before the request no message is half received on the port; between request and reply only noise and well-formed messages."
  },
  {
   "property": "C75",
   "status": "proved",
   "theorems": [
    "Zcc.c75_led",
    "Zcc.c75_done"
   ],
   "note": "Hypothesis: nobody but set_led makes ledControl requests."
  },
  {
   "property": "C76",
   "status": "proved",
   "theorems": [
    "Zcc.c76_story",
    "Zcc.c76_port",
    "Zcc.c76_product"
   ],
   "note": "c76_port: each port of the driver is a connection of Model/Stack, step by step, so C56, C61 and C62 hold for each port."
  },
  {
   "property": "C77",
   "status": "proved",
   "theorems": [
    "Zcc.c77_connecting"
   ],
   "note": ""
  },
  {
   "property": "C78",
   "status": "proved",
   "theorems": [
    "Zcc.c78_exact",
    "Zcc.c78_opened",
    "Zcc.c78_probe",
    "Zcc.c78_probe_valid",
    "Zcc.c78_missing_raises"
   ],
   "note": "voluptuous is assumed to behave as stated in Model/Config"
  },
  {
   "property": "C79",
   "status": "proved",
   "theorems": [
    "Zcc.c79_startup",
    "Zcc.c79_form"
   ],
   "note": "502 s is the sum of the time limits along the longest path, not the exact maximum. How long connect takes is up to the operating system and not part of it."
  },
  {
   "property": "C80",
   "status": "proved",
   "theorems": [
    "Zcc.c80_reports",
    "Zcc.c80_startup",
    "Zcc.c80_running",
    "Zcc.c80_resumed",
    "Zcc.c80_arrived",
    "Zcc.c80_no_revision"
   ],
   "note": "For start_znp and startup in every environment in which no other call has the same response awaited (Unshared, as in C65)."
  },
  {
   "property": "C81",
   "status": "proved",
   "theorems": [
    "Zcc.c81_startup",
    "Zcc.c81_form",
    "Zcc.c81_outcome",
    "Zcc.c81_unreadable"
   ],
   "note": "Every exception of startup and form_network has a reason in the execution, of the right kind; c81_outcome adds C79's time bound. c81_unreadable: a session in which a missing setting ends start-up instead of a new initialisation."
  },
  {
   "property": "C82",
   "status": "partial",
   "theorems": [
    "Zcc.c82_partial",
    "Zcc.c82_refuted",
    "Zcc.c82_before"
   ],
   "note": "Refuted: form_network does not use its arguments channel, pan_id and extended_pan_id. Proved without them: configured values or defaults are in the memory when it returns; PAN id and extended PAN id if the stick was initialised, or on Z-Stack 3 unless the stored PAN id is 0xFFFF (C42 shows that the rest is false)."
  },
  {
   "property": "C83",
   "status": "partial",
   "theorems": [
    "Zcc.c83_refines",
    "Zcc.c83_unconnected",
    "Zcc.c83_reason",
    "Zcc.c83_ready",
    "Zcc.c83_all_partial",
    "Zcc.c83_exact_partial",
    "Zcc.c83_told_partial",
    "Zcc.c83_led",
    "Zcc.c83_refuted"
   ],
   "note": "The full claim is false: while the version is not known an LED indication makes data_received raise and the rest of its chunk is lost (c83_led, c83_refuted). c83_all_partial, c83_exact_partial and c83_told_partial exclude these as long as the version is not known (from this start-up or an earlier one), indications of the MAC layer that cannot be encoded again and messages without data. c83_refines, c83_unconnected, c83_reason and c83_ready are for arbitrary bytes."
  },
  {
   "property": "C84",
   "status": "proved",
   "theorems": [
    "Zcc.c84_attempts",
    "Zcc.c84_reason",
    "Zcc.c84_ready",
    "Zcc.c84_outcome",
    "Zcc.c84_patience",
    "Zcc.c84_pace"
   ],
   "note": "One loop; another one that closes its port is an event of others. Selecting and opening the port takes any time and raises anything. c84_reason and c84_ready need that no other call uses a waiter of start-up (as C80, C81)."
  },
  {
   "property": "C85",
   "status": "proved",
   "theorems": [
    "Zcc.c85_never_fails",
    "Zcc.c85_startup",
    "Zcc.c85_form",
    "Zcc.c85_port_never_fails",
    "Zcc.c85_port",
    "Zcc.c85_loop",
    "Zcc.c85_reconnects"
   ],
   "note": "What a radio must do is described frame by frame (Spec/Works), not by the driver's decoder or its waiters. Others may make requests; they may not register waiters (the application never does). Over the port without the two LED indications as long as the version is not known (see C83)."
  },
  {
   "property": "C86",
   "status": "partial",
   "theorems": [
    "Zcc.c86_resync_partial",
    "Zcc.c86_tight",
    "Zcc.c86_never",
    "Zcc.c86_refuted",
    "Zcc.c86_raised",
    "Zcc.c86_raised_refuted"
   ],
   "note": "Proved for messages with data in which the start byte occurs at the start only, if no call raises after the garbage: everything after the first 258 bytes is delivered, at most one message that nobody sent before it; 258 cannot be lowered. False for messages with the start byte in them (the parser stays out of step for ever and delivers messages that were never sent) and if calls raise."
  },
  {
   "property": "C87",
   "status": "proved",
   "theorems": [
    "Zcc.c87_decode",
    "Zcc.c87_encode",
    "Zcc.c87_unique"
   ],
   "note": ""
  },
  {
   "property": "C88",
   "status": "proved",
   "theorems": [
    "Zcc.c88_writes",
    "Zcc.c88_pause",
    "Zcc.c88_port",
    "Zcc.c88_true",
    "Zcc.c88_in_time",
    "Zcc.c88_answered",
    "Zcc.c88_raises",
    "Zcc.c88_limit",
    "Zcc.c88_final",
    "Zcc.c88_closed"
   ],
   "note": ""
  },
  {
   "property": "C89",
   "status": "partial",
   "theorems": [
    "Zcc.c89_sizes_partial",
    "Zcc.c89_msgcb",
    "Zcc.c89_msgcb_lost",
    "Zcc.c89_refuted"
   ],
   "note": "False for ZDO_MSG_CB_INCOMING, which the table declares without a size field: c89_msgcb says what happens there, c89_refuted is the witness. Proved for all other responses and indications."
  },
  {
   "property": "C90",
   "status": "proved",
   "theorems": [
    "Zcc.c90_which",
    "Zcc.c90_no_effect",
    "Zcc.c90_startup"
   ],
   "note": ""
  },
  {
   "property": "C91",
   "status": "partial",
   "theorems": [
    "Zcc.c91_table",
    "Zcc.c91_holder_partial",
    "Zcc.c91_nobody",
    "Zcc.c91_refuted"
   ],
   "note": "False when two devices have announced the same address: the report that a device left is ignored, so that the messages of a device that is given its address afterwards are attributed to the one that left (c91_refuted). Proved in full for addresses that one device has."
  },
  {
   "property": "C92",
   "status": "proved",
   "theorems": [
    "Zcc.c92_accepted",
    "Zcc.c92_success"
   ],
   "note": "success is (0, message) or, for permit_ncp, None (`Spec.successOf`). c92_success needs an ordinary call (profile 260 or cluster below 0x40), because only their responses are known to exist in the table; waiters registered directly are those of start-up."
  },
  {
   "property": "C93",
   "status": "partial",
   "theorems": [
    "Zcc.c93_driver",
    "Zcc.c93_startup",
    "Zcc.c93_made",
    "Zcc.c93_coordinator",
    "Zcc.c93_traced_partial",
    "Zcc.c93_stale_refuted"
   ],
   "note": "c93_driver, c93_startup, c93_made and c93_coordinator hold of all executions. That waits return what they ask for fails (c93_stale_refuted) when a call that began before the connection gets its turn after it; c93_traced_partial excludes this (Spec.NoStale)."
  },
  {
   "property": "C94",
   "status": "proved",
   "theorems": [
    "Zcc.c94_history",
    "Zcc.c94_calls_live_on",
    "Zcc.c94_one_at_a_time",
    "Zcc.c94_bounded"
   ],
   "note": "Successive start-ups in the model of Model/System."
  },
  {
   "property": "C95",
   "status": "partial",
   "theorems": [
    "Zcc.c95_distinct_partial",
    "Zcc.c95_written_partial",
    "Zcc.c95_key_sources",
    "Zcc.c95_unicast",
    "Zcc.c95_ext",
    "Zcc.c95_messages",
    "Zcc.c95_refuted"
   ],
   "note": "Proved for all commands but the MAC requests startReq and dataReq; for these it is false (c95_refuted), as the key source has no length; with key sources of eight bytes, as the protocol demands, it is proved for all commands (c95_key_sources)."
  }
 ]
}