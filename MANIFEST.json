{
 "claims": [
  {
   "property": "C01",
   "status": "proved",
   "theorems": [
    "Gsm.C01_gsm7_roundtrip",
    "Gsm.C01_esc_lost"
   ],
   "note": "Exact: recovered iff the text has no ESC character; witness of the loss."
  },
  {
   "property": "C02",
   "status": "proved",
   "theorems": [
    "Gsm.C02_accepts_iff",
    "Gsm.C02_rejects",
    "Gsm.C02_discard"
   ],
   "note": "Acceptance, error kind of the first offending character, and discardInvalid."
  },
  {
   "property": "C03",
   "status": "proved",
   "theorems": [
    "Gsm.C03_pack_stream",
    "Gsm.C03_unique"
   ],
   "note": "Bit stream, octet range, length, and uniqueness of the octets."
  },
  {
   "property": "C04",
   "status": "proved",
   "theorems": [
    "Gsm.C04_unpack_pack",
    "Gsm.C04_unpack_pack_fill"
   ],
   "note": "Exact, including the lost final zero septet; plain and fill-bit form."
  },
  {
   "property": "C05",
   "status": "proved",
   "theorems": [
    "Gsm.C05_unpack_exact",
    "Gsm.C05_unpack_exact_prev",
    "Gsm.C05_unpack_suffix"
   ],
   "note": "Exact result and rest of the iterator for every limit >= 1."
  },
  {
   "property": "C06",
   "status": "proved",
   "theorems": [
    "Gsm.C06_ucs2_roundtrip",
    "Gsm.C06_ucs2_reject"
   ],
   "note": "Round trip with any following octets; ValueError iff a code point is above U+FFFF."
  },
  {
   "property": "C07",
   "status": "proved",
   "theorems": [
    "Gsm.C07_ucs2_decode"
   ],
   "note": "Total; exact characters and exact rest of the iterator."
  },
  {
   "property": "C08",
   "status": "proved",
   "theorems": [
    "Gsm.C08_semi_octets",
    "Gsm.C08_zero_limit",
    "Gsm.C08_read"
   ],
   "note": "Round trip, length, octet range; plus the fact that a limit of 0 reads everything."
  },
  {
   "property": "C09",
   "status": "proved",
   "theorems": [
    "Gsm.C09_phone_field",
    "Gsm.C09_phone_too_long",
    "Gsm.C09_empty"
   ],
   "note": "Destination and SMSC form, any following octets, exact length limits, rejection beyond."
  },
  {
   "property": "C10",
   "status": "proved",
   "theorems": [
    "Gsm.C10_alpha_field",
    "Gsm.C10_alpha_reject"
   ],
   "note": "Exact result (with the trailing @ loss), exact length limit and rejection."
  },
  {
   "property": "C11",
   "status": "proved",
   "theorems": [
    "Gsm.C11_decode",
    "Gsm.C11_encode_best",
    "Gsm.C11_encode_range",
    "Gsm.C11_octet_roundtrip"
   ],
   "note": "Decoding against GSM 03.40, best representable period, range errors, octet round trip."
  },
  {
   "property": "C12",
   "status": "proved",
   "theorems": [
    "Gsm.C12_never",
    "Gsm.C12_value_error"
   ],
   "note": "Never a PDU; ValueError whenever the same call without validity succeeds."
  },
  {
   "property": "C13",
   "status": "proved",
   "theorems": [
    "Gsm.C13_timestamp",
    "Gsm.C13_timestamp_exact",
    "Gsm.C13_limits",
    "Gsm.C13_naive"
   ],
   "note": "Every valid date of 1969..2068, every offset below 20 hours (truncated to quarter hours); limits shown by witness; naive datetimes refused."
  },
  {
   "property": "C14",
   "status": "proved",
   "theorems": [
    "Gsm.C14_decode_element",
    "Gsm.C14_decode_header",
    "Gsm.C14_concatenation",
    "Gsm.C14_concatenation_reject",
    "Gsm.C14_ports",
    "Gsm.C14_generic",
    "Gsm.C14_malformed"
   ],
   "note": "Concatenation, ports, generic elements, whole headers of any number of elements, malformed elements."
  },
  {
   "property": "C15",
   "status": "proved",
   "theorems": [
    "Gsm.C15_data_coding"
   ],
   "note": "For every produced PDU, whose field decomposition is unique (IsSubmit.unique)."
  },
  {
   "property": "C16",
   "status": "proved",
   "theorems": [
    "Gsm.C16_first_octet"
   ],
   "note": "For every produced PDU and all flag combinations."
  },
  {
   "property": "C17",
   "status": "proved",
   "theorems": [
    "Gsm.C17_gsm7",
    "Gsm.C17_ucs2",
    "Gsm.C17_empty_text"
   ],
   "note": "GSM-7 and UCS2, all destinations/SMSC/validity/flags; trailing @ loss exact; empty text raises StopIteration."
  },
  {
   "property": "C18",
   "status": "proved",
   "theorems": [
    "Gsm.C18_gsm7",
    "Gsm.C18_ucs2",
    "Gsm.C18_too_many"
   ],
   "note": "Part count, header and slice of every part, GSM-7 and UCS2; at most 255 parts."
  },
  {
   "property": "C19",
   "status": "proved",
   "theorems": [
    "Gsm.C19_gsm7_received",
    "Gsm.C19_ucs2_received",
    "Gsm.C19_violated"
   ],
   "note": "Exact received text and exact loss condition (the property as wished is violated: witness and all lengths beyond a bound)."
  },
  {
   "property": "C20",
   "status": "proved",
   "theorems": [
    "Gsm.C20_fits",
    "Gsm.C20_violated",
    "Gsm.C20_refused"
   ],
   "note": "Size and declared length of every part; witnesses of the violation with extension characters."
  },
  {
   "property": "C21",
   "status": "proved",
   "theorems": [
    "Gsm.C21_tpdu_length",
    "Gsm.C21_decoded_length"
   ],
   "note": "Exact excess with explicit SMSC; decoded tpdu_length right."
  },
  {
   "property": "C22",
   "status": "proved",
   "theorems": [
    "Gsm.C22_submit_pdus",
    "Gsm.C22_hex_input",
    "Gsm.C22_str_pdu",
    "Gsm.C22_decode_str",
    "Gsm.C22_not_hex"
   ],
   "note": "All octets and all strings; any mixture of cases; exact condition for EncodingError."
  },
  {
   "property": "C23",
   "status": "proved",
   "theorems": [
    "Gsm.C23_deliver",
    "Gsm.C23_data_coding",
    "Gsm.C23_empty_gsm7"
   ],
   "note": "All addresses, timestamps, general-group data codings and texts; other coding groups and the empty GSM-7 message are shown to be handled wrongly."
  },
  {
   "property": "C24",
   "status": "proved",
   "theorems": [
    "Gsm.C24_gsm7_with_header",
    "Gsm.C24_gsm7_first_lost",
    "Gsm.C24_ucs2_with_header",
    "Gsm.C24_data_with_header",
    "Gsm.C24_deliver"
   ],
   "note": "All headers: full text unless the header is a multiple of 7 octets, in which case exactly the first septet is lost; UCS2 and 8-bit data always in full."
  },
  {
   "property": "C25",
   "status": "proved",
   "theorems": [
    "Gsm.C25_status_report"
   ],
   "note": "All field values and trailing octets."
  },
  {
   "property": "C26",
   "status": "proved",
   "theorems": [
    "Gsm.C26_octets",
    "Gsm.C26_string",
    "Gsm.C26_violations"
   ],
   "note": "Exact condition for EncodingError, exact set of the other exceptions, and a witness of each (the property as wished is violated)."
  },
  {
   "property": "C27",
   "status": "proved",
   "theorems": [
    "Gsm.C27_framing",
    "Gsm.C27_exact",
    "Gsm.C27_timing_irrelevant"
   ],
   "note": "Every run: the received characters are exactly the handed lines with their terminators plus the retained rest; without prompts that division is unique, so timing is irrelevant."
  },
  {
   "property": "C28",
   "status": "proved",
   "theorems": [
    "Gsm.C28_response_exact",
    "Gsm.C28_waits",
    "Gsm.C28_final_iff",
    "Gsm.C28_payload_ends_response",
    "Gsm.C28_unsolicited_in_response"
   ],
   "note": "After any history, any timing and any following traffic; final result codes characterised exactly; witnesses of a payload line that ends the response and of an unsolicited line inside a response."
  },
  {
   "property": "C29",
   "status": "proved",
   "theorems": [
    "Gsm.C29_no_loss_no_duplicate",
    "Gsm.C29_count"
   ],
   "note": "Every run: handed lines are an order-preserving interleaving of response lines and notification lines."
  },
  {
   "property": "C30",
   "status": "proved",
   "theorems": [
    "Gsm.C30_timeout",
    "Gsm.C30_late_response"
   ],
   "note": "After any history and for any later traffic; witness that a late response is given to the next command."
  },
  {
   "property": "C31",
   "status": "proved",
   "theorems": [
    "Gsm.C31_prompt",
    "Gsm.C31_only",
    "Gsm.C31_prompt_with_eol"
   ],
   "note": "Every prompt without CR/LF, any preceding and following output; converse; a prompt that contains an end of line is shown never to be recognised."
  },
  {
   "property": "C32",
   "status": "proved",
   "theorems": [
    "Gsm.C32_mapping",
    "Gsm.C32_total",
    "Gsm.C32_raises_iff",
    "Gsm.C32_unparsed",
    "Gsm.C32_timeout"
   ],
   "note": "Every response, code and command; total and unique meaning; time-outs and parseError=False included."
  },
  {
   "property": "C33",
   "status": "proved",
   "theorems": [
    "Gsm.C33_retry",
    "Gsm.C33_always_busy",
    "Gsm.C33_only_this_command"
   ],
   "note": "Every number of busy answers and every final answer; exact number of writes, exact delay afterwards; a modem that stays busy ends in a RecursionError."
  },
  {
   "property": "C34",
   "status": "proved",
   "theorems": [
    "Gsm.C34_pin_once",
    "Gsm.C34_no_pin",
    "Gsm.C34_also_sent_for_puk",
    "Gsm.C34_also_sent_without_answer",
    "Gsm.C34_pin_required",
    "Gsm.C34_connected"
   ],
   "note": "Every modem behaviour: submissions are consecutive, follow a not-ready answer, and repeat only after busy answers; a connected modem said READY or accepted the PIN; without a PIN a locked SIM raises PinRequiredError; it is shown that a SIM wanting its PUK and an answer without +CPIN line also get the PIN."
  },
  {
   "property": "C35",
   "status": "proved",
   "theorems": [
    "Gsm.C35_mode_reflects_modem",
    "Gsm.C35_assignment"
   ],
   "note": "After a successful connect and any history of operations and notifications, for every modem behaviour."
  },
  {
   "property": "C36",
   "status": "proved",
   "theorems": [
    "Gsm.C36_memory_selected",
    "Gsm.C36_write_memory"
   ],
   "note": "After any history that begins with connect from a fresh object; every operation that names a memory (a name without quotation marks)."
  },
  {
   "property": "C37",
   "status": "proved",
   "theorems": [
    "Gsm.C37_follows",
    "Gsm.C37_octet",
    "Gsm.C37_encodable",
    "Gsm.C37_needs_space",
    "Gsm.C37_negative"
   ],
   "note": "Any history from a fresh object; with natural references the counter is an octet, and a message that can be encoded with one octet reference can be encoded with all; a negative reference and a reply without the space are shown to go wrong."
  },
  {
   "property": "C38",
   "status": "proved",
   "theorems": [
    "Gsm.C38_pdu_mode",
    "Gsm.C38_not_encodable",
    "Gsm.C38_text_mode",
    "Gsm.C38_resent_without_command"
   ],
   "note": "Every text, number and modem behaviour, both modes: the writes are exactly the announced commands in order, repeated only after busy answers, up to the first failure; the reference comes from the answer to the last one; it is shown that a busy answer makes the message be written again without its command."
  },
  {
   "property": "C39",
   "status": "proved",
   "theorems": [
    "Gsm.C39_status",
    "Gsm.C39_report_handled",
    "Gsm.C39_message_lost",
    "Gsm.C39_wait_any_report",
    "Gsm.C39_report_too_early"
   ],
   "note": "After any history the states of all sent messages are those of the abstract event history (reference reuse included); what a notification adds to that history; witnesses that a wait is ended by any report and misses an early one."
  },
  {
   "property": "C40",
   "status": "proved",
   "theorems": [
    "Gsm.C40_listing",
    "Gsm.C40_undecodable",
    "Gsm.C40_wrong_message_deleted",
    "Gsm.C40_lost"
   ],
   "note": "Every listing of header/PDU pairs, every status, memory, delete flag, set order and failure point; it is shown that an undecodable PDU gives its index and status to the next message, so that the wrong message is deleted, and that other decoding errors lose the listing."
  },
  {
   "property": "C41",
   "status": "proved",
   "theorems": [
    "Gsm.C41_listing",
    "Gsm.C41_bad_status",
    "Gsm.C41_ok_line_lost",
    "Gsm.C41_empty_message_lost",
    "Gsm.C41_report_becomes_text",
    "Gsm.C41_default"
   ],
   "note": "Every listing with the stated bodies, every status, memory, delete flag and failure point; lost OK lines, empty messages and status reports are shown."
  },
  {
   "property": "C42",
   "status": "proved",
   "theorems": [
    "Gsm.C42_received",
    "Gsm.C42_not_passed_on"
   ],
   "note": "Every notification, memory, index and modem behaviour, with the exact commands written up to the first failure."
  },
  {
   "property": "C43",
   "status": "proved",
   "theorems": [
    "Gsm.C43_first",
    "Gsm.C43_none",
    "Gsm.C43_unique",
    "Gsm.C43_second_message_lost",
    "Gsm.C43_ring_anywhere",
    "Gsm.C43_first_line_taken"
   ],
   "note": "Every batch and every call table: the first recognised line decides, with an exact relation for what a line announces; a second +CMTI line of a batch is proved to be ignored, any text with RING is taken for a call, and the call type is read from the first line of the batch."
  },
  {
   "property": "C44",
   "status": "proved",
   "theorems": [
    "Gsm.C44_several",
    "Gsm.C44_single",
    "Gsm.C44_line",
    "Gsm.C44_reply_closed",
    "Gsm.C44_reply_open",
    "Gsm.C44_cancel",
    "Gsm.C44_not_awaited",
    "Gsm.C44_in_response",
    "Gsm.C44_in_notification",
    "Gsm.C44_timeout",
    "Gsm.C44_late_result",
    "Gsm.C44_no_message"
   ],
   "note": "Every text with results that have a message (other text without plus signs around them), in one or more lines; reply and cancel; results in the response or in a notification; a result without message and a late result of an earlier request are shown to go wrong."
  },
  {
   "property": "C45",
   "status": "proved",
   "theorems": [
    "Gsm.C45_coverage",
    "Gsm.C45_strength",
    "Gsm.C45_refused_iff"
   ],
   "note": "Every modem behaviour and every number of rounds until the timer (without timer: all of them): exact description of all queries and of the outcome; InvalidState iff the registration is refused."
  },
  {
   "property": "C46",
   "status": "proved",
   "theorems": [
    "Gsm.C46_table",
    "Gsm.C46_ended_not_in_table",
    "Gsm.C46_call_ended",
    "Gsm.C46_unknown_ended",
    "Gsm.C46_id_zero",
    "Gsm.C46_hung_up",
    "Gsm.C46_outgoing_answered",
    "Gsm.C46_other_removed"
   ],
   "note": "Table invariant and its consequence for all histories of operations; exact effect of a call end and of an accepted hangup; a call with id 0 never ends, and a late hangup of an ended call is proved to remove another call that has its id by now."
  },
  {
   "property": "C47",
   "status": "proved",
   "theorems": [
    "Gsm.C47_incoming_safe",
    "Gsm.C47_dial_safe",
    "Gsm.C47_incoming_takes_over",
    "Gsm.C47_dial_takes_over",
    "Gsm.C47_end_collides",
    "Gsm.C47_end_last",
    "Gsm.C47_witness"
   ],
   "note": "The property is false of the code: witness history from a connected modem, and the collision proved for every contiguous table when a call other than the last ends. Proved safe while the ids are 1..n."
  },
  {
   "property": "C48",
   "status": "proved",
   "theorems": [
    "Gsm.C48_hangup_once",
    "Gsm.C48_hangup_command",
    "Gsm.C48_no_answer_after_hangup",
    "Gsm.C48_answer_command",
    "Gsm.C48_answer_once",
    "Gsm.C48_answer_after_end"
   ],
   "note": "After an accepted hangup no later hangup writes anything, whatever happens in between; no answer writes anything after a hangup or an accepted answer. A ringing call ended by the network can still be answered; a refused ATH is sent again by the next hangup."
  },
  {
   "property": "C49",
   "status": "proved",
   "theorems": [
    "Gsm.C49_command",
    "Gsm.C49_result",
    "Gsm.C49_not_answered",
    "Gsm.C49_brace",
    "Gsm.C49_no_tones"
   ],
   "note": "Exact command for every tone string without braces, exact result; nothing written on an unanswered call; braces raise ValueError and an empty string sends a command without tone."
  },
  {
   "property": "C50",
   "status": "proved",
   "theorems": [
    "Gsm.C50_round",
    "Gsm.C50_quiet",
    "Gsm.C50_run",
    "Gsm.C50_order",
    "Gsm.C50_initiated",
    "Gsm.C50_answered",
    "Gsm.C50_answered_unknown"
   ],
   "note": "Every polling history with arbitrary changes by other threads between the rounds: each round is described exactly (what the query shows, what is reported, when the thread ends), and the reports are in order, at most once each, on seeing what they say. A call that is answered before it is in the table ends the thread."
  },
  {
   "property": "C51",
   "status": "proved",
   "theorems": [
    "Gsm.C51_text_time",
    "Gsm.C51_exact_iff",
    "Gsm.C51_total",
    "Gsm.C51_calendar",
    "Gsm.C51_accepted"
   ],
   "note": "Every valid date of 1969..2068, every quarter-hour field; exact iff a multiple of 4; exactly the texts of real dates followed by a number are accepted; any other text is refused."
  },
  {
   "property": "C52",
   "status": "proved",
   "theorems": [
    "Gsm.C52_first_match",
    "Gsm.C52_no_match",
    "Gsm.C52_starting_with",
    "Gsm.C52_all_matches"
   ],
   "note": "Any list of lines and any matcher."
  },
  {
   "property": "C53",
   "status": "proved",
   "theorems": [
    "Gsm.C53_set",
    "Gsm.C53_set_safe",
    "Gsm.C53_refines",
    "Gsm.C53_violated"
   ],
   "note": "Exact effect of a store after any history (at most one key is lost, witness of the loss), and refinement to a map for histories that never store a prefix of a stored key."
  },
  {
   "property": "C54",
   "status": "proved",
   "theorems": [
    "Gsm.C54_delete",
    "Gsm.C54_contains"
   ],
   "note": "After any history of stores and deletions."
  },
  {
   "property": "C55",
   "status": "proved",
   "theorems": [
    "Gsm.C55_keys",
    "Gsm.C55_len",
    "Gsm.C55_keys_prefix",
    "Gsm.C55_iter"
   ],
   "note": "After any history; keys(p) also keeps the order of keys(). C55_iter states how a loop over a trie ends before and after PEP 479."
  },
  {
   "property": "C56",
   "status": "proved",
   "theorems": [
    "Gsm.C56_lcp",
    "Gsm.C56_common",
    "Gsm.C56_hidden",
    "Gsm.C56_violated_hidden",
    "Gsm.C56_violated_deleted"
   ],
   "note": "Longest common prefix after stores when no stored key is a proper prefix of p; always a common prefix after any history; the two ways in which it is too short or wrong are proved."
  },
  {
   "property": "C57",
   "status": "proved",
   "theorems": [
    "Gsm.C57_invariant",
    "Gsm.C57_session",
    "Gsm.C57_edit",
    "Gsm.C57_paste_lost",
    "Gsm.C57_up",
    "Gsm.C57_at_the_ends",
    "Gsm.C57_up_first",
    "Gsm.C57_down",
    "Gsm.C57_down_last",
    "Gsm.C57_recall",
    "Gsm.C57_command",
    "Gsm.C57_blank"
   ],
   "note": "Invariant for every session of keys and notifications, including scripts; the history is exactly the last 100 commands entered; every editing key acts as the abstract edit; recalling, sending and blank lines exactly. A chunk of several characters (pasted text) is proved to be ignored."
  },
  {
   "property": "C58",
   "status": "proved",
   "theorems": [
    "Gsm.C58_conforms",
    "Gsm.C58_grave"
   ],
   "note": "Conformance with the GSM 03.38 tables except for the grave accent (witness)."
  },
  {
   "property": "C59",
   "status": "proved",
   "theorems": [
    "Gsm.C59_silent",
    "Gsm.C59_single",
    "Gsm.C59_full",
    "Gsm.C59_several",
    "Gsm.C59_erased",
    "Gsm.C59_none",
    "Gsm.C59_syntax",
    "Gsm.C59_exception",
    "Gsm.C59_crash",
    "Gsm.C59_table",
    "Gsm.C59_shipped",
    "Gsm.C59_violated"
   ],
   "note": "Every outcome of TAB for every table and line, with its exact condition; for the built-in table every command is found and AT+CRE is the only line in capitals that is erased. The violating cases are proved with witnesses."
  },
  {
   "property": "C60",
   "status": "proved",
   "theorems": [
    "Gsm.C60_step",
    "Gsm.C60_compose",
    "Gsm.C60_message",
    "Gsm.C60_idle",
    "Gsm.C60_start",
    "Gsm.C60_script_lost"
   ],
   "note": "Refinement to a small composer for every sequence of edits, Enter, Ctrl-Z and ESC; corollary for a message of several lines (its line ends are lost); start of a message for every answer of the modem; scripts proved to lose the text."
  },
  {
   "property": "C61",
   "status": "proved",
   "theorems": [
    "Gsm.C61_display",
    "Gsm.C61_session",
    "Gsm.C61_start",
    "Gsm.C61_violated"
   ],
   "note": "Invariant over every session except the two violating situations (ESC while typing; completion by a text shorter than the line), which are shown with witnesses."
  },
  {
   "property": "C62",
   "status": "proved",
   "theorems": [
    "Gsm.C62_connect",
    "Gsm.C62_iff",
    "Gsm.C62_no_functionality"
   ],
   "note": "Exact: the commands written, in order, and every attribute set, against a declarative specification, for every history-independent modem; success iff the mandatory commands are accepted. Modems whose answers change during the initialisation are covered by C33-C36 and C64 only."
  },
  {
   "property": "C63",
   "status": "proved",
   "theorems": [
    "Gsm.C63_commands",
    "Gsm.C63_none",
    "Gsm.C63_violated"
   ],
   "note": "Every format for every list; None in the remaining cases; the blank after +CLAC: as a witness of the violation."
  },
  {
   "property": "C64",
   "status": "proved",
   "theorems": [
    "Gsm.C64_smsc_reflects_modem",
    "Gsm.C64_connect",
    "Gsm.C64_assignment",
    "Gsm.C64_none"
   ],
   "note": "Invariant over all histories and all (history-dependent) modems; the assignment of None as a witness of the violation. A command that times out is taken as not accepted."
  },
  {
   "property": "C65",
   "status": "proved",
   "theorems": [
    "Gsm.C65_lines",
    "Gsm.C65_effect",
    "Gsm.C65_unique",
    "Gsm.C65_any_ok",
    "Gsm.C65_unknown"
   ],
   "note": "Lines: exact in both directions; effect: equivalence with a declarative specification for every consistent table (which C46 proves is always the case)."
  },
  {
   "property": "C66",
   "status": "proved",
   "theorems": [
    "Gsm.C66_dial_waiting",
    "Gsm.C66_dial_at_once",
    "Gsm.C66_not_awaited",
    "Gsm.C66_call",
    "Gsm.C66_timeout_not_hung_up",
    "Gsm.C66_ended_at_once"
   ],
   "note": "Exact result and state for every sequence of events during the wait, against a declarative relation (first event that tells of a call); the two violating situations as witnesses."
  },
  {
   "property": "C67",
   "status": "proved",
   "theorems": [
    "Gsm.C67_incoming",
    "Gsm.C67_caller",
    "Gsm.C67_unique",
    "Gsm.C67_same_number",
    "Gsm.C67_anonymous",
    "Gsm.C67_fax"
   ],
   "note": "Exact result and state against declarative relations for the type, the caller and the ring, which are functional; the violating situations as witnesses."
  },
  {
   "property": "C68",
   "status": "proved",
   "theorems": [
    "Gsm.C68_text",
    "Gsm.C68_pdu",
    "Gsm.C68_read",
    "Gsm.C68_delete",
    "Gsm.C68_delete_multiple",
    "Gsm.C68_delete_kind",
    "Gsm.C68_empty"
   ],
   "note": "Result characterised exactly (iff) by declarative header formats, for arbitrary answers; the patterns are proved equivalent to the formats, which are shown unambiguous."
  },
  {
   "property": "C69",
   "status": "proved",
   "theorems": [
    "Gsm.C69_process",
    "Gsm.C69_default",
    "Gsm.C69_lost"
   ],
   "note": "Exact outcome in the success case and for every failing step; the loss of messages that were deleted before a failing deletion is a theorem with a concrete modem."
  },
  {
   "property": "C70",
   "status": "proved",
   "theorems": [
    "Gsm.C70_identity",
    "Gsm.C70_signal",
    "Gsm.C70_network",
    "Gsm.C70_network_unique",
    "Gsm.C70_revision",
    "Gsm.C70_no_data"
   ],
   "note": "Result characterised for arbitrary answers; the patterns are proved equivalent to the line formats, which determine the result."
  },
  {
   "property": "C71",
   "status": "proved",
   "theorems": [
    "Gsm.C71_message",
    "Gsm.C71_report",
    "Gsm.C71_place",
    "Gsm.C71_passed_deleted",
    "Gsm.C71_wait",
    "Gsm.C71_wait_unique",
    "Gsm.C71_hidden_report"
   ],
   "note": "Both handlers characterised for arbitrary lines and answers; the wait for arbitrary events."
  },
  {
   "property": "C72",
   "status": "proved",
   "theorems": [
    "Gsm.C72_parse",
    "Gsm.C72_results",
    "Gsm.C72_send",
    "Gsm.C72_wait_unique",
    "Gsm.C72_cut_off"
   ],
   "note": "Parsing characterised (iff) for arbitrary lines; the wait for arbitrary events; both determined uniquely."
  },
  {
   "property": "C73",
   "status": "proved",
   "theorems": [
    "Gsm.C73_atomic",
    "Gsm.C73_atomic_any",
    "Gsm.C73_stable",
    "Gsm.C73_coarse",
    "Gsm.C73_conserved",
    "Gsm.C73_survives",
    "Gsm.C73_quiet",
    "Gsm.C73_dead",
    "Gsm.C73_dead_writes",
    "Gsm.C73_crash_after_response",
    "Gsm.C73_crash_after_prompt",
    "Gsm.C73_crash_after_timeout",
    "Gsm.C73_lost_line",
    "Gsm.C73_data_grows",
    "Gsm.C73_empty_response"
   ],
   "note": "Simulation in both directions with the model of C27-C31; conservation for all schedules; the failures are shown by concrete schedules."
  },
  {
   "property": "C74",
   "status": "proved",
   "theorems": [
    "Gsm.C74_raw",
    "Gsm.C74_raw_slow",
    "Gsm.C74_raw_plain",
    "Gsm.C74_raw_violated",
    "Gsm.C74_keys",
    "Gsm.C74_keys_distinct",
    "Gsm.C74_exit",
    "Gsm.C74_removed",
    "Gsm.C74_upper",
    "Gsm.C74_blank",
    "Gsm.C74_typing",
    "Gsm.C74_all_typed",
    "Gsm.C74_command",
    "Gsm.C74_split_key"
   ],
   "note": "Exact behaviour for arbitrary pieces; the defects are shown by witnesses."
  },
  {
   "property": "C75",
   "status": "proved",
   "theorems": [
    "Gsm.C75_sent",
    "Gsm.C75_no_port",
    "Gsm.C75_left_open",
    "Gsm.C75_at_most_one",
    "Gsm.C75_without_report",
    "Gsm.C75_debug",
    "Gsm.C75_identify_open",
    "Gsm.C75_info",
    "Gsm.C75_failed_status",
    "Gsm.C75_sent_but_failed",
    "Gsm.C75_other_report",
    "Gsm.C75_pin_left_open"
   ],
   "note": "Whole runs of both programs, from connect to the end; the defects are shown by witnesses."
  },
  {
   "property": "C76",
   "status": "proved",
   "theorems": [
    "Gsm.C76_alone",
    "Gsm.C76_serial",
    "Gsm.C76_received",
    "Gsm.C76_report",
    "Gsm.C76_sent",
    "Gsm.C76_one_memory",
    "Gsm.C76_references",
    "Gsm.C76_reference_settles",
    "Gsm.C76_status",
    "Gsm.C76_message_lost",
    "Gsm.C76_stale_memory",
    "Gsm.C76_between_prompt_and_message",
    "Gsm.C76_same_reference",
    "Gsm.C76_reference_256",
    "Gsm.C76_report_lost",
    "Gsm.C76_mode_between"
   ],
   "note": "Refinement to the sequential methods, rely-guarantee theorems for every schedule, and the races as witnesses. Calls are in C77."
  },
  {
   "property": "C77",
   "status": "proved",
   "theorems": [
    "Gsm.C77_alone",
    "Gsm.C77_serial",
    "Gsm.C77_grow",
    "Gsm.C77_stay",
    "Gsm.C77_settles",
    "Gsm.C77_hangup",
    "Gsm.C77_hangup_tells",
    "Gsm.C77_hangup_table",
    "Gsm.C77_ended",
    "Gsm.C77_ended_table",
    "Gsm.C77_ring",
    "Gsm.C77_dial",
    "Gsm.C77_answer",
    "Gsm.C77_received",
    "Gsm.C77_ring_twice",
    "Gsm.C77_same_id",
    "Gsm.C77_key_error",
    "Gsm.C77_ring_lost",
    "Gsm.C77_hangup_twice",
    "Gsm.C77_answered_late",
    "Gsm.C77_other_removed"
   ],
   "note": "Refinement to the sequential methods, rely-guarantee theorems for every schedule, and the races as witnesses. Threads that wait for an event are in C78."
  },
  {
   "property": "C78",
   "status": "proved",
   "theorems": [
    "Gsm.C78_alone",
    "Gsm.C78_ussd",
    "Gsm.C78_dial",
    "Gsm.C78_report",
    "Gsm.C78_grow",
    "Gsm.C78_told_ussd",
    "Gsm.C78_told_dial",
    "Gsm.C78_told_report",
    "Gsm.C78_woken_ussd",
    "Gsm.C78_woken_dial",
    "Gsm.C78_woken_report",
    "Gsm.C78_event_taken",
    "Gsm.C78_same_result",
    "Gsm.C78_result_of_other",
    "Gsm.C78_told_late",
    "Gsm.C78_report_early",
    "Gsm.C78_report_of_other",
    "Gsm.C78_call_unknown",
    "Gsm.C78_dialled_twice"
   ],
   "note": "Refinement to the sequential methods, how each waiting thread ends for every schedule, that events are set and noticed, and the races as witnesses. The end of a wait is one step, which sees whether the event is set; when the time is over is decided by the schedule."
  },
  {
   "property": "C79",
   "status": "proved",
   "theorems": [
    "Gsm.C79_taken_unique",
    "Gsm.C79_read_unique",
    "Gsm.C79_submitted",
    "Gsm.C79_short",
    "Gsm.C79_short_ucs2",
    "Gsm.C79_long",
    "Gsm.C79_long_ucs2",
    "Gsm.C79_joined",
    "Gsm.C79_joined_ucs2",
    "Gsm.C79_addressed"
   ],
   "note": "Composition of the send, encode, relay, store, notify, read and decode steps; the service centre and the modems are specified independently of the code. Exceptions of C17-C19 ('@' at the end, texts too long for their parts) are part of the statement."
  },
  {
   "property": "C80",
   "status": "proved",
   "theorems": [
    "Gsm.C80_sound",
    "Gsm.C80_exact",
    "Gsm.C80_lines",
    "Gsm.C80_ussd",
    "Gsm.C80_dial",
    "Gsm.C80_report",
    "Gsm.C80_grow",
    "Gsm.C80_no_deadlock",
    "Gsm.C80_answer_of_other"
   ],
   "note": "Equivalence of the character-level machine with the thread model of C78 for modems whose answers can be heard; steps of threads are those of C78. Whether a prompt is waited for is derived from the text of the command (modem.py:643, 648 are the only places). In the no-deadlock theorem retries of a busy modem are bounded by the recursion limit of Python, and a polling thread by the number of rounds given for it."
  },
  {
   "property": "C81",
   "status": "proved",
   "theorems": [
    "Gsm.C81_one_reader",
    "Gsm.C81_closed",
    "Gsm.C81_close_returns",
    "Gsm.C81_fatal",
    "Gsm.C81_ends",
    "Gsm.C81_lines",
    "Gsm.C81_no_loss",
    "Gsm.C81_lost_line",
    "Gsm.C81_two_readers",
    "Gsm.C81_false_alarm",
    "Gsm.C81_stale_lines",
    "Gsm.C81_close_errors"
   ],
   "note": "One program thread (write and close are not called at the same time from two threads; for several writers see C80). A read of a port that has been closed fails, as pyserial does. The violations outside the stated conditions are theorems with concrete runs."
  },
  {
   "property": "C82",
   "status": "proved",
   "theorems": [
    "Gsm.C82_settles",
    "Gsm.C82_one_message",
    "Gsm.C82_addressed",
    "Gsm.C82_not_answered",
    "Gsm.C82_answered",
    "Gsm.C82_correspondence",
    "Gsm.C82_first_ring",
    "Gsm.C82_no_tones",
    "Gsm.C82_not_taken",
    "Gsm.C82_ended",
    "Gsm.C82_hangs_up",
    "Gsm.C82_tones_into_nothing"
   ],
   "note": "Output with print is left out. An exchange with the modem is one step; events of other threads happen while the program sleeps."
  },
  {
   "property": "C83",
   "status": "proved",
   "theorems": [
    "Gsm.C83_writes",
    "Gsm.C83_over",
    "Gsm.C83_hangs_up",
    "Gsm.C83_waits",
    "Gsm.C83_callback_ended",
    "Gsm.C83_callback_hangs_up",
    "Gsm.C83_ussd",
    "Gsm.C83_race",
    "Gsm.C83_race_hangup"
   ],
   "note": "The call of dial_polling_demo.py is there at the start (dial: C46, C78). Its loop has a bound on the rounds, exceeding it is an error of the model. What it prints is left out."
  },
  {
   "property": "C84",
   "status": "proved",
   "theorems": [
    "Gsm.C84_hierarchy",
    "Gsm.C84_cme",
    "Gsm.C84_cms",
    "Gsm.C84_derived",
    "Gsm.C84_other_class",
    "Gsm.C84_keyword",
    "Gsm.C84_keyword_pin",
    "Gsm.C84_one_argument",
    "Gsm.C84_copy",
    "Gsm.C84_copy_text",
    "Gsm.C84_command",
    "Gsm.C84_write",
    "Gsm.C84_handlers",
    "Gsm.C84_interrupted"
   ],
   "note": "Arguments are None, strings or integers. TimeoutException and InterruptedException only keep their arguments and are not modelled as objects."
  },
  {
   "property": "C85",
   "status": "proved",
   "theorems": [
    "Gsm.C85_address",
    "Gsm.C85_sendable",
    "Gsm.C85_raises",
    "Gsm.C85_type_error",
    "Gsm.C85_send",
    "Gsm.C85_extension"
   ],
   "note": "With a validity period the encoder raises further errors, which C11 to C13 describe."
  },
  {
   "property": "C86",
   "status": "proved",
   "theorems": [
    "Gsm.C86_only",
    "Gsm.C86_can",
    "Gsm.C86_exact",
    "Gsm.C86_lets_through",
    "Gsm.C86_connect_only",
    "Gsm.C86_connect_can"
   ],
   "note": "The encoder exceptions of sendSms are those of encodeSmsSubmitPdu for this message (C85 says when there are any). With an empty response write itself raises IndexError; SerialComms never gives one (C27 to C31)."
  },
  {
   "property": "C87",
   "status": "proved",
   "theorems": [
    "Gsm.C87_colours",
    "Gsm.C87_tab_colours",
    "Gsm.C87_shipped_colours",
    "Gsm.C87_columns",
    "Gsm.C87_heading",
    "Gsm.C87_page",
    "Gsm.C87_unknown",
    "Gsm.C87_known",
    "Gsm.C87_rows",
    "Gsm.C87_ways",
    "Gsm.C87_separator",
    "Gsm.C87_short",
    "Gsm.C87_kinds",
    "Gsm.C87_list",
    "Gsm.C87_partition",
    "Gsm.C87_list_column",
    "Gsm.C87_syntax",
    "Gsm.C87_tables"
   ],
   "note": "The whole table of atcommands.py is transcribed with all texts. Iterating over the trie is done with keys (the generator ends with StopIteration as in Python 2)."
  },
  {
   "property": "C88",
   "status": "proved",
   "theorems": [
    "Gsm.C88_continued",
    "Gsm.C88_report",
    "Gsm.C88_spoiled",
    "Gsm.C88_cut_deliver",
    "Gsm.C88_cut_header",
    "Gsm.C88_cut_text",
    "Gsm.C88_cut_report",
    "Gsm.C88_after_ucs2",
    "Gsm.C88_after_data",
    "Gsm.C88_after_short",
    "Gsm.C88_after_gsm7_violated",
    "Gsm.C88_strings",
    "Gsm.C88_half_octet"
   ],
   "note": "The first theorem needs no well-formedness at all. Truncation of well-formed messages is stated on the layouts of C23 to C25."
  },
  {
   "property": "C89",
   "status": "proved",
   "theorems": [
    "Gsm.C89_same",
    "Gsm.C89_once",
    "Gsm.C89_message",
    "Gsm.C89_report",
    "Gsm.C89_process",
    "Gsm.C89_lost_violated",
    "Gsm.C89_answered",
    "Gsm.C89_ended",
    "Gsm.C89_ended_stays_violated",
    "Gsm.C89_hangup_stays_violated",
    "Gsm.C89_table",
    "Gsm.C89_hung_up",
    "Gsm.C89_endless",
    "Gsm.C89_once_answered",
    "Gsm.C89_poll_ends",
    "Gsm.C89_poll_over"
   ],
   "note": "C89_same connects these methods with those of the other properties. The user code of the table theorems can do every operation of the modem, look at outcomes and state, raise exceptions and be nested; it cannot change the attributes of the modem itself."
  },
  {
   "property": "C90",
   "status": "proved",
   "theorems": [
    "Gsm.C90_alone",
    "Gsm.C90_alone_tones",
    "Gsm.C90_shared",
    "Gsm.C90_tones",
    "Gsm.C90_again",
    "Gsm.C90_second",
    "Gsm.C90_smsc_carried",
    "Gsm.C90_calls_kept",
    "Gsm.C90_not_polled",
    "Gsm.C90_smsc_violated",
    "Gsm.C90_tones_violated",
    "Gsm.C90_old_call_violated"
   ],
   "note": "Modems take turns: methods of different modems do not overlap in time (C79 and others treat threads of one modem). Connections in C90_shared, C90_tones, C90_second, C90_smsc_carried and C90_not_polled are to modems without memory, as in C62; C90_alone and C90_alone_tones are for all environments."
  },
  {
   "property": "C91",
   "status": "proved",
   "theorems": [
    "Gsm.C91_prompts",
    "Gsm.C91_command",
    "Gsm.C91_message",
    "Gsm.C91_as_meant",
    "Gsm.C91_new",
    "Gsm.C91_pdu",
    "Gsm.C91_text",
    "Gsm.C91_text_violated",
    "Gsm.C91_dial_violated",
    "Gsm.C91_busy_violated"
   ],
   "note": "The splitting of characters by the modem is a specification (wireTakes): carriage return ends commands; Ctrl-Z and escape end messages; the modem asks for a message after an accepted AT+CMGS and only then (C91_prompts: this determines when it asks). Command line editing by backspace is not considered."
  },
  {
   "property": "C92",
   "status": "proved",
   "theorems": [
    "Gsm.C92_process",
    "Gsm.C92_notified",
    "Gsm.C92_history",
    "Gsm.C92_none_lost",
    "Gsm.C92_count",
    "Gsm.C92_connect",
    "Gsm.C92_session",
    "Gsm.C92_listing_loses",
    "Gsm.C92_unreadable_doubles",
    "Gsm.C92_report_loses"
   ],
   "note": "The modem with its memories is a specification (Keeping), not code of the repository; received messages that are in it are assumed readable (Sound), because otherwise the statement is false (C92_unreadable_doubles). Answers to other commands are arbitrary. Notifications of delivery reports (+CDSI) are excluded, because with them the statement is false (C92_report_loses). The modem may refuse to select a memory without messages, and a reset (ATZ) may select any memory. C92_connect and C92_session begin with connect."
  },
  {
   "property": "C93",
   "status": "proved",
   "theorems": [
    "Gsm.C93_submit_fields",
    "Gsm.C93_submit",
    "Gsm.C93_enhanced"
   ],
   "note": "The shape of the PDU is a specification (submitWire, VpWire, AddrWire, TsWire, UserWire), independent of the encoder of the library. User data with a header goes through the theorems of C24. For the enhanced validity period the exact wrong result is proved."
  },
  {
   "property": "C94",
   "status": "proved",
   "theorems": [
    "Gsm.C94_header_unique",
    "Gsm.C94_parts",
    "Gsm.C94_in_step",
    "Gsm.C94_comes_into_step",
    "Gsm.C94_references",
    "Gsm.C94_collected",
    "Gsm.C94_failed_keeps",
    "Gsm.C94_first_shares",
    "Gsm.C94_failure_shares"
   ],
   "note": "The PDUs that the modem takes over are read with the specification of SMS-SUBMIT (SubmitRead, HeaderOf), not with the decoder of the library. Between the messages anything may happen that does not send (constructor other of Sends). The bound of 256 parts is that of the 8-bit reference. The two violations are witnessed by two messages of 161 characters."
  },
  {
   "property": "C95",
   "status": "proved",
   "theorems": [
    "Gsm.C95_unchanged",
    "Gsm.C95_one_entry",
    "Gsm.C95_told",
    "Gsm.C95_status",
    "Gsm.C95_atomic",
    "Gsm.C95_race",
    "Gsm.C95_report_lost",
    "Gsm.C95_race_silent"
   ],
   "note": "A vanished object remains in the list of the model, where nothing can find it. The two lines of the handler that ask for the entry and use it are modelled apart (updateSentWith); with nothing in between they are those of the atomic model (C95_atomic). The violation is witnessed by C95_report_lost."
  },
  {
   "property": "C96",
   "status": "proved",
   "theorems": [
    "Gsm.C96_exchange",
    "Gsm.C96_all",
    "Gsm.C96_short",
    "Gsm.C96_header_dropped",
    "Gsm.C96_order_lost"
   ],
   "note": "Composition of C79 and C92 for whole sessions. C96_exchange allows messages that were on the receiving modem before and others that arrive; C96_all and C96_short are the cases without them. That the order of parts is lost is C96_header_dropped in general and C96_order_lost for a witness."
  },
  {
   "property": "C97",
   "status": "proved",
   "theorems": [
    "Gsm.C97_text",
    "Gsm.C97_bytes",
    "Gsm.C97_violated",
    "Gsm.C97_mixed"
   ],
   "note": "C97_text is a refinement to the model of C27 to C31. C97_bytes says exactly what happens with bytes, C97_violated gives a witness. That serial.write raises TypeError for str on Python 3 is taken from pyserial (to_bytes)."
  },
  {
   "property": "C98",
   "status": "proved",
   "theorems": [
    "Gsm.C98_settings",
    "Gsm.C98_restored",
    "Gsm.C98_not_restored",
    "Gsm.C98_reason",
    "Gsm.C98_reader_first",
    "Gsm.C98_port_open",
    "Gsm.C98_port_fails_keys",
    "Gsm.C98_ends",
    "Gsm.C98_port_fails",
    "Gsm.C98_keys",
    "Gsm.C98_python3"
   ],
   "note": "The threads are an event machine; all schedules are quantified over. That the settings are not restored on Python 3 is C98_not_restored, for every run that ends. C98_keys ties the keys to the models of C57 and C74. The modes of the platform are arbitrary."
  },
  {
   "property": "C99",
   "status": "proved",
   "theorems": [
    "Gsm.C99_cut",
    "Gsm.C99_whole",
    "Gsm.C99_pdu",
    "Gsm.C99_text",
    "Gsm.C99_text_exact",
    "Gsm.C99_forged",
    "Gsm.C99_violated"
   ],
   "note": "C99_cut and C99_whole are exact for text mode and PDU mode; C99_forged is the general form of the attack, C99_violated a run of the whole library (characters, threads, methods) in which a text deletes another message. Headers are assumed to be single lines that begin with +CMGR: or +CMGL:, as 3GPP TS 27.005 says."
  },
  {
   "property": "C100",
   "status": "proved",
   "theorems": [
    "Gsm.C100_kinds",
    "Gsm.C100_empty",
    "Gsm.C100_listing",
    "Gsm.C100_all_or_nothing",
    "Gsm.C100_blocked",
    "Gsm.C100_forever",
    "Gsm.C100_unread",
    "Gsm.C100_stuck",
    "Gsm.C100_violated"
   ],
   "note": "C100_listing says exactly what any listing in PDU mode is taken for, C100_all_or_nothing when it fails. C100_blocked, C100_forever and C100_unread follow for every modem that keeps messages (the modem of C92). C100_violated is the negation with a concrete modem, for every number of repetitions. That new messages are well formed is assumed of the messages that arrive during the run, not of those that are there."
  },
  {
   "property": "C101",
   "status": "proved",
   "theorems": [
    "Gsm.C101_commands",
    "Gsm.C101_not_busy",
    "Gsm.C101_connect",
    "Gsm.C101_history",
    "Gsm.C101_connect_reached",
    "Gsm.C101_reached",
    "Gsm.C101_busy"
   ],
   "note": "C101_commands is the bound with busy answers, C101_not_busy without; both for every method. Only listing with deletion and processing need a bound on the number of lines of an answer. C101_connect is the bound of 26 for connect, C101_history the sum over any history. C101_connect_reached, C101_reached and C101_busy show that the bounds are reached. waitForNetworkCoverage is bounded by the number of rounds its timer leaves."
  },
  {
   "property": "C102",
   "status": "proved",
   "theorems": [
    "Gsm.C102_pdu",
    "Gsm.C102_text",
    "Gsm.C102_same",
    "Gsm.C102_texts",
    "Gsm.C102_read",
    "Gsm.C102_empty",
    "Gsm.C102_report_pdu",
    "Gsm.C102_report_text",
    "Gsm.C102_report_same",
    "Gsm.C102_flash",
    "Gsm.C102_settings",
    "Gsm.C102_no_validity",
    "Gsm.C102_violated"
   ],
   "note": "The property as a user would state it is violated; proved is the exact condition. C102_pdu and C102_text give the object in each mode, C102_same and C102_report_same are the equivalences, C102_texts says for which texts octets and shown text agree, C102_read lifts it to readStoredSms. C102_violated is a message from India, half an hour off in text mode; C102_empty: an empty GSM-7 message raises TypeError in PDU mode and is read in text mode. Sending: C102_flash (the flash request is ignored in text mode), C102_settings (after AT+CSMP=49,167,0,0 the modem sends what the library would send with a validity of one day) and C102_no_validity (in PDU mode it asks for none). Listings are not compared here; C40 and C41 describe each."
  },
  {
   "property": "C103",
   "status": "proved",
   "theorems": [
    "Gsm.C103_listing",
    "Gsm.C103_list",
    "Gsm.C103_refused",
    "Gsm.C103_all_or_nothing",
    "Gsm.C103_ambiguous",
    "Gsm.C103_items",
    "Gsm.C103_blank",
    "Gsm.C103_blank_list",
    "Gsm.C103_forged",
    "Gsm.C103_deletes",
    "Gsm.C103_spoilt",
    "Gsm.C103_violated",
    "Gsm.C103_violated_again",
    "Gsm.C103_violated_spoilt"
   ],
   "note": "C103_listing is an exact characterisation of the parser of text-mode listings for all lines (TakenFor is a relation that mentions no regular expression; existence and uniqueness are proved); C103_list and C103_refused lift it to listStoredSms with the commands that delete. C103_ambiguous: two messages and one message whose text continues like a second one are the same characters on the line. C103_forged, C103_deletes, C103_spoilt: a stranger can make up a message from any sender, delete a message at any place, or keep all messages from being handed over; C103_violated, _again and _spoilt are witnesses with one SMS each. C103_blank, C103_blank_list: messages without text are never returned, and are deleted unread when all messages are listed and deleted. PDU mode is not affected (C99_pdu, C100)."
  },
  {
   "property": "C104",
   "status": "proved",
   "theorems": [
    "Gsm.C104_write",
    "Gsm.C104_calm",
    "Gsm.C104_calm_limit",
    "Gsm.C104_bound",
    "Gsm.C104_ends",
    "Gsm.C104_silent",
    "Gsm.C104_dial",
    "Gsm.C104_busy",
    "Gsm.C104_always_busy",
    "Gsm.C104_days",
    "Gsm.C104_slower"
   ],
   "note": "timedWriteN is modem.py:387-446 with its two sleeps; C104_write: the steps of Verif.Model.Threads take exactly that time, so the time of all methods in steps follows. C104_calm (exact time when the modem is never busy), C104_calm_limit (with the number of commands of C101), C104_bound (any modem), C104_ends (no method blocks for ever), C104_silent (a modem that never answers: one timeout), C104_dial (dialling without waiting for the answer), C104_busy and C104_always_busy (exact time of write with busy answers), C104_days (more than 44 hours for one command), C104_slower (the delay kept after failures accumulates without limit). connect and waitForNetworkCoverage are in C108. Not included: waiting for events (dial, USSD, delivery reports), and the half seconds between the rounds of polling; computing takes no time."
  },
  {
   "property": "C105",
   "status": "proved",
   "theorems": [
    "Gsm.C105_alone",
    "Gsm.C105_serial",
    "Gsm.C105_kept",
    "Gsm.C105_connected",
    "Gsm.C105_received",
    "Gsm.C105_pin",
    "Gsm.C105_memory_violated",
    "Gsm.C105_mode_violated"
   ],
   "note": "Prog.connect is modem.py connect in steps: one step for each command and for each attribute that is read or set. C105_alone (without other threads it is the connect of the earlier claims), C105_serial (one after the other is one of the schedules), C105_kept (calls, callbacks, reports), C105_connected (what has been accepted at the end), C105_received (messages announced meanwhile), C105_pin (the PIN, per thread; two threads that connect may each submit it, see the example beside it). The part about the selected memory and mode is false in the code and is recorded as counterexamples: C105_memory_violated and C105_mode_violated, each with both serial orders shown harmless."
  },
  {
   "property": "C106",
   "status": "proved",
   "theorems": [
    "Gsm.C106_one_mode",
    "Gsm.C106_both_modes",
    "Gsm.C106_alone",
    "Gsm.C106_session",
    "Gsm.C106_connect",
    "Gsm.C106_missing",
    "Gsm.C106_missed",
    "Gsm.C106_early_violated",
    "Gsm.C106_switch_violated",
    "Gsm.C106_report_violated",
    "Gsm.C106_switched_violated"
   ],
   "note": "Verif.Model.Expressions is the model of the threads (C76, C77, C105) with the three expressions in the state: lift takes over what does not use them; readStoredSms, the handlers, the setter of smsTextMode, connectSms and connect are written again with the steps of _compileSmsRegexes and the AttributeError. C106_one_mode and C106_both_modes (a stuttering simulation in both directions: this justifies the simplification of the other claims), C106_alone and C106_session (without other threads), C106_connect, C106_missing (exactly what reading does when they are missing), C106_missed. The part that is false in the code when threads interleave is recorded as counterexamples: C106_early_violated, C106_switch_violated, C106_report_violated, C106_switched_violated."
  },
  {
   "property": "C107",
   "status": "proved",
   "theorems": [
    "Gsm.C107_exact",
    "Gsm.C107_telephones",
    "Gsm.C107_commands",
    "Gsm.C107_text_mode",
    "Gsm.C107_names_violated",
    "Gsm.C107_long_violated",
    "Gsm.C107_escape_violated"
   ],
   "note": "C107_exact is an equivalence, for requests of any length; SameRequest (Verif.Spec.Distinct) speaks of digits, characters, seconds and flags only. C107_telephones (the case in which equal PDUs mean equal arguments), C107_commands and C107_text_mode (the commands of C38). The collisions that exist in the code are shown by C107_names_violated and C107_long_violated; C107_escape_violated shows why escape characters are excluded."
  },
  {
   "property": "C108",
   "status": "proved",
   "theorems": [
    "Gsm.C108_connect",
    "Gsm.C108_connect_limit",
    "Gsm.C108_connect_ends",
    "Gsm.C108_connect_silent",
    "Gsm.C108_connect_reached",
    "Gsm.C108_timer",
    "Gsm.C108_rounds",
    "Gsm.C108_in_time",
    "Gsm.C108_not_early",
    "Gsm.C108_prompt",
    "Gsm.C108_short",
    "Gsm.C108_later",
    "Gsm.C108_second"
   ],
   "note": "timedCoverage is modem.py:575-625 with the clock, the timer and the second of sleep, of a modem whose answers may depend on the moment; C108_timer: the number of rounds in the model does not matter. C108_rounds connects it with C45, C108_connect with the connect of C62, C101 and C105. C108_in_time, C108_not_early and C108_prompt are the bounds, C108_connect_limit, C108_connect_ends and C108_connect_silent those of connect; C108_connect_reached and C108_later show that they are reached. C108_second: coverage that is there from the beginning is reported after a second only, and C108_short: with a timeout of not more than one second never."
  },
  {
   "property": "C109",
   "status": "proved",
   "theorems": [
    "Gsm.C109_commands",
    "Gsm.C109_jobs_commands",
    "Gsm.C109_objects",
    "Gsm.C109_jobs_objects",
    "Gsm.C109_ends",
    "Gsm.C109_jobs_end",
    "Gsm.C109_all_end",
    "Gsm.C109_all_jobs_end",
    "Gsm.C109_reached"
   ],
   "note": "In the step models of C76, C77, C105 (activities) and C78 (jobs, which wait for events). C109_commands and C109_jobs_commands: the bounds of C101 and C104 added up, times the recursion limit if the modem may be busy. C109_objects and C109_jobs_objects: callbacks, objects for sent messages, objects for calls. C109_ends and C109_jobs_end: one thread that is not forgotten (Fair) ends and stays so; C109_all_end and C109_all_jobs_end: all of them. C109_reached: taking turns needs the whole sum where one after the other needs less; two threads told of one call create two objects; a watched call gives two callbacks."
  },
  {
   "property": "C110",
   "status": "proved",
   "theorems": [
    "Gsm.C110_process",
    "Gsm.C110_notified",
    "Gsm.C110_history",
    "Gsm.C110_none_lost",
    "Gsm.C110_count",
    "Gsm.C110_connect",
    "Gsm.C110_session",
    "Gsm.C110_same",
    "Gsm.C110_untold_stays",
    "Gsm.C110_untold_violated"
   ],
   "note": "Generalises C92 from PDU mode to both modes. C110_process, C110_notified, C110_history (any operations, changes of mode included), C110_none_lost, C110_count, C110_connect (the mode after connecting), C110_session. C110_same: when the two modes hand over the same object. The received messages must be readable in both modes and their texts innocent (no line that looks like a header or ends an answer; C99 and C103 tell what happens otherwise). The part of the statement that is a defect: C110_untold_stays for all modems, C110_untold_violated with a witness."
  },
  {
   "property": "C111",
   "status": "proved",
   "theorems": [
    "Gsm.C111_ussd",
    "Gsm.C111_dial",
    "Gsm.C111_send",
    "Gsm.C111_ussd_time",
    "Gsm.C111_dial_time",
    "Gsm.C111_send_time",
    "Gsm.C111_ussd_told",
    "Gsm.C111_ussd_late",
    "Gsm.C111_dial_told",
    "Gsm.C111_dial_late",
    "Gsm.C111_send_told",
    "Gsm.C111_send_late",
    "Gsm.C111_send_early",
    "Gsm.C111_ussd_limit",
    "Gsm.C111_dial_limit",
    "Gsm.C111_send_limit",
    "Gsm.C111_ussd_violated",
    "Gsm.C111_dial_violated",
    "Gsm.C111_busy_violated"
   ],
   "note": "C111_ussd, C111_dial, C111_send: the methods with the clock end with the result and state of the methods without it. C111_ussd_time and the like: bounds. C111_ussd_told, C111_ussd_late and the like: the exact moment of the end. C111_ussd_limit, C111_dial_limit, C111_send_limit: limits on modems that are not busy. C111_send_early: reports that come too early. The documented maximum is not kept: C111_ussd_violated, C111_dial_violated (twice the time-out), C111_busy_violated (more when the modem is busy)."
  },
  {
   "property": "C112",
   "status": "proved",
   "theorems": [
    "Gsm.C112_follows",
    "Gsm.C112_one_at_a_time",
    "Gsm.C112_table",
    "Gsm.C112_refused",
    "Gsm.C112_end_unheard",
    "Gsm.C112_missed_violated",
    "Gsm.C112_third_violated"
   ],
   "note": "C112_follows: refinement of the line by the table and the call objects, over all histories in which calls can be told apart. C112_one_at_a_time: one call at a time. C112_table: what the table leads to. Where it fails: C112_third_violated (third call after the first of two ended), C112_end_unheard and C112_missed_violated (no progress reported), C112_refused (answer does nothing after a refused hangup)."
  },
  {
   "property": "C113",
   "status": "proved",
   "theorems": [
    "Gsm.C113_follows",
    "Gsm.C113_dial",
    "Gsm.C113_pace",
    "Gsm.C113_behind",
    "Gsm.C113_answered_at_once_violated",
    "Gsm.C113_bare_line_violated",
    "Gsm.C113_late_answer_violated",
    "Gsm.C113_hidden_violated",
    "Gsm.C113_redial_violated"
   ],
   "note": "C113_follows: object, table and callbacks after any history. C113_dial: what dial returns is a call that has begun. C113_pace: when the queries are made. C113_behind: the object shows the stage at the last query, and the next query is at most half a second and one query later. Where polling fails: C113_answered_at_once_violated (answered before the first query), C113_bare_line_violated (line without number), C113_late_answer_violated (a query that times out), C113_hidden_violated (another call is listed first), C113_redial_violated (dialled again within half a second)."
  },
  {
   "property": "C114",
   "status": "proved",
   "theorems": [
    "Gsm.C114_follows",
    "Gsm.C114_all",
    "Gsm.C114_single",
    "Gsm.C114_recent",
    "Gsm.C114_last_256",
    "Gsm.C114_report_pdu",
    "Gsm.C114_wait",
    "Gsm.C114_parts_violated",
    "Gsm.C114_trying_violated",
    "Gsm.C114_late_violated",
    "Gsm.C114_middle_violated"
   ],
   "note": "C114_follows: reference and status of any message after any history. C114_all: every object belongs to a message that was sent. C114_single: if all messages fit into one part, no further hypothesis on references is needed. C114_last_256 and C114_recent: modems that count references. C114_report_pdu: the octets of a report as it comes from the network, and what is read from them. C114_wait: waiting for the report. Where the program does not do what one expects: C114_parts_violated (only the last part counts), C114_trying_violated (reports that the centre is still trying, or has delivered without confirmation), C114_late_violated and C114_middle_violated (references used again)."
  },
  {
   "property": "C115",
   "status": "proved",
   "theorems": [
    "Gsm.C115_method",
    "Gsm.C115_history",
    "Gsm.C115_kinds",
    "Gsm.C115_not_sent",
    "Gsm.C115_dial",
    "Gsm.C115_post",
    "Gsm.C115_ussd",
    "Gsm.C115_calls",
    "Gsm.C115_events",
    "Gsm.C115_news",
    "Gsm.C115_no_news",
    "Gsm.C115_carriage_return_violated"
   ],
   "note": "C115_method: one method. C115_history and C115_not_sent: histories. C115_kinds: the kinds exclude each other. C115_dial, C115_post, C115_ussd, C115_calls: who may send which kind. C115_events, C115_news, C115_no_news: what comes from outside. C115_carriage_return_violated: the kind belongs to the whole of what write sends; an argument with a carriage return can bring a second command, see C91."
  },
  {
   "property": "C116",
   "status": "proved",
   "theorems": [
    "Gsm.C116_exchange",
    "Gsm.C116_dialogue",
    "Gsm.C116_from_start",
    "Gsm.C116_request",
    "Gsm.C116_menu",
    "Gsm.C116_example",
    "Gsm.C116_cancel_violated",
    "Gsm.C116_old_object_violated",
    "Gsm.C116_request_violated",
    "Gsm.C116_unasked_violated",
    "Gsm.C116_closed_violated"
   ],
   "note": "C116_exchange: one input. C116_dialogue and C116_from_start: histories. C116_request: a request is independent of earlier sessions. C116_menu: there is a modem with which every input to every service succeeds, so the hypotheses can be met; C116_example: a history. C116_cancel_violated, C116_old_object_violated, C116_closed_violated: replies to sessions that are over are sent. C116_request_violated: a request in an open session. C116_unasked_violated: what the network sends unasked changes nothing."
  },
  {
   "property": "C117",
   "status": "proved",
   "theorems": [
    "Gsm.C117_int",
    "Gsm.C117_int_error",
    "Gsm.C117_send",
    "Gsm.C117_plain",
    "Gsm.C117_details_violated",
    "Gsm.C117_no_blank_violated",
    "Gsm.C117_example"
   ],
   "note": "C117_int and C117_int_error: what int reads, exactly. C117_send: sendSms. C117_plain: the plain answer. C117_details_violated: the answer with details, for all of them. C117_no_blank_violated: no blank. C117_example: runs in both modes."
  },
  {
   "property": "C118",
   "status": "proved",
   "theorems": [
    "Gsm.C118_others",
    "Gsm.C118_connect",
    "Gsm.C118_idle",
    "Gsm.C118_report",
    "Gsm.C118_late",
    "Gsm.C118_messages",
    "Gsm.C118_calls_violated"
   ],
   "note": "C118_others: methods that do not wait. C118_connect, C118_idle: nothing is awaited. C118_report, C118_late: what notifications do then. C118_messages: at most 256 sent messages. C118_calls_violated: the table of calls has n entries after n missed calls, for every n."
  },
  {
   "property": "C119",
   "status": "proved",
   "theorems": [
    "Gsm.C119_distinct",
    "Gsm.C119_parse",
    "Gsm.C119_foreign",
    "Gsm.C119_order",
    "Gsm.C119_last",
    "Gsm.C119_sendsms",
    "Gsm.C119_identify",
    "Gsm.C119_refused",
    "Gsm.C119_same_violated",
    "Gsm.C119_pin_shown_violated",
    "Gsm.C119_example"
   ],
   "note": "C119_distinct: the options of the tools. C119_parse: both parsers find what is meant. C119_foreign: unknown options. C119_order: permutations. C119_sendsms, C119_identify, C119_refused: what the tools do with it. C119_same_violated: command lines on which the versions of Python differ. C119_pin_shown_violated: the PIN is printed."
  },
  {
   "property": "C120",
   "status": "proved",
   "theorems": [
    "Gsm.C120_taken",
    "Gsm.C120_arrives",
    "Gsm.C120_line",
    "Gsm.C120_sendable",
    "Gsm.C120_exact",
    "Gsm.C120_alike",
    "Gsm.C120_lines_violated",
    "Gsm.C120_at_violated"
   ],
   "note": "C120_arrives: all four combinations of modes. C120_taken: what the modem takes over in text mode. C120_line: nothing in the text ends it on the line. C120_sendable: exactly the texts that a modem can send in text mode. C120_exact: when the text got is the text sent. C120_alike: when both modes give the same. C120_lines_violated, C120_at_violated: texts that arrive changed. Assumed: the modem in text mode answers with the whole text as in C102 (C99 says when a text can be mistaken for the answer to a command)."
  },
  {
   "property": "C121",
   "status": "proved",
   "theorems": [
    "Gsm.C121_pdu",
    "Gsm.C121_text",
    "Gsm.C121_dialled",
    "Gsm.C121_nobody",
    "Gsm.C121_arrives",
    "Gsm.C121_demo",
    "Gsm.C121_violated"
   ],
   "note": "C121_pdu: exactly when the PDUs of an answer are addressed to the sender. C121_text, C121_dialled: the same in text mode. C121_nobody: messages without sender. C121_arrives: answers to numbers arrive. C121_demo: sms_handler_demo.py answers in this way. C121_violated: a name that looks like a number."
  },
  {
   "property": "C122",
   "status": "proved",
   "theorems": [
    "Gsm.C122_heard",
    "Gsm.C122_silent",
    "Gsm.C122_needed",
    "Gsm.C122_write",
    "Gsm.C122_ends",
    "Gsm.C122_late",
    "Gsm.C122_versions",
    "Gsm.C122_same_violated",
    "Gsm.C122_cleared_violated"
   ],
   "note": "C122_heard: what comes in time is heard. C122_silent: otherwise the result is false. C122_ends: waiting ends after the event. C122_write: what write returns. C122_needed: without the patch. C122_late: the patched result is whether the event was set before the last look. C122_versions: what is patched. C122_same_violated, C122_cleared_violated: late events and cleared events."
  },
  {
   "property": "C123",
   "status": "proved",
   "theorems": [
    "Gsm.C123_days",
    "Gsm.C123_compare",
    "Gsm.C123_pdu_comparable",
    "Gsm.C123_pdu_never_raises",
    "Gsm.C123_pdu",
    "Gsm.C123_text",
    "Gsm.C123_text_order",
    "Gsm.C123_text_order_violated",
    "Gsm.C123_text_raises"
   ],
   "note": "C123_days, C123_compare: times with zones of less than a day are compared as instants. C123_pdu_comparable, C123_pdu_never_raises, C123_pdu: times read of PDUs. C123_text, C123_text_order: the exact error in text mode and when the order is right. C123_text_order_violated, C123_text_raises: when it is not."
  },
  {
   "property": "C124",
   "status": "proved",
   "theorems": [
    "Gsm.C124_strokes",
    "Gsm.C124_same",
    "Gsm.C124_empty",
    "Gsm.C124_dead",
    "Gsm.C124_backspace_violated",
    "Gsm.C124_letter",
    "Gsm.C124_still",
    "Gsm.C124_typing",
    "Gsm.C124_start",
    "Gsm.C124_arrow"
   ],
   "note": "C124_strokes: keys are told from each other. C124_same: a session does what it does on a POSIX system. C124_empty: the entry for the empty string is never used. C124_still, C124_typing, C124_start: when the screen is the same. C124_dead, C124_backspace_violated, C124_letter, C124_arrow: keys that do not work and the spoilt screen."
  },
  {
   "property": "C125",
   "status": "proved",
   "theorems": [
    "Gsm.C125_method",
    "Gsm.C125_history",
    "Gsm.C125_user",
    "Gsm.C125_not_sent",
    "Gsm.C125_events",
    "Gsm.C125_before",
    "Gsm.C125_quiet"
   ],
   "note": "C125_method, C125_history: any code of the user. C125_user, C125_not_sent, C125_events: code that uses methods, to any depth of callbacks. C125_before: the order of what a notification causes. C125_quiet: code that does not use the modem."
  },
  {
   "property": "C126",
   "status": "proved",
   "theorems": [
    "Gsm.C126_threads",
    "Gsm.C126_not_sent",
    "Gsm.C126_events",
    "Gsm.C126_who"
   ],
   "note": "C126_threads: every line belongs to a thread that has taken a step. C126_not_sent: kinds of lines that are not sent. C126_events: threads for what comes from outside. C126_who: which threads may do what."
  },
  {
   "property": "C127",
   "status": "proved",
   "theorems": [
    "Gsm.C127_log",
    "Gsm.C127_which",
    "Gsm.C127_own",
    "Gsm.C127_once",
    "Gsm.C127_announced",
    "Gsm.C127_read_first",
    "Gsm.C127_apart_violated"
   ],
   "note": "The last sentence of the property is violated: C127_apart_violated. C127_log: the lines of the threads make up the log. C127_which: the threads spoken of. C127_own: order of the commands of a thread, for threads cut off anywhere, failed or successful. C127_once: without a busy modem each once. C127_announced and C127_read_first: what this means for message texts and deletions."
  },
  {
   "property": "C128",
   "status": "proved",
   "theorems": [
    "Gsm.C128_lines",
    "Gsm.C128_own",
    "Gsm.C128_refused",
    "Gsm.C128_answered",
    "Gsm.C128_sent",
    "Gsm.C128_text",
    "Gsm.C128_shown",
    "Gsm.C128_listed",
    "Gsm.C128_other_memory_violated"
   ],
   "note": "The last sentence of the property is violated: C128_other_memory_violated. C128_lines: the lines considered are all lines of the thread. C128_own: commands are carried out one after the other. C128_refused: nothing after a refusal. C128_sent, C128_text, C128_shown, C128_listed: what this means for message parts, texts and deletions. An answer counts as taken if its last line is not an error, as in write."
  },
  {
   "property": "C129",
   "status": "proved",
   "theorems": [
    "Gsm.C129_lines",
    "Gsm.C129_memory",
    "Gsm.C129_noted",
    "Gsm.C129_all",
    "Gsm.C129_waiting",
    "Gsm.C129_two_memories_violated"
   ],
   "note": "C129_memory: the memory named is in use at each line of the thread that uses one. C129_lines: the lines considered are exactly the lines of the log after the start, each with what was sent before. C129_noted: the noted memory stays right. C129_all: nothing is used in another memory if all threads name it. C129_waiting: the last two for threads that wait for events. C129_two_memories_violated: the restriction to one memory is needed (see also C76_message_lost)."
  },
  {
   "property": "C130",
   "status": "proved",
   "theorems": [
    "Gsm.C130_form",
    "Gsm.C130_in_use",
    "Gsm.C130_waiting",
    "Gsm.C130_other_mode_violated"
   ],
   "note": "C130_form: the noted mode stays and the commands fit it, at the end of every schedule, hence at every moment. C130_in_use: the modem stays in the mode. C130_waiting: both for threads that wait for events. C130_other_mode_violated: the restriction is needed (see also C76_mode_between). Commands that the program writes itself have to fit the mode."
  }
 ]
}