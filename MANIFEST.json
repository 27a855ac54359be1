{
 "claims": [
  {
   "property": "C01",
   "status": "proved",
   "theorems": [
    "Props.C01_decode_encode",
    "Props.C01_unique",
    "Props.C01_injective"
   ],
   "note": ""
  },
  {
   "property": "C02",
   "status": "proved",
   "theorems": [
    "Props.C02_digits",
    "Props.C02_roundtrip",
    "Props.C02_message_hex"
   ],
   "note": ""
  },
  {
   "property": "C03",
   "status": "proved",
   "theorems": [
    "Props.C03_twos_comp",
    "Props.C03_width_zero"
   ],
   "note": ""
  },
  {
   "property": "C04",
   "status": "proved",
   "theorems": [
    "Props.C04_text",
    "Props.C04_length",
    "Props.C04_get",
    "Props.C04_outside",
    "Props.C04_counts",
    "Props.C04_value",
    "Props.C04_slice",
    "Props.C04_step",
    "Props.C04_iter"
   ],
   "note": ""
  },
  {
   "property": "C05",
   "status": "proved",
   "theorems": [
    "Props.C05_contiguous",
    "Props.C05_counted"
   ],
   "note": ""
  },
  {
   "property": "C06",
   "status": "proved",
   "theorems": [
    "Props.C06_single_frame",
    "Props.C06_among_others"
   ],
   "note": ""
  },
  {
   "property": "C07",
   "status": "proved",
   "theorems": [
    "Props.C07_in_order",
    "Props.C07_among_others",
    "Props.C07_nonvacuous"
   ],
   "note": ""
  },
  {
   "property": "C08",
   "status": "partial",
   "theorems": [
    "Props.C08_trackable_order_partial",
    "Props.C08_short_any_order_partial",
    "Props.C08_refuted",
    "Props.C08_exactly",
    "Props.C08_refuted_corrupt"
   ],
   "note": "The full statement is false of the code (C08_refuted: swapping consecutive frames 15 and 16 loses the reply; C08_refuted_corrupt: exchanging frames 1 and 17 delivers wrong bytes). C08_exactly: an arrival order is harmless for all payloads of a length if and only if the numbers can be tracked along it; hence every order of up to 8 consecutive frames."
  },
  {
   "property": "C09",
   "status": "partial",
   "theorems": [
    "Props.C09_exact_partial",
    "Props.C09_lost_first_partial",
    "Props.C09_lost_inner_partial",
    "Props.C09_duplicate_partial",
    "Props.C09_refuted",
    "Props.C09_refuted_corrupt",
    "Props.C09_outcome",
    "Props.C09_outcome_total"
   ],
   "note": "The full statement is false of the code (C09_refuted, C09_refuted_corrupt: a lost tail or 16 lost consecutive frames go unnoticed). C09_outcome gives the outcome for every order, loss and repetition; losing the first frame, an inner frame or duplicating one is noticed along trackable orders."
  },
  {
   "property": "C10",
   "status": "proved",
   "theorems": [
    "Props.C10_sound",
    "Props.C10_has_sender",
    "Props.C10_exact",
    "Props.C10_unique"
   ],
   "note": ""
  },
  {
   "property": "C11",
   "status": "proved",
   "theorems": [
    "Props.C11_interleaving",
    "Props.C11_own_lines",
    "Props.C11_noninterference",
    "Props.C11_raises_iff",
    "Props.C11_order"
   ],
   "note": ""
  },
  {
   "property": "C12",
   "status": "proved",
   "theorems": [
    "Props.C12_chatter"
   ],
   "note": ""
  },
  {
   "property": "C13",
   "status": "proved",
   "theorems": [
    "Props.C13_malformed",
    "Props.C13_digits"
   ],
   "note": ""
  },
  {
   "property": "C14",
   "status": "partial",
   "theorems": [
    "Props.C14_can_exact",
    "Props.C14_can_partial",
    "Props.C14_legacy_exact",
    "Props.C14_unknown",
    "Props.C14_refuted_can",
    "Props.C14_refuted_legacy",
    "Props.C14_exact"
   ],
   "note": "False of the code on CAN (mode-03 reply of one byte) and legacy (short lines in a multi-line reply). Proved: the exact condition for raising, on CAN, legacy and all protocols together (C14_can_exact, C14_legacy_exact, C14_unknown, C14_exact)."
  },
  {
   "property": "C15",
   "status": "proved",
   "theorems": [
    "Props.C15_single",
    "Props.C15_segmented",
    "Props.C15_any"
   ],
   "note": ""
  },
  {
   "property": "C16",
   "status": "proved",
   "theorems": [
    "Props.C16_single_line",
    "Props.C16_text"
   ],
   "note": ""
  },
  {
   "property": "C17",
   "status": "proved",
   "theorems": [
    "Props.C17_any_order",
    "Props.C17_no_raise"
   ],
   "note": ""
  },
  {
   "property": "C18",
   "status": "partial",
   "theorems": [
    "Props.C18_mixed_modes_partial",
    "Props.C18_bad_order_bytes_partial",
    "Props.C18_exact_partial",
    "Props.C18_lost_inner_partial",
    "Props.C18_refuted"
   ],
   "note": "False of the code: losing the tail goes unnoticed (C18_refuted). C18_exact_partial: exactly which sets of lines give a message, and which one; hence mixed modes, wrong order bytes, and losing an inner line are noticed."
  },
  {
   "property": "C19",
   "status": "proved",
   "theorems": [
    "Props.C19_dtc_lines"
   ],
   "note": ""
  },
  {
   "property": "C20",
   "status": "partial",
   "theorems": [
    "Props.C20_engine_partial",
    "Props.C20_no_answer",
    "Props.C20_raises",
    "Props.C20_refuted"
   ],
   "note": "The full statement is false of the code (C20_refuted: two answering ECUs, neither with the standard engine address, announcing no PID at all: the constructor raises). C20_raises gives the exact condition; otherwise the rule stated is proved."
  },
  {
   "property": "C21",
   "status": "proved",
   "theorems": [
    "Props.C21_tags",
    "Props.C21_unseen"
   ],
   "note": ""
  },
  {
   "property": "C22",
   "status": "proved",
   "theorems": [
    "Props.C22_messages",
    "Props.C22_null"
   ],
   "note": ""
  },
  {
   "property": "C23",
   "status": "proved",
   "theorems": [
    "Props.C23_custom",
    "Props.C23_size",
    "Props.C23_data"
   ],
   "note": ""
  },
  {
   "property": "C24",
   "status": "proved",
   "theorems": [
    "Props.C24_eq",
    "Props.C24_equivalence",
    "Props.C24_hash",
    "Props.C24_clone"
   ],
   "note": ""
  },
  {
   "property": "C25",
   "status": "proved",
   "theorems": [
    "Props.C25_hex",
    "Props.C25_other"
   ],
   "note": ""
  },
  {
   "property": "C26",
   "status": "proved",
   "theorems": [
    "Props.C26_has_pid",
    "Props.C26_position",
    "Props.C26_mode2",
    "Props.C26_distinct",
    "Props.C26_names",
    "Props.C26_by_name"
   ],
   "note": ""
  },
  {
   "property": "C27",
   "status": "partial",
   "theorems": [
    "Props.C27_raises_iff_partial",
    "Props.C27_total_partial",
    "Props.C27_refuted"
   ],
   "note": "False of the code only for AIR_STATUS / DTC_AIR_STATUS with a single reserved bit (IndexError): C27_raises_iff_partial is an exact characterisation over all table commands and replies. Messages are assumed to have at least one frame, which the parser guarantees (C10, C12)."
  },
  {
   "property": "C28",
   "status": "partial",
   "theorems": [
    "Props.C28_range_partial",
    "Props.C28_accuracy",
    "Props.C28_evap_partial",
    "Props.C28_inject_fuel_partial",
    "Props.C28_pid",
    "Props.C28_refuted"
   ],
   "note": "The full statement is false of the code: evap_pressure goes down to -8224 Pa (C28_refuted), inject_timing up to 301.99, fuel_rate up to 3276.75. Proved for every other scalar sensor; true ranges proved for these three."
  },
  {
   "property": "C29",
   "status": "partial",
   "theorems": [
    "Props.C29_strict_partial",
    "Props.C29_function",
    "Props.C29_refuted"
   ],
   "note": "The full statement is false of evap_pressure (low byte taken as signed: C29_refuted). Proved for every other scalar sensor."
  },
  {
   "property": "C30",
   "status": "proved",
   "theorems": [
    "Props.C30_linear",
    "Props.C30_exact",
    "Props.C30_monotone",
    "Props.C30_nonneg",
    "Props.C30_minimum",
    "Props.C30_any_bit",
    "Props.C30_decoder"
   ],
   "note": ""
  },
  {
   "property": "C31",
   "status": "partial",
   "theorems": [
    "Props.C31_unambiguous",
    "Props.C31_single_partial",
    "Props.C31_length",
    "Props.C31_refuted"
   ],
   "note": "False of the code: FREEZE_DTC with 00 00 gives P0000 instead of none (C31_refuted). Everything else in the statement is proved."
  },
  {
   "property": "C32",
   "status": "partial",
   "theorems": [
    "Props.C32_concatenated",
    "Props.C32_even_partial",
    "Props.C32_refuted"
   ],
   "note": "False of the code when an ECU sends an odd number of code bytes (the odd byte pairs with the next ECU's first byte: C32_refuted). Proved exactly: codes of the concatenation; and the full claim when every ECU sends an even number of bytes."
  },
  {
   "property": "C33",
   "status": "partial",
   "theorems": [
    "Props.C33_decimal_partial",
    "Props.C33_refuted",
    "Props.C33_letters_partial",
    "Props.C33_lists_partial"
   ],
   "note": "False of the code for codes containing the hex digits A-F: decoded in lower case, table in upper case (C33_refuted with P0A00). Proved for every entry written with decimal digits (C33_decimal_partial), and that every other code, in the table or not, comes without a description (C33_letters_partial); both for the lists of codes (C33_lists_partial)."
  },
  {
   "property": "C34",
   "status": "proved",
   "theorems": [
    "Props.C34_status",
    "Props.C34_commands"
   ],
   "note": ""
  },
  {
   "property": "C35",
   "status": "proved",
   "theorems": [
    "Props.C35_by_tid",
    "Props.C35_by_name",
    "Props.C35_passed",
    "Props.C35_null",
    "Props.C35_list"
   ],
   "note": ""
  },
  {
   "property": "C36",
   "status": "partial",
   "theorems": [
    "Props.C36_fuel_status",
    "Props.C36_air_status_partial",
    "Props.C36_refuted",
    "Props.C36_obd_compliance",
    "Props.C36_fuel_type",
    "Props.C36_o2_sensors",
    "Props.C36_o2_sensors_alt",
    "Props.C36_aux_input"
   ],
   "note": "False of the code only for secondary air status with a single reserved bit, which raises IndexError (C36_refuted, exact in C36_air_status_partial). All other enumerated replies proved as stated."
  },
  {
   "property": "C37",
   "status": "partial",
   "theorems": [
    "Props.C37_vin_partial",
    "Props.C37_kept_partial",
    "Props.C37_refuted"
   ],
   "note": "False of the code: a VIN starting or ending with 0, 1 or 2 loses these characters (C37_refuted). Proved: exactly which characters are lost, and that all other VINs are returned as sent, for CAN and legacy layouts."
  },
  {
   "property": "C38",
   "status": "partial",
   "theorems": [
    "Props.C38_cvn_partial",
    "Props.C38_legacy_partial",
    "Props.C38_kept_partial",
    "Props.C38_any_partial",
    "Props.C38_several_refuted",
    "Props.C38_refuted"
   ],
   "note": "False of the code: CVN bytes 00 01 02 5C 78 30 31 32 at the ends are lost (C38_refuted), in the legacy layout also ASCII blanks in front, and two or more CVNs are never returned completely (C38_several_refuted). Proved: exactly what is returned for every reply whatsoever (C38_any_partial), for one CVN on CAN (C38_cvn_partial) and in the legacy layout (C38_legacy_partial)."
  },
  {
   "property": "C39",
   "status": "proved",
   "theorems": [
    "Props.C39_lines",
    "Props.C39_clean",
    "Props.C39_unique",
    "Props.C39_chunks",
    "Props.C39_prompt",
    "Props.C39_timeout"
   ],
   "note": ""
  },
  {
   "property": "C40",
   "status": "proved",
   "theorems": [
    "Props.C40_lost",
    "Props.C40_construct",
    "Props.C40_stays",
    "Props.C40_null",
    "Props.C40_open"
   ],
   "note": ""
  },
  {
   "property": "C41",
   "status": "partial",
   "theorems": [
    "Props.C41_partial",
    "Props.C41_port",
    "Props.C41_refuted"
   ],
   "note": "False of the code in full: CAR_CONNECTED can be reported although the only reply to 0100 was NO DATA (C41_refuted). Proved: the exact meaning of every reported status (C41_partial, C41_port)."
  },
  {
   "property": "C42",
   "status": "proved",
   "theorems": [
    "Props.C42_requested",
    "Props.C42_unknown",
    "Props.C42_automatic"
   ],
   "note": ""
  },
  {
   "property": "C43",
   "status": "proved",
   "theorems": [
    "Props.C43_detection",
    "Props.C43_found",
    "Props.C43_connected"
   ],
   "note": ""
  },
  {
   "property": "C44",
   "status": "proved",
   "theorems": [
    "Props.C44_no_prompt",
    "Props.C44_query",
    "Props.C44_sleep"
   ],
   "note": ""
  },
  {
   "property": "C45",
   "status": "proved",
   "theorems": [
    "Props.C45_unconnected",
    "Props.C45_unsupported",
    "Props.C45_mode06"
   ],
   "note": ""
  },
  {
   "property": "C46",
   "status": "proved",
   "theorems": [
    "Props.C46_lines",
    "Props.C46_last"
   ],
   "note": ""
  },
  {
   "property": "C47",
   "status": "partial",
   "theorems": [
    "Props.C47_refuted",
    "Props.C47_refuted_power",
    "Props.C47_partial"
   ],
   "note": "False of the code: after a change of the header (or a wake-up) the carriage return repeats that line, not the command (C47_refuted, C47_refuted_power). Proved: apart from repeats, header changes, wake-ups and ATLP the last command that arrived is the one queried, provided every earlier query returned; hence the full claim whenever none of these lines came in between."
  },
  {
   "property": "C48",
   "status": "partial",
   "theorems": [
    "Props.C48_refuted",
    "Props.C48_refuted_ten",
    "Props.C48_partial",
    "Props.C48_once_partial"
   ],
   "note": "False of the code: the suffix is 0 when the first reply had no lines (C48_refuted) and two decimal digits for ten frames or more (C48_refuted_ten). Proved: the exact forms of what is sent, that the number is the frame count of a reply to this command and at most its number of lines, a single digit up to 9, and that it never changes."
  },
  {
   "property": "C49",
   "status": "partial",
   "theorems": [
    "Props.C49_refuted",
    "Props.C49_partial",
    "Props.C49_any_partial"
   ],
   "note": "False of the code when the adapter refuses the header: the command is sent all the same (C49_refuted). Proved for every history in which each header change that got through was answered OK. C49_any_partial: on every adapter, the header in force is the command's, or this very query asked for it and the reply was not just OK."
  },
  {
   "property": "C50",
   "status": "proved",
   "theorems": [
    "Props.C50_names",
    "Props.C50_supported",
    "Props.C50_sound"
   ],
   "note": ""
  },
  {
   "property": "C51",
   "status": "partial",
   "theorems": [
    "Props.C51_refuted",
    "Props.C51_refuted_car",
    "Props.C51_actual",
    "Props.C51_partial",
    "Props.C51_given"
   ],
   "note": "Refuted as stated: the port loop compares statuses as strings ('Not Connected' >= 'ELM Connected'; 'Car Connected' < 'ELM Connected'), so a dead first port stops the search and a port with a car is given up for the next one. Proved: what the loop does for every device and port list (C51_actual), the property for at most one port or an adapter without a car on the first one (C51_partial), and that a port given by the user is the only one used (C51_given)."
  },
  {
   "property": "C52",
   "status": "partial",
   "theorems": [
    "Props.C52_partial",
    "Props.C52_succeeds",
    "Props.C52_refuted"
   ],
   "note": "Refuted as stated: if the adapter is unplugged before close() writes ATZ, the write handler sets the port to None and close() raises AttributeError. Proved for every reachable object and device: close() either returns a closed object that can be closed again, or raises AttributeError in exactly that situation leaving an unconnected object, or raises IndexError because the reply to setting the header back trips the parser (C52_partial); it succeeds whenever header changes are acknowledged and the reset can be written (C52_succeeds)."
  },
  {
   "property": "C53",
   "status": "partial",
   "theorems": [
    "Props.C53_raises_partial",
    "Props.C53_table_exact",
    "Props.C53_partial",
    "Props.C53_table_partial",
    "Props.C53_refuted",
    "Props.C53_refuted_unplugged"
   ],
   "note": "Refuted as stated, twice: a reply that trips the parser (lone byte 43), and the loss of the connection during a header change (TypeError from summing over None). Proved for every reachable object, device and table command: these, and the reserved secondary air status bits of C27, are the only failures (C53_partial); if only table commands were queried, unplugging at any moment never makes a query raise (C53_table_partial), and it raises exactly if its I/O ends with a reply on which the parser or the secondary air decoder fails (C53_table_exact)."
  },
  {
   "property": "C54",
   "status": "partial",
   "theorems": [
    "Props.C54_frozen",
    "Props.C54_refuted",
    "Props.C54_partial"
   ],
   "note": "C54_frozen proves the first half for all callbacks. The second half fails when a callback changes subscriptions while stop() is waiting for the loop (C54_refuted: RuntimeError in the update thread); C54_partial covers callbacks that do not."
  },
  {
   "property": "C55",
   "status": "partial",
   "theorems": [
    "Props.C55_refuted",
    "Props.C55_partial",
    "Props.C55_any_partial",
    "Props.C55_query_local",
    "Props.C55_source",
    "Props.C55_exact_partial"
   ],
   "note": "Fails when a callback calls unwatch_all() while stop() waits (C55_refuted). C55_partial: all histories with polite callbacks in which unwatch(c, cb) is used with subscribed callbacks. C55_any_partial: for all callbacks and histories the answer is null or was stored earlier by the loop for the same command as the result of a query. C55_query_local and C55_source hold in full. C55_exact_partial: as C55_partial, for every use of unwatch (Spec/AsyncActual)."
  },
  {
   "property": "C56",
   "status": "partial",
   "theorems": [
    "Props.C56_refuted",
    "Props.C56_fired_partial",
    "Props.C56_all_partial",
    "Props.C56_once",
    "Props.C56_exact_partial"
   ],
   "note": "Fails when a callback unsubscribes itself while stop() is waiting: the list that the loop walks through shrinks and the next callback is skipped (C56_refuted). C56_fired_partial and C56_all_partial: callbacks that do not stop the loop or change subscriptions after it was told to stop, and histories without the C57 defect; no callback that is not due is called, and the loop goes on only when none is due. C56_once holds for all callbacks. C56_exact_partial: the same for every use of unwatch (Spec/AsyncActual)."
  },
  {
   "property": "C57",
   "status": "partial",
   "theorems": [
    "Props.C57_refuted",
    "Props.C57_partial",
    "Props.C57_exact_partial"
   ],
   "note": "Fails for callbacks that are not subscribed: the whole command is dropped (C57_refuted). C57_partial: subscriptions agree with the history whenever unwatch(c, cb) is used with subscribed callbacks. C57_exact_partial: for every argument of unwatch, with the rule of Spec/AsyncActual (an unsubscribed callback drops the command)."
  },
  {
   "property": "C58",
   "status": "partial",
   "theorems": [
    "Props.C58_refuted",
    "Props.C58_partial",
    "Props.C58_exact_partial",
    "Props.C58_call_partial",
    "Props.C58_bound_partial"
   ],
   "note": "Fails for nested blocks (C58_refuted). C58_partial: one block around any calls that do not start or stop the loop. C58_exact_partial: for every sequence of calls (nested blocks, start and stop inside blocks, watch, query), on a live connection with something watched, running and was-running afterwards are exactly the fold of the four-line specification `switched`. C58_call_partial: the same for every single call except close(), also unwatch and unwatch_all, with nothing watched or something (`switchedBy`); longer sequences are chains of these. C58_bound_partial: every single call, also close(), on any connection, lost meanwhile or not, returning or raising: the loop does not run afterwards, and paused() does not remember a running loop, unless `switchedBy` says so."
  },
  {
   "property": "C59",
   "status": "proved",
   "theorems": [
    "Props.C59_one",
    "Props.C59_final"
   ],
   "note": ""
  },
  {
   "property": "C60",
   "status": "partial",
   "theorems": [
    "Props.C60_refuted",
    "Props.C60_partial",
    "Props.C60_start",
    "Props.C60_ends",
    "Props.C60_returns_partial",
    "Props.C60_raises_partial"
   ],
   "note": "Fails if the loop notices a lost connection while stop() runs (C60_refuted: AttributeError). Partial: on a live connection stop()/paused() never raise and, in every fair run, return; on any connection they raise nothing but AttributeError, and only if the loop ended by itself during that very call (C60_raises_partial); start() and the end of a paused() block never raise."
  },
  {
   "property": "C61",
   "status": "partial",
   "theorems": [
    "Props.C61_partial",
    "Props.C61_rpm_partial",
    "Props.C61_sensor_partial",
    "Props.C61_refuted"
   ],
   "note": "False of the code as stated (C61_refuted: an ECU at the standard engine address that was silent to 0100 but answers 010C is taken for the engine as well; the parser may also fail on a foreign line, C14). Proved for every engine command of the tables, every protocol, single and multi-frame replies and arbitrary surrounding lines, excluding these two causes: the outcome is that of a lone message of the engine; exact value for RPM, rounding-error bound for every scalar sensor except EVAP_VAPOR_PRESSURE (C28)."
  },
  {
   "property": "C62",
   "status": "partial",
   "theorems": [
    "Props.C62_fresh",
    "Props.C62_partial",
    "Props.C62_refuted"
   ],
   "note": "False of the code (C62_refuted: the negative response 7F 01 12 to 010C is decoded as 1152 rpm). Proved: every message of a response comes from the reply to this very request and from an ECU the command listens to (C62_fresh), and responses hold answers to the request if those ECUs only send such (C62_partial)."
  },
  {
   "property": "C63",
   "status": "partial",
   "theorems": [
    "Props.C63_refuted",
    "Props.C63_partial",
    "Props.C63_closed",
    "Props.C63_failed",
    "Props.C63_lost_partial",
    "Props.C63_no_port_partial"
   ],
   "note": "Refuted as stated: if no port is found, the base commands remain 'supported' and test_cmd of MIDS_A raises AttributeError. Proved: port name, queries, power calls and close() on every unconnected reachable object (C63_partial); objects whose connection attempt failed are closed (C63_failed), and test_cmd is False on closed objects (C63_closed); exactly what protocol_id, protocol_name, supports and test_cmd say if the line was lost (what they said before, C63_lost_partial) or there was no port (C63_no_port_partial)."
  },
  {
   "property": "C65",
   "status": "partial",
   "theorems": [
    "Props.C65_calibration_partial",
    "Props.C65_refuted"
   ],
   "note": "False of the code: on CAN the last character is always lost (declared size 18 counts 16 characters but not the item count), and 0, 1, 2 at the ends are lost (C65_refuted). Proved: exactly what is returned."
  },
  {
   "property": "C64",
   "status": "partial",
   "theorems": [
    "Props.C64_rows_partial",
    "Props.C64_freeze",
    "Props.C64_bytes_partial",
    "Props.C64_documented_partial",
    "Props.C64_refuted"
   ],
   "note": "False of the code (C64_refuted): five documented mode-09 commands do not exist, VIN and CALIBRATION_ID return bytes instead of a string (C64_bytes_partial), EMISSION_REQ and MAX_VALUES are undocumented. Proved for every other row, for all messages, and for all freeze-frame commands. Spec/DocTable.lean is generated from the documentation by tools/gen_docs.py."
  },
  {
   "property": "C66",
   "status": "partial",
   "theorems": [
    "Props.C66_getitem",
    "Props.C66_has_name",
    "Props.C66_has_command",
    "Props.C66_getitem_int",
    "Props.C66_base_commands",
    "Props.C66_len_refuted",
    "Props.C66_len_partial"
   ],
   "note": "len(commands) is not the number of commands (C66_len_refuted: reserved positions are counted, the adapter commands are not; C66_len_partial says what it is). The rest is proved in full. Negative integer keys count from the end, as in Python."
  },
  {
   "property": "C67",
   "status": "partial",
   "theorems": [
    "Props.C67_refuted",
    "Props.C67_partial",
    "Props.C67_other"
   ],
   "note": "False of the code (C67_refuted): an OSError other than ENOENT on any candidate, e.g. a missing permission, ends the scan with that exception. C67_partial: exactly then; otherwise the result is as stated."
  },
  {
   "property": "C68",
   "status": "proved",
   "theorems": [
    "Props.C68_stored_codes"
   ],
   "note": ""
  },
  {
   "property": "C69",
   "status": "partial",
   "theorems": [
    "Props.C69_legacy_partial",
    "Props.C69_partial",
    "Props.C69_refuted"
   ],
   "note": "False of the code on the non-CAN protocols (C69_refuted: pending P0104 is reported as P0400, because the legacy parser keeps the mode byte only for mode 03 and the decoder always drops two bytes). C69_partial: proved on CAN. C69_legacy_partial: on the older protocols, exactly which bytes survive and hence which codes are listed."
  },
  {
   "property": "C70",
   "status": "partial",
   "theorems": [
    "Props.C70_text",
    "Props.C70_refuted",
    "Props.C70_partial",
    "Props.C70_codes_partial"
   ],
   "note": "False of the code (C70_refuted): NO DATA and any other adapter text gives the empty list (C70_text). C70_partial: listed codes come from an ECU's message with more than two bytes; C70_codes_partial: they are exactly the non-zero code pairs in the data of the response's messages after the first two bytes."
  },
  {
   "property": "C71",
   "status": "partial",
   "theorems": [
    "Props.C71_partial",
    "Props.C71_refuted",
    "Props.C71_refuted_late",
    "Props.C71_headers_partial"
   ],
   "note": "False of the code: after a header change the repeat hits AT SH (C71_refuted), and if more ECUs answer than the first time the last are cut off (C71_refuted_late). C71_partial: holds for all queries under header 7E0 whose replies keep their number of lines (1..9), by a simulation of the two sessions. C71_headers_partial: the same for commands under any headers, on an adapter whose answers depend on the header in force, provided no two commands with different headers are the same request (exactly what C71_refuted violates) and AT SH is acknowledged."
  },
  {
   "property": "C72",
   "status": "proved",
   "theorems": [
    "Props.C72_check_engine"
   ],
   "note": ""
  },
  {
   "property": "C73",
   "status": "partial",
   "theorems": [
    "Props.C73_partial",
    "Props.C73_refuted"
   ],
   "note": "False of the code: digits 0, 1 and 2 at the ends of a VIN are stripped (C73_refuted: a car with a US VIN). C73_partial: exactly the VIN without these digits is returned, hence the VIN itself if it has none there."
  },
  {
   "property": "C74",
   "status": "partial",
   "theorems": [
    "Props.C74_partial",
    "Props.C74_refuted"
   ],
   "note": "False of the code: the decoder looks only at the first message, so the results of a second ECU are lost (C74_refuted). C74_partial: the results of the ECU with the lowest address are all there, and nothing else is."
  },
  {
   "property": "C75",
   "status": "partial",
   "theorems": [
    "Props.C75_any_partial",
    "Props.C75_partial",
    "Props.C75_refuted"
   ],
   "note": "False of the code: mode 02 commands reuse the mode 01 decoders, which take the frame number for the first data byte (C75_refuted: a freeze frame at 100 km/h reads 0). C75_partial: exactly that is what is returned. C75_any_partial: for every mode 02 command (any decoder, any number of data bytes) except the PID listings, the value or exception is that of the mode 01 command of the same PID for a reply with the frame number before the data."
  },
  {
   "property": "C76",
   "status": "partial",
   "theorems": [
    "Props.C76_partial",
    "Props.C76_sturdy",
    "Props.C76_open_escapes",
    "Props.C76_refuted",
    "Props.C76_unplugged_refuted",
    "Props.C76_reply_refuted",
    "Props.C76_ecus_refuted"
   ],
   "note": "False of the code: exceptions while probing baud rates (C76_refuted), a line lost while choosing the protocol (C76_unplugged_refuted), a reply to 0100 the parser fails on (C76_reply_refuted) and ECUs without a set bit (C76_ecus_refuted) escape from the constructor. C76_partial: these and the unexpected exceptions of opening a port or setting its rate are the only causes, with the exception named; C76_sturdy: hence an adapter that stays there and whose replies are well-formed gives an object. C76_partial also says when: the line is lost at the wake-up, at the reset when giving up, at the request of a protocol or the 0100 after it; the reply is the latest one, under the protocol requested last or announced after that."
  },
  {
   "property": "C77",
   "status": "proved",
   "theorems": [
    "Props.C77_status_text",
    "Props.C77_fixed"
   ],
   "note": ""
  },
  {
   "property": "C78",
   "status": "partial",
   "theorems": [
    "Props.C78_exact",
    "Props.C78_partial",
    "Props.C78_refuted",
    "Props.C78_raised_refuted"
   ],
   "note": "False of the code: with cars on two ports the first stays open for ever (C78_refuted), as does the port of a constructor that raises (C78_raised_refuted). C78_exact: exactly one port stays open per attempt but the last; C78_partial: nothing is leaked with an explicit port or a single candidate."
  },
  {
   "property": "C79",
   "status": "proved",
   "theorems": [
    "Props.C79_calls",
    "Props.C79_construct"
   ],
   "note": ""
  },
  {
   "property": "C80",
   "status": "proved",
   "theorems": [
    "Props.C80_stateless"
   ],
   "note": ""
  },
  {
   "property": "C81",
   "status": "partial",
   "theorems": [
    "Props.C81_never_partial",
    "Props.C81_connecting_partial",
    "Props.C81_partial",
    "Props.C81_refuted",
    "Props.C81_start_refuted"
   ],
   "note": "The full statement is false of the code: normal_power() writes a blank line (a space and a carriage return), which an ELM327 takes as 'repeat the last command', so after CLEAR_DTC it erases again (C81_refuted); start_low_power=True does the same with whatever command an earlier session left in the adapter (C81_start_refuted). Proved for constructors without start_low_power: connecting erases nothing, lists of calls without mode 04 (normal_power included) erase nothing, and without normal_power there is at most one erasure per mode 04 query."
  },
  {
   "property": "C82",
   "status": "proved",
   "theorems": [
    "Props.C82_verdict"
   ],
   "note": ""
  },
  {
   "property": "C83",
   "status": "proved",
   "theorems": [
    "Props.C83_available",
    "Props.C83_version",
    "Props.C83_voltage"
   ],
   "note": ""
  },
  {
   "property": "C84",
   "status": "proved",
   "theorems": [
    "Props.C84_asks"
   ],
   "note": ""
  },
  {
   "property": "C85",
   "status": "proved",
   "theorems": [
    "Props.C85_refines",
    "Props.C85_delivered",
    "Props.C85_rpm"
   ],
   "note": ""
  },
  {
   "property": "C86",
   "status": "proved",
   "theorems": [
    "Props.C86_repr",
    "Props.C86_injective",
    "Props.C86_equal"
   ],
   "note": ""
  },
  {
   "property": "C87",
   "status": "proved",
   "theorems": [
    "Props.C87_report",
    "Props.C87_missing"
   ],
   "note": ""
  },
  {
   "property": "C88",
   "status": "proved",
   "theorems": [
    "Props.C88_chunks",
    "Props.C88_async"
   ],
   "note": "low_power() reads until OK, not until the prompt, so the chunks decide how much it reads; it is excluded."
  },
  {
   "property": "C89",
   "status": "partial",
   "theorems": [
    "Props.C89_forced",
    "Props.C89_added",
    "Props.C89_decoder",
    "Props.C89_default_refuted",
    "Props.C89_default_partial"
   ],
   "note": "The first sentence is false of the code (C89_default_refuted): commands compare by bytes and header, so a custom command with those of a supported one is supported at once (C89_default_partial says exactly when); sending nothing otherwise is C45. The rest is proved in full."
  },
  {
   "property": "C90",
   "status": "partial",
   "theorems": [
    "Props.C90_command",
    "Props.C90_print",
    "Props.C90_tests",
    "Props.C90_apart_refuted",
    "Props.C90_apart_partial",
    "Props.C90_alike"
   ],
   "note": "That commands that print alike are equal is false of the code (C90_apart_refuted: header and request are printed without a separator); true for commands with the same header (C90_apart_partial); C90_alike says exactly which print alike. The rest is proved in full."
  },
  {
   "property": "C91",
   "status": "partial",
   "theorems": [
    "Props.C91_one_at_a_time",
    "Props.C91_constructor",
    "Props.C91_async_partial",
    "Props.C91_exclusive_partial",
    "Props.C91_atomic_partial",
    "Props.C91_refuted",
    "Props.C91_exclusive_refuted"
   ],
   "note": "False of the code if the user calls low_power() or normal_power() between start() and stop(): the inherited methods use the port while the loop is waiting for a reply (C91_refuted, C91_exclusive_refuted). Proved for the synchronous connection in full (C91_one_at_a_time, C91_constructor) and for all interleavings of single steps otherwise (C91_async_partial, C91_exclusive_partial, C91_atomic_partial). Model/Fine.lean refines the atomic calls of Model/Async.lean."
  },
  {
   "property": "C92",
   "status": "proved",
   "theorems": [
    "Props.C92_states"
   ],
   "note": ""
  },
  {
   "property": "C93",
   "status": "proved",
   "theorems": [
    "Props.C93_identification"
   ],
   "note": ""
  },
  {
   "property": "C94",
   "status": "proved",
   "theorems": [
    "Props.C94_stable",
    "Props.C94_none",
    "Props.C94_freeze",
    "Props.C94_sensor"
   ],
   "note": ""
  },
  {
   "property": "C95",
   "status": "proved",
   "theorems": [
    "Props.C95_rounds",
    "Props.C95_once",
    "Props.C95_subscribed"
   ],
   "note": ""
  },
  {
   "property": "C96",
   "status": "proved",
   "theorems": [
    "Props.C96_refreshed"
   ],
   "note": ""
  },
  {
   "property": "C97",
   "status": "proved",
   "theorems": [
    "Props.C97_raw",
    "Props.C97_raw_unknown",
    "Props.C97_reparse",
    "Props.C97_query"
   ],
   "note": ""
  },
  {
   "property": "C98",
   "status": "proved",
   "theorems": [
    "Props.C98_status",
    "Props.C98_returns",
    "Props.C98_stays"
   ],
   "note": ""
  },
  {
   "property": "C99",
   "status": "proved",
   "theorems": [
    "Props.C99_subscribed",
    "Props.C99_sensor",
    "Props.C99_states",
    "Props.C99_check_engine",
    "Props.C99_trouble_codes"
   ],
   "note": ""
  },
  {
   "property": "C100",
   "status": "proved",
   "theorems": [
    "Props.C100_float",
    "Props.C100_reading",
    "Props.C100_voltage",
    "Props.C100_ignition",
    "Props.C100_garbage"
   ],
   "note": ""
  },
  {
   "property": "C101",
   "status": "proved",
   "theorems": [
    "Props.C101_engine"
   ],
   "note": ""
  },
  {
   "property": "C102",
   "status": "partial",
   "theorems": [
    "Props.C102_ends_partial",
    "Props.C102_only",
    "Props.C102_ends_refuted"
   ],
   "note": "Refuted: __read has no bound on time or size; an adapter that babbles without a prompt and without a pause blocks the call for ever (and the buffer grows). Partial: with the first read that fails, is empty or completes the marker the loop ends, with exactly the bytes so far; C102_only: for no other reason, and Model.readLoop, on which all other theorems rest, gives the same outcome."
  },
  {
   "property": "C103",
   "status": "partial",
   "theorems": [
    "Props.C103_partial",
    "Props.C103_refuted"
   ],
   "note": "Refuted: the bits are read from the wrong end. Partial, exact: every sensor is reported once, but in the place of its mirror image (bank 1 sensor 1 as bank 2 sensor 4), and AUX_INPUT_STATUS is bit A7. (Also, the example in docs/Responses.md, value[1][2] for sensor 2, counts sensors from 1 while the tuple starts at 0.)"
  },
  {
   "property": "C104",
   "status": "proved",
   "theorems": [
    "Props.C104_quiet",
    "Props.C104_silent",
    "Props.C104_ends"
   ],
   "note": ""
  },
  {
   "property": "C105",
   "status": "proved",
   "theorems": [
    "Props.C105_text",
    "Props.C105_ascii",
    "Props.C105_encoded",
    "Props.C105_noise",
    "Props.C105_lines",
    "Props.C105_command"
   ],
   "note": ""
  },
  {
   "property": "C106",
   "status": "proved",
   "theorems": [
    "Props.C106_codes",
    "Props.C106_pair",
    "Props.C106_banks",
    "Props.C106_bytes",
    "Props.C106_bits",
    "Props.C106_plain",
    "Props.C106_monitor"
   ],
   "note": "Spec/PyValue reads displays and literals as the Python language reference defines them. A readiness Status has no __str__ of its own and prints as an address: no claim about it."
  },
  {
   "property": "C107",
   "status": "partial",
   "theorems": [
    "Props.C107_messages",
    "Props.C107_refuted",
    "Props.C107_replies_partial",
    "Props.C107_same_partial"
   ],
   "note": "Refuted: Frame has no __eq__, so the lists of frames compare by identity and the same reply parsed twice gives different messages. Partial, exact: within one reply a message equals itself only (C107_same_partial), messages of two replies never compare equal (C107_replies_partial). C107_messages: the model with object identities gives the messages of Proto.call."
  },
  {
   "property": "C108",
   "status": "partial",
   "theorems": [
    "Props.C108_partial",
    "Props.C108_before_close",
    "Props.C108_passed_back",
    "Props.C108_refuted",
    "Props.C108_refuted_unplugged"
   ],
   "note": "The full statement is false of the code: ISO 9141-2 has another name than documented (C108_refuted), and after a close() that raised because the adapter was unplugged both functions raise AttributeError (C108_refuted_unplugged). C108_partial: in every reachable state the pair is a row of the (corrected) table exactly as the status says; C108_before_close: until close() is called both can be read and never change; C108_passed_back: the number is one the constructor knows."
  },
  {
   "property": "C109",
   "status": "partial",
   "theorems": [
    "Props.C109_obd_partial",
    "Props.C109_elm_partial",
    "Props.C109_last_partial",
    "Props.C109_refuted"
   ],
   "note": "The full statement is false of the code: a reply to ATDPN of two lines makes a car that has answered count as not connected (C109_refuted). Proved: the exact dialogue behind OBD_CONNECTED and ELM_CONNECTED (C109_obd_partial, C109_elm_partial) and that the last thing said was UNABLE TO CONNECT, a low voltage, or a reply to ATDPN that is not one line (C109_last_partial)."
  }
 ]
}