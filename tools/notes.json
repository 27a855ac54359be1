{
 "C08": {
  "note": "The full statement is false of the code (C08_refuted: swapping consecutive frames 15 and 16 loses the reply; C08_refuted_corrupt: exchanging frames 1 and 17 delivers wrong bytes). C08_exactly: an arrival order is harmless for all payloads of a length if and only if the numbers can be tracked along it; hence every order of up to 8 consecutive frames."
 },
 "C09": {
  "note": "The full statement is false of the code (C09_refuted, C09_refuted_corrupt: a lost tail or 16 lost consecutive frames go unnoticed). C09_outcome gives the outcome for every order, loss and repetition; losing the first frame, an inner frame or duplicating one is noticed along trackable orders."
 },
 "C14": {
  "note": "False of the code on CAN (mode-03 reply of one byte) and legacy (short lines in a multi-line reply). Proved: the exact condition for raising, on CAN, legacy and all protocols together (C14_can_exact, C14_legacy_exact, C14_unknown, C14_exact)."
 },
 "C18": {
  "note": "False of the code: losing the tail goes unnoticed (C18_refuted). C18_exact_partial: exactly which sets of lines give a message, and which one; hence mixed modes, wrong order bytes, and losing an inner line are noticed."
 },
 "C20": {
  "note": "The full statement is false of the code (C20_refuted: two answering ECUs, neither with the standard engine address, announcing no PID at all: the constructor raises). C20_raises gives the exact condition; otherwise the rule stated is proved."
 },
 "C27": {
  "note": "False of the code only for AIR_STATUS / DTC_AIR_STATUS with a single reserved bit (IndexError): C27_raises_iff_partial is an exact characterisation over all table commands and replies. Messages are assumed to have at least one frame, which the parser guarantees (C10, C12)."
 },
 "C28": {
  "note": "The full statement is false of the code: evap_pressure goes down to -8224 Pa (C28_refuted), inject_timing up to 301.99, fuel_rate up to 3276.75. Proved for every other scalar sensor; true ranges proved for these three."
 },
 "C29": {
  "note": "The full statement is false of evap_pressure (low byte taken as signed: C29_refuted). Proved for every other scalar sensor."
 },
 "C31": {
  "note": "False of the code: FREEZE_DTC with 00 00 gives P0000 instead of none (C31_refuted). Everything else in the statement is proved."
 },
 "C32": {
  "note": "False of the code when an ECU sends an odd number of code bytes (the odd byte pairs with the next ECU's first byte: C32_refuted). Proved exactly: codes of the concatenation; and the full claim when every ECU sends an even number of bytes."
 },
 "C33": {
  "note": "False of the code for codes containing the hex digits A-F: decoded in lower case, table in upper case (C33_refuted with P0A00). Proved for every entry written with decimal digits (C33_decimal_partial), and that every other code, in the table or not, comes without a description (C33_letters_partial); both for the lists of codes (C33_lists_partial)."
 },
 "C36": {
  "note": "False of the code only for secondary air status with a single reserved bit, which raises IndexError (C36_refuted, exact in C36_air_status_partial). All other enumerated replies proved as stated."
 },
 "C37": {
  "note": "False of the code: a VIN starting or ending with 0, 1 or 2 loses these characters (C37_refuted). Proved: exactly which characters are lost, and that all other VINs are returned as sent, for CAN and legacy layouts."
 },
 "C38": {
  "note": "False of the code: CVN bytes 00 01 02 5C 78 30 31 32 at the ends are lost (C38_refuted), in the legacy layout also ASCII blanks in front, and two or more CVNs are never returned completely (C38_several_refuted). Proved: exactly what is returned for every reply whatsoever (C38_any_partial), for one CVN on CAN (C38_cvn_partial) and in the legacy layout (C38_legacy_partial)."
 },
 "C41": {
  "note": "False of the code in full: CAR_CONNECTED can be reported although the only reply to 0100 was NO DATA (C41_refuted). Proved: the exact meaning of every reported status (C41_partial, C41_port)."
 },
 "C47": {
  "note": "False of the code: after a change of the header (or a wake-up) the carriage return repeats that line, not the command (C47_refuted, C47_refuted_power). Proved: apart from repeats, header changes, wake-ups and ATLP the last command that arrived is the one queried, provided every earlier query returned; hence the full claim whenever none of these lines came in between."
 },
 "C48": {
  "note": "False of the code: the suffix is 0 when the first reply had no lines (C48_refuted) and two decimal digits for ten frames or more (C48_refuted_ten). Proved: the exact forms of what is sent, that the number is the frame count of a reply to this command and at most its number of lines, a single digit up to 9, and that it never changes."
 },
 "C49": {
  "note": "False of the code when the adapter refuses the header: the command is sent all the same (C49_refuted). Proved for every history in which each header change that got through was answered OK. C49_any_partial: on every adapter, the header in force is the command's, or this very query asked for it and the reply was not just OK."
 },
 "C51": {
  "note": "Refuted as stated: the port loop compares statuses as strings ('Not Connected' >= 'ELM Connected'; 'Car Connected' < 'ELM Connected'), so a dead first port stops the search and a port with a car is given up for the next one. Proved: what the loop does for every device and port list (C51_actual), the property for at most one port or an adapter without a car on the first one (C51_partial), and that a port given by the user is the only one used (C51_given)."
 },
 "C52": {
  "note": "Refuted as stated: if the adapter is unplugged before close() writes ATZ, the write handler sets the port to None and close() raises AttributeError. Proved for every reachable object and device: close() either returns a closed object that can be closed again, or raises AttributeError in exactly that situation leaving an unconnected object, or raises IndexError because the reply to setting the header back trips the parser (C52_partial); it succeeds whenever header changes are acknowledged and the reset can be written (C52_succeeds)."
 },
 "C53": {
  "note": "Refuted as stated, twice: a reply that trips the parser (lone byte 43), and the loss of the connection during a header change (TypeError from summing over None). Proved for every reachable object, device and table command: these, and the reserved secondary air status bits of C27, are the only failures (C53_partial); if only table commands were queried, unplugging at any moment never makes a query raise (C53_table_partial), and it raises exactly if its I/O ends with a reply on which the parser or the secondary air decoder fails (C53_table_exact)."
 },
 "C54": {
  "note": "C54_frozen proves the first half for all callbacks. The second half fails when a callback changes subscriptions while stop() is waiting for the loop (C54_refuted: RuntimeError in the update thread); C54_partial covers callbacks that do not."
 },
 "C55": {
  "note": "Fails when a callback calls unwatch_all() while stop() waits (C55_refuted). C55_partial: all histories with polite callbacks in which unwatch(c, cb) is used with subscribed callbacks. C55_any_partial: for all callbacks and histories the answer is null or was stored earlier by the loop for the same command as the result of a query. C55_query_local and C55_source hold in full. C55_exact_partial: as C55_partial, for every use of unwatch (Spec/AsyncActual)."
 },
 "C56": {
  "note": "Fails when a callback unsubscribes itself while stop() is waiting: the list that the loop walks through shrinks and the next callback is skipped (C56_refuted). C56_fired_partial and C56_all_partial: callbacks that do not stop the loop or change subscriptions after it was told to stop, and histories without the C57 defect; no callback that is not due is called, and the loop goes on only when none is due. C56_once holds for all callbacks. C56_exact_partial: the same for every use of unwatch (Spec/AsyncActual)."
 },
 "C57": {
  "note": "Fails for callbacks that are not subscribed: the whole command is dropped (C57_refuted). C57_partial: subscriptions agree with the history whenever unwatch(c, cb) is used with subscribed callbacks. C57_exact_partial: for every argument of unwatch, with the rule of Spec/AsyncActual (an unsubscribed callback drops the command)."
 },
 "C58": {
  "note": "Fails for nested blocks (C58_refuted). C58_partial: one block around any calls that do not start or stop the loop. C58_exact_partial: for every sequence of calls (nested blocks, start and stop inside blocks, watch, query), on a live connection with something watched, running and was-running afterwards are exactly the fold of the four-line specification `switched`. C58_call_partial: the same for every single call except close(), also unwatch and unwatch_all, with nothing watched or something (`switchedBy`); longer sequences are chains of these. C58_bound_partial: every single call, also close(), on any connection, lost meanwhile or not, returning or raising: the loop does not run afterwards, and paused() does not remember a running loop, unless `switchedBy` says so."
 },
 "C60": {
  "note": "Fails if the loop notices a lost connection while stop() runs (C60_refuted: AttributeError). Partial: on a live connection stop()/paused() never raise and, in every fair run, return; on any connection they raise nothing but AttributeError, and only if the loop ended by itself during that very call (C60_raises_partial); start() and the end of a paused() block never raise."
 },
 "C61": {
  "note": "False of the code as stated (C61_refuted: an ECU at the standard engine address that was silent to 0100 but answers 010C is taken for the engine as well; the parser may also fail on a foreign line, C14). Proved for every engine command of the tables, every protocol, single and multi-frame replies and arbitrary surrounding lines, excluding these two causes: the outcome is that of a lone message of the engine; exact value for RPM, rounding-error bound for every scalar sensor except EVAP_VAPOR_PRESSURE (C28)."
 },
 "C62": {
  "note": "False of the code (C62_refuted: the negative response 7F 01 12 to 010C is decoded as 1152 rpm). Proved: every message of a response comes from the reply to this very request and from an ECU the command listens to (C62_fresh), and responses hold answers to the request if those ECUs only send such (C62_partial)."
 },
 "C63": {
  "note": "Refuted as stated: if no port is found, the base commands remain 'supported' and test_cmd of MIDS_A raises AttributeError. Proved: port name, queries, power calls and close() on every unconnected reachable object (C63_partial); objects whose connection attempt failed are closed (C63_failed), and test_cmd is False on closed objects (C63_closed); exactly what protocol_id, protocol_name, supports and test_cmd say if the line was lost (what they said before, C63_lost_partial) or there was no port (C63_no_port_partial)."
 },
 "C64": {
  "note": "False of the code (C64_refuted): five documented mode-09 commands do not exist, VIN and CALIBRATION_ID return bytes instead of a string (C64_bytes_partial), EMISSION_REQ and MAX_VALUES are undocumented. Proved for every other row, for all messages, and for all freeze-frame commands. Spec/DocTable.lean is generated from the documentation by tools/gen_docs.py."
 },
 "C65": {
  "note": "False of the code: on CAN the last character is always lost (declared size 18 counts 16 characters but not the item count), and 0, 1, 2 at the ends are lost (C65_refuted). Proved: exactly what is returned."
 },
 "C66": {
  "note": "len(commands) is not the number of commands (C66_len_refuted: reserved positions are counted, the adapter commands are not; C66_len_partial says what it is). The rest is proved in full. Negative integer keys count from the end, as in Python."
 },
 "C67": {
  "note": "False of the code (C67_refuted): an OSError other than ENOENT on any candidate, e.g. a missing permission, ends the scan with that exception. C67_partial: exactly then; otherwise the result is as stated."
 },
 "C69": {
  "note": "False of the code on the non-CAN protocols (C69_refuted: pending P0104 is reported as P0400, because the legacy parser keeps the mode byte only for mode 03 and the decoder always drops two bytes). C69_partial: proved on CAN. C69_legacy_partial: on the older protocols, exactly which bytes survive and hence which codes are listed."
 },
 "C70": {
  "note": "False of the code (C70_refuted): NO DATA and any other adapter text gives the empty list (C70_text). C70_partial: listed codes come from an ECU's message with more than two bytes; C70_codes_partial: they are exactly the non-zero code pairs in the data of the response's messages after the first two bytes."
 },
 "C71": {
  "note": "False of the code: after a header change the repeat hits AT SH (C71_refuted), and if more ECUs answer than the first time the last are cut off (C71_refuted_late). C71_partial: holds for all queries under header 7E0 whose replies keep their number of lines (1..9), by a simulation of the two sessions. C71_headers_partial: the same for commands under any headers, on an adapter whose answers depend on the header in force, provided no two commands with different headers are the same request (exactly what C71_refuted violates) and AT SH is acknowledged."
 },
 "C73": {
  "note": "False of the code: digits 0, 1 and 2 at the ends of a VIN are stripped (C73_refuted: a car with a US VIN). C73_partial: exactly the VIN without these digits is returned, hence the VIN itself if it has none there."
 },
 "C74": {
  "note": "False of the code: the decoder looks only at the first message, so the results of a second ECU are lost (C74_refuted). C74_partial: the results of the ECU with the lowest address are all there, and nothing else is."
 },
 "C75": {
  "note": "False of the code: mode 02 commands reuse the mode 01 decoders, which take the frame number for the first data byte (C75_refuted: a freeze frame at 100 km/h reads 0). C75_partial: exactly that is what is returned. C75_any_partial: for every mode 02 command (any decoder, any number of data bytes) except the PID listings, the value or exception is that of the mode 01 command of the same PID for a reply with the frame number before the data."
 },
 "C76": {
  "note": "False of the code: exceptions while probing baud rates (C76_refuted), a line lost while choosing the protocol (C76_unplugged_refuted), a reply to 0100 the parser fails on (C76_reply_refuted) and ECUs without a set bit (C76_ecus_refuted) escape from the constructor. C76_partial: these and the unexpected exceptions of opening a port or setting its rate are the only causes, with the exception named; C76_sturdy: hence an adapter that stays there and whose replies are well-formed gives an object. C76_partial also says when: the line is lost at the wake-up, at the reset when giving up, at the request of a protocol or the 0100 after it; the reply is the latest one, under the protocol requested last or announced after that."
 },
 "C78": {
  "note": "False of the code: with cars on two ports the first stays open for ever (C78_refuted), as does the port of a constructor that raises (C78_raised_refuted). C78_exact: exactly one port stays open per attempt but the last; C78_partial: nothing is leaked with an explicit port or a single candidate."
 },
 "C81": {
  "note": "The full statement is false of the code: normal_power() writes a blank line (a space and a carriage return), which an ELM327 takes as 'repeat the last command', so after CLEAR_DTC it erases again (C81_refuted); start_low_power=True does the same with whatever command an earlier session left in the adapter (C81_start_refuted). Proved for constructors without start_low_power: connecting erases nothing, lists of calls without mode 04 (normal_power included) erase nothing, and without normal_power there is at most one erasure per mode 04 query."
 },
 "C88": {
  "note": "low_power() reads until OK, not until the prompt, so the chunks decide how much it reads; it is excluded."
 },
 "C89": {
  "note": "The first sentence is false of the code (C89_default_refuted): commands compare by bytes and header, so a custom command with those of a supported one is supported at once (C89_default_partial says exactly when); sending nothing otherwise is C45. The rest is proved in full."
 },
 "C90": {
  "note": "That commands that print alike are equal is false of the code (C90_apart_refuted: header and request are printed without a separator); true for commands with the same header (C90_apart_partial); C90_alike says exactly which print alike. The rest is proved in full."
 },
 "C91": {
  "note": "False of the code if the user calls low_power() or normal_power() between start() and stop(): the inherited methods use the port while the loop is waiting for a reply (C91_refuted, C91_exclusive_refuted). Proved for the synchronous connection in full (C91_one_at_a_time, C91_constructor) and for all interleavings of single steps otherwise (C91_async_partial, C91_exclusive_partial, C91_atomic_partial). Model/Fine.lean refines the atomic calls of Model/Async.lean."
 },
 "C102": {
  "note": "Refuted: __read has no bound on time or size; an adapter that babbles without a prompt and without a pause blocks the call for ever (and the buffer grows). Partial: with the first read that fails, is empty or completes the marker the loop ends, with exactly the bytes so far; C102_only: for no other reason, and Model.readLoop, on which all other theorems rest, gives the same outcome."
 },
 "C103": {
  "note": "Refuted: the bits are read from the wrong end. Partial, exact: every sensor is reported once, but in the place of its mirror image (bank 1 sensor 1 as bank 2 sensor 4), and AUX_INPUT_STATUS is bit A7. (Also, the example in docs/Responses.md, value[1][2] for sensor 2, counts sensors from 1 while the tuple starts at 0.)"
 },
 "C107": {
  "note": "Refuted: Frame has no __eq__, so the lists of frames compare by identity and the same reply parsed twice gives different messages. Partial, exact: within one reply a message equals itself only (C107_same_partial), messages of two replies never compare equal (C107_replies_partial). C107_messages: the model with object identities gives the messages of Proto.call."
 },
 "C106": {
  "note": "Spec/PyValue reads displays and literals as the Python language reference defines them. A readiness Status has no __str__ of its own and prints as an address: no claim about it."
 },
 "C108": {
  "note": "The full statement is false of the code: ISO 9141-2 has another name than documented (C108_refuted), and after a close() that raised because the adapter was unplugged both functions raise AttributeError (C108_refuted_unplugged). C108_partial: in every reachable state the pair is a row of the (corrected) table exactly as the status says; C108_before_close: until close() is called both can be read and never change; C108_passed_back: the number is one the constructor knows."
 },
 "C109": {
  "note": "The full statement is false of the code: a reply to ATDPN of two lines makes a car that has answered count as not connected (C109_refuted). Proved: the exact dialogue behind OBD_CONNECTED and ELM_CONNECTED (C109_obd_partial, C109_elm_partial) and that the last thing said was UNABLE TO CONNECT, a low voltage, or a reply to ATDPN that is not one line (C109_last_partial)."
 }
}