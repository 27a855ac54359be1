#!/usr/bin/env python3
"""Source of /verif/properties.jsonl (run: python3 tools/properties.py > properties.jsonl)."""
import json
P = []
def p(id_, title, statement, quantifier, why, *anchors):
    P.append(dict(id=id_, title=title, statement=statement, quantifier=quantifier,
                  why_tests_cant=why, anchors=list(anchors)))

# ---------------------------------------------------------------- utilities
p("C01", "Big-endian integers decode exactly",
  "bytes_to_int(bs) is the big-endian value of bs: it is the unique n < 256^len(bs) whose big-endian encoding on len(bs) bytes is bs; every n < 256^k is recovered from its k-byte encoding, and two different byte strings of the same length never give the same integer.",
  "every byte string of every length, every integer and every width",
  "The set of byte strings is unbounded; a weight that is wrong only from the third or fourth byte on passes every 1- and 2-byte test.",
  "obd/utils.py:bytes_to_int")
p("C02", "Hex rendering is lossless",
  "bytes_to_hex(bs) has exactly two lowercase hex digits per byte, and parsing it back with unhexlify returns bs; Message.hex() therefore identifies the message data.",
  "every byte string of every length",
  "Zero padding bugs only show for bytes below 0x10 in particular positions; no finite sample covers all strings.",
  "obd/utils.py:bytes_to_hex", "obd/protocols/protocol.py:Message.hex")
p("C03", "Two's complement is exact",
  "For every width n >= 1 and every v < 2^n, twos_comp(v, n) lies in [-2^(n-1), 2^(n-1)) and is congruent to v modulo 2^n.",
  "every width and every value of that width",
  "The boundary moves with the width; tests fix one width (8 or 16).",
  "obd/utils.py:twos_comp")
p("C04", "BitArray is a faithful view of the bytes",
  "For any bytes, BitArray has 8 bits per byte, bit k is bit (7 - k mod 8) of byte k div 8, any index outside the array reads False, the numbers of set and cleared bits add up to the length, value(start, stop) is the big-endian integer of the selected bits, a slice (with any bounds, negative, missing or past the end, and any step) holds exactly the selected bits in order, and iterating gives all of them.",
  "every byte string, every index (including negative and past the end) and every slice",
  "Offsets and padding interact for every byte value and index; tests only check a handful of 1 and 4-byte arrays.",
  "obd/utils.py:BitArray")
p("C05", "The contiguity check accepts exactly the complete runs",
  "contiguous(l, s, e) is True exactly when l is the non-empty list s, s+1, ..., e.",
  "every list of integers and every pair of bounds",
  "The check is the only defence against lost frames; it must be right for lists of any length, with duplicates and gaps anywhere.",
  "obd/utils.py:contiguous")
# ---------------------------------------------------------------- CAN
p("C06", "Single-frame CAN replies are recovered exactly",
  "Under any CAN protocol (11 or 29 bit identifiers), if an ECU answers with a single frame carrying any payload of 1 to 7 bytes that is not a mode-03 reply, with any padding up to the 8-byte limit and any spacing of the hex text, the parser returns exactly one message from that ECU whose data is that payload.",
  "every CAN protocol, ECU identifier, payload, padding and spacing",
  "256^7 payloads times paddings and text layouts.",
  "obd/protocols/protocol_can.py:CANProtocol.parse_frame", "obd/protocols/protocol_can.py:CANProtocol.parse_message", "obd/protocols/protocol.py:Protocol.__call__")
p("C07", "Segmented CAN replies of any length are reassembled exactly",
  "If an ECU sends any payload of 8 to 4095 bytes (not a mode-03 reply) as a first frame and consecutive frames with 4-bit sequence numbers that roll over, received in order, the parser returns one message whose data is exactly that payload, however many times the sequence number wraps.",
  "every payload of every length the 12-bit length code can announce, every identifier width, every padding of the last frame",
  "The wrap-around branch is marked untested in the source; lengths up to 4095 need 585 consecutive frames and 36 wraps.",
  "obd/protocols/protocol_can.py:CANProtocol.parse_message")
p("C08", "Reassembly does not depend on the arrival order of CAN frames",
  "A segmented reply is reassembled to the same payload whatever the order in which its first and consecutive frames arrive.",
  "every payload and every permutation of its frames",
  "There are n! orders; the tests shuffle a 4-frame message four times.",
  "obd/protocols/protocol_can.py:CANProtocol.parse_message")
p("C09", "A segmented CAN reply with missing or repeated frames is never delivered",
  "If any frame of a segmented reply is lost, duplicated or replaced, no message is delivered for that reply; in particular a delivered message always has the length announced by its first frame.",
  "every payload, every subset of lost frames and every duplication",
  "Exponentially many loss patterns; the test-suite removes one frame at a time and skips the last one.",
  "obd/protocols/protocol_can.py:CANProtocol.parse_message", "obd/utils.py:contiguous")
p("C10", "Every delivered CAN message is explained by its frames",
  "Whatever lines are received, the data of a delivered CAN message is either the announced number of payload bytes of one single frame, or a prefix, of at most the announced length, of the first frame's payload followed by the payloads of all consecutive frames of the same ECU in increasing sequence order numbered 1..n without gap - additionally cut to the announced DTC count for mode 03; it is never empty. Which frames are put together, and to what, is determined: the ECU has a message exactly if its frames are a single frame, or one first frame and consecutive frames taken (each relative to its predecessor) for 1..n.",
  "every list of input lines, well-formed or not",
  "It is a soundness statement about arbitrary, also malicious, input.",
  "obd/protocols/protocol_can.py:CANProtocol.parse_message", "obd/protocols/protocol.py:Protocol.__call__")
p("C11", "ECUs do not interfere with each other",
  "The message produced for one ECU depends only on the lines that ECU transmitted and their relative order: interleaving lines of other ECUs or adapter chatter anywhere changes nothing. At most one message per transmitter is produced, in increasing transmitter order.",
  "every protocol, every set of lines and every interleaving",
  "The number of interleavings is combinatorial and content-dependent.",
  "obd/protocols/protocol.py:Protocol.__call__")
p("C12", "Adapter text is preserved verbatim",
  "Every line that is not pure hex (NO DATA, CAN ERROR, 12.3V ...) is returned as its own message, after all ECU messages and in arrival order, with the raw text unchanged, no data bytes and the ECU tag UNKNOWN; no such line is ever mixed into an ECU message.",
  "every list of lines under every protocol",
  "Must hold for arbitrary text, including text that is almost hex.",
  "obd/protocols/protocol.py:Protocol.__call__", "obd/utils.py:isHex")
p("C13", "Malformed hex lines have no effect",
  "A hex line that is not a frame of the protocol (odd number of digits, too short, too long, unknown or empty PCI) is ignored: deleting it from the input changes neither the messages nor whether the parse succeeds.",
  "every list of lines, every position of the malformed lines",
  "Tests give the parser only the bad line, never mixtures.",
  "obd/protocols/protocol_can.py:CANProtocol.parse_frame", "obd/protocols/protocol_legacy.py:LegacyProtocol.parse_frame")
p("C14", "Parsing never raises",
  "Whatever lines the adapter returns, turning them into messages does not raise an exception.",
  "every protocol and every list of lines",
  "Adapters emit arbitrary text; the failing inputs are isolated points of an infinite space.",
  "obd/protocols/protocol.py:Protocol.__call__", "obd/protocols/protocol_can.py:CANProtocol.parse_message", "obd/protocols/protocol_legacy.py:LegacyProtocol.parse_message")
p("C15", "CAN mode-03 replies are cut to the announced number of codes",
  "When the reassembled CAN data starts with 43 and announces k codes, the delivered data is the first 2 + 2k bytes (or everything, if shorter), so padding after the last code never reaches the DTC decoder.",
  "every payload, code count and padding, single and multi-frame",
  "Count, padding and segmentation vary independently.",
  "obd/protocols/protocol_can.py:CANProtocol.parse_message")
# ---------------------------------------------------------------- legacy
p("C16", "Legacy single-line replies are recovered exactly",
  "Under each of the five legacy protocols a line with 3 header bytes, 2 to 7 data bytes and a checksum byte yields one message from the ECU in the third header byte whose data is exactly those data bytes (for mode 03: 43 00 followed by the bytes after the mode byte).",
  "every legacy protocol, header, payload and checksum",
  "Unbounded combinations of header and payload bytes.",
  "obd/protocols/protocol_legacy.py:LegacyProtocol")
p("C17", "Legacy multi-line replies are reassembled in any order",
  "If an ECU sends 2 to 255 numbered lines of a reply, the reassembled data is the mode and PID bytes followed by the payloads in numeric order, for every arrival order.",
  "every number of lines, payload and permutation",
  "n! orders for every n.",
  "obd/protocols/protocol_legacy.py:LegacyProtocol.parse_message")
p("C18", "A legacy multi-line reply with missing, repeated or foreign lines is never delivered",
  "If the lines received from an ECU are of different modes, or their order bytes are not exactly 1..n, no message is delivered for it; in particular losing any line of a multi-line reply drops the reply.",
  "every list of lines and every loss or duplication pattern",
  "Exponentially many patterns; the test-suite skips the loss of the last line.",
  "obd/protocols/protocol_legacy.py:LegacyProtocol.parse_message")
p("C19", "Legacy DTC lines are accumulated in arrival order",
  "Mode-03 lines of one ECU are concatenated in arrival order without their mode bytes behind a 43 00 prefix, without reordering, loss or duplication.",
  "every number of lines and payloads",
  "Tests use two lines.",
  "obd/protocols/protocol_legacy.py:LegacyProtocol.parse_message")
# ---------------------------------------------------------------- ECU map
p("C20", "The engine is always found",
  "After connecting, if at least one ECU answered the 0100 request with data then an answering ECU is tagged ENGINE: the one with the standard engine address if it answered, the only one if there is only one, otherwise one announcing the largest number of PIDs.",
  "every set of answers to 0100 under every protocol",
  "Depends on the number of ECUs, their addresses and bit counts, and ties.",
  "obd/protocols/protocol.py:Protocol.populate_ecu_map", "obd/protocols/protocol.py:Protocol.__init__")
p("C21", "Messages are tagged with the connect-time ECU map",
  "After connecting, every ECU message carries the tag assigned to its transmitter at connect time, UNKNOWN for transmitters that were neither seen then nor have a standard address; parsing never changes the map.",
  "every 0100 answer and every later list of lines",
  "History-dependent.",
  "obd/protocols/protocol.py:Protocol.__call__")
# ---------------------------------------------------------------- commands
p("C22", "A command only sees messages of its ECUs",
  "The response of a command contains exactly the messages whose ECU tag is in the command's ECU filter, in order; if there are none the decoder is not called and the response is null.",
  "every command (built-in or custom), every filter value and every list of messages",
  "All filter/tag combinations and message lists.",
  "obd/OBDCommand.py:OBDCommand.__call__")
p("C23", "Decoders get the number of bytes they were promised",
  "For a command declaring n > 0 bytes, every message handed to the decoder (built-in or custom) has exactly n data bytes: the received bytes cut to n, or followed by zeros; with n = 0 the data is unchanged.",
  "every command, every message list",
  "Must hold for messages shorter, equal and longer, several at once.",
  "obd/OBDCommand.py:OBDCommand.__call__")
p("C24", "Commands compare by what they send",
  "Two commands are equal exactly when their command bytes and headers are equal, equal commands hash equally, and a clone is equal to its original; supports(), watch lists and per-command bookkeeping therefore treat re-created commands as the same.",
  "every pair of commands",
  "Custom commands are arbitrary.",
  "obd/OBDCommand.py:OBDCommand.__eq__", "obd/OBDCommand.py:OBDCommand.__hash__", "obd/OBDCommand.py:OBDCommand.clone")
p("C25", "Mode and PID are read off the command bytes",
  "For a command made of hex digits mode is the value of its first two digits and pid the value of the rest (None if there is no rest); for any other ASCII command, such as an AT command, both are None.",
  "every command byte string",
  "Arbitrary custom command strings.",
  "obd/OBDCommand.py:OBDCommand.mode", "obd/OBDCommand.py:OBDCommand.pid")
p("C26", "The command tables are self-consistent",
  "For every mode m and PID p with has_pid(m, p), commands[m][p] is a command whose mode is m and whose PID is p (or has no PID, p being 0), every mode-02 command is the mode-01 command of the same PID with the mode changed and the same decoder and size except that PID listings are dropped, no two table commands are equal or share a name, and has_pid never raises and is False outside the tables.",
  "every pair of integers (mode, pid), every pair of table entries",
  "has_pid ranges over all integers; the whole-table facts are finite but are checked here for every pair.",
  "obd/commands.py:Commands")
# ---------------------------------------------------------------- decoders
p("C27", "No vehicle reply can crash a built-in decoder",
  "For every command in the tables and every non-empty list of messages left after the ECU filter and size adjustment, decoding returns a value (possibly None) and does not raise.",
  "every table command and every list of message contents",
  "Reserved encodings occur on real cars; the input space is all byte strings.",
  "obd/decoders.py", "obd/commands.py", "obd/OBDCommand.py:OBDCommand.__call__")
p("C28", "Decoded sensor values stay in their documented ranges",
  "Each scalar sensor command returns a value within the range documented beside its decoder (percent 0..100, centered percent -100..<100, temperature -40..215, voltages 0..1.275 and 0..8, pressures, timing advance -64..63.5, injection timing, fuel rate, ...), in floating point as computed.",
  "every reply content for every such command",
  "All byte values and lengths, including IEEE rounding at the range ends.",
  "obd/decoders.py")
p("C29", "Decoded sensor values follow the raw reading",
  "Each scalar sensor decoder is strictly increasing in the raw reading: a larger raw value never decodes to a smaller or equal quantity, so readings can be compared and no two raw readings are confused, despite floating-point rounding.",
  "every pair of raw readings, for every scalar decoder",
  "Monotonicity over all pairs, under rounding.",
  "obd/decoders.py")
p("C30", "Units-and-scaling conversions are the stated linear map",
  "For every Units-And-Scaling ID, the decoded magnitude is scale times the unsigned or two's complement big-endian reading plus offset (up to IEEE rounding of those two operations), with the unit of the table, for data of 1 to 127 bytes (more would overflow a float); unsigned IDs without offset never decode to a negative value and signed IDs decode the reading 0x8000.. to the most negative value.",
  "every ID in the table and every byte string up to 127 bytes",
  "About 100 IDs times all byte strings of all lengths.",
  "obd/UnitsAndScaling.py:UAS", "obd/UnitsAndScaling.py:UAS_IDS", "obd/decoders.py:decode_uas")
p("C31", "Trouble codes are decoded without confusion",
  "Decoding a 2-byte trouble code gives a 5-character code: system letter P, C, B or U from the top two bits, a digit 0-3 from the next two, then the remaining three hex digits; two different byte pairs never give the same code, and only 00 00 (padding) gives none.",
  "all byte pairs; every data length",
  "Tests check three codes.",
  "obd/decoders.py:parse_dtc", "obd/decoders.py:single_dtc")
p("C32", "A DTC reply lists exactly the codes that were sent",
  "GET_DTC returns, in order, the code of every non-zero byte pair of every answering ECU, ignoring padding and a trailing odd byte; codes of one ECU do not depend on what other ECUs sent.",
  "every list of messages with every payload",
  "Arbitrary numbers of ECUs, codes and paddings.",
  "obd/decoders.py:dtc")
p("C33", "Known trouble codes come with their description",
  "For every code in python-OBD's description table, receiving the two bytes that denote this code returns the description of the table.",
  "every entry of the 2066-entry table",
  "Tests look at a single code.",
  "obd/decoders.py:parse_dtc", "obd/codes.py:DTC")
p("C34", "The status reply is decoded bit by bit",
  "For any 4-byte status reply A B C D: MIL is the top bit of A, DTC_count its low seven bits, the ignition type bit 3 of B; each monitor of that ignition type reports available iff its bit in C (B for the three base monitors) is set and complete iff its bit in D (high nibble of B) is clear; monitors of the other ignition type report unavailable and incomplete.",
  "every reply content, including short replies",
  "2^32 replies.",
  "obd/decoders.py:status", "obd/OBDResponse.py:Status")
p("C35", "Monitor replies are decoded test by test",
  "A mode-06 reply is cut into 9-byte blocks (an incomplete last block is ignored); each block with a known units ID yields the test with its TID and value, min and max decoded with that unit; blocks with unknown units yield nothing; every standard test stays accessible, null if absent; a repeated TID keeps the last result; a test is passed iff min <= value <= max.",
  "every reply content of every length",
  "Arbitrary number and content of blocks.",
  "obd/decoders.py:monitor", "obd/decoders.py:parse_monitor_test", "obd/OBDResponse.py:Monitor")
p("C36", "Enumerated replies map to their table entry or None",
  "Fuel status, secondary air status, OBD compliance, fuel type, O2 sensor maps and the auxiliary input (the bits from the most significant on, see C103) report exactly the table entry selected by the reply; a value outside the table gives None (or an empty string for one fuel system) and never a wrong entry.",
  "every reply content",
  "All byte values, including reserved ones.",
  "obd/decoders.py:fuel_status", "obd/decoders.py:air_status", "obd/decoders.py:obd_compliance", "obd/decoders.py:fuel_type", "obd/decoders.py:o2_sensors", "obd/decoders.py:o2_sensors_alt", "obd/decoders.py:aux_input_status")
p("C37", "The VIN is returned as sent",
  "Querying the VIN of a car that sends a 17-character VIN returns exactly those 17 characters.",
  "every VIN",
  "The set of VINs is astronomically large; the test uses one.",
  "obd/decoders.py:decode_encoded_string", "obd/commands.py:VIN")
p("C38", "Calibration verification numbers are returned completely",
  "The CVN command returns the hex digits of exactly the CVN bytes that the car sent.",
  "every CVN value",
  "2^32 values; the test uses one.",
  "obd/decoders.py:cvn")
# ---------------------------------------------------------------- ELM327
p("C39", "Serial input is split into clean lines",
  "Whatever bytes arrive, in whatever chunks, the lines obtained from the adapter contain no carriage return, line feed or NUL, no leading or trailing blanks, are in order of arrival, and do not depend on how the bytes were split into chunks before the prompt; the prompt itself is not part of a line when it ends the reply.",
  "every byte stream and every chunking",
  "Chunk boundaries are timing-dependent.",
  "obd/elm327.py:ELM327.__read")
p("C40", "A lost device is noticed once and for all",
  "If any read or write fails while talking to the adapter, status() reports NOT_CONNECTED from then on, the port is closed, no later call (query, low_power, normal_power) writes to it again, and later queries return null responses; the status never returns to a connected value.",
  "every device behaviour, every failure point and every later history of calls",
  "Every I/O operation is a possible failure point in every call history.",
  "obd/elm327.py:ELM327.__write", "obd/elm327.py:ELM327.__read", "obd/elm327.py:ELM327.send_and_parse", "obd/obd.py:OBD.query")
p("C41", "CAR_CONNECTED means the car answered",
  "If a connection ends up CAR_CONNECTED, then the adapter acknowledged echo off, headers on and linefeeds off, the voltage (if checked) was at least 6 V, and the car answered the 0100 request under the chosen protocol.",
  "every adapter behaviour during connection setup",
  "All scripts of adapter replies.",
  "obd/elm327.py:ELM327.__init__", "obd/elm327.py:ELM327.manual_protocol", "obd/elm327.py:ELM327.auto_protocol")
p("C42", "The protocol in use is the one requested or announced",
  "With an explicit protocol the connection either uses that protocol or fails, and an unknown ID is rejected without talking to the car; in automatic mode it uses the protocol announced by the adapter if it is supported, else the first in the documented order that does not report UNABLE TO CONNECT; protocol_id() reports it.",
  "every protocol argument and adapter behaviour",
  "All reply scripts, including garbage.",
  "obd/elm327.py:ELM327.set_protocol", "obd/elm327.py:ELM327.manual_protocol", "obd/elm327.py:ELM327.auto_protocol")
p("C43", "Baud detection picks the first responsive rate",
  "Automatic baud detection tries the six rates in order, stops at the first one whose reply ends with the prompt and leaves the port at that rate with its original timeout; it reports failure only if no rate answered.",
  "every device behaviour at every rate",
  "All reply patterns per rate.",
  "obd/elm327.py:ELM327.auto_baudrate")
p("C44", "Low-power mode is left before a command is sent",
  "After the adapter acknowledged low power, the next query that sends anything starts with exactly one wake-up write, and no further wake-up is sent until low power is entered again. low_power() does not wait for a prompt: it returns with the first chunk that completes an OK.",
  "every history of low_power, normal_power and queries",
  "History-dependent.",
  "obd/elm327.py:ELM327.low_power", "obd/elm327.py:ELM327.normal_power", "obd/elm327.py:ELM327.send_and_parse")
# ---------------------------------------------------------------- OBD
p("C45", "Nothing is sent unless it should be",
  "query() writes nothing to the adapter and returns a null response when there is no connection, or when the command is not supported and force is not given.",
  "every connection state, command and history",
  "State-dependent; must hold in every reachable state.",
  "obd/obd.py:OBD.query", "obd/obd.py:OBD.test_cmd")
p("C46", "Without fast mode the command is sent unaltered",
  "With fast=False, every query of every command writes exactly the command's bytes followed by a carriage return as its last write, whatever was queried before.",
  "every history of queries and device replies",
  "History-dependent.",
  "obd/obd.py:OBD.query", "obd/obd.py:OBD.__build_command_string")
p("C47", "Repeating with a carriage return repeats the right command",
  "When a query sends only a carriage return, the last command the adapter received before was the command being queried.",
  "every history of queries, header changes and power-mode calls",
  "The failing histories need two commands with different headers or a power-mode call in between.",
  "obd/obd.py:OBD.__build_command_string", "obd/obd.py:OBD.__set_header", "obd/elm327.py:ELM327.low_power")
p("C48", "The response-count suffix is a valid single digit",
  "In fast mode the only alteration to a non-repeated command is one trailing hex digit 1..F equal to the number of response lines seen for that command the first time.",
  "every history of replies",
  "Needs replies with no line at all or with ten or more lines.",
  "obd/obd.py:OBD.__build_command_string", "obd/obd.py:OBD.query")
p("C49", "A command is only sent under its own header",
  "Whenever the command string of a query is written, the last header acknowledged by the adapter is the command's header (7E0 initially).",
  "every history of queries and adapter replies to AT SH",
  "Depends on the reply to the header change at every point of the history.",
  "obd/obd.py:OBD.__set_header", "obd/obd.py:OBD.query")
p("C50", "Supported commands are exactly those the car announced",
  "After connecting, supported_commands consists of the base commands and the table commands whose PID bit was set in a reply to a PID listing command that was itself supported (mode-02 commands following mode 01), and nothing else.",
  "every reply to the PID listing commands",
  "2^32 replies for each of the listing commands.",
  "obd/obd.py:OBD.__load_commands", "obd/commands.py:Commands.pid_getters")
p("C51", "Automatic port selection keeps the first working adapter",
  "With no port given, the ports are tried in order and the connection uses the first one on which an ELM327 answers.",
  "every list of ports and every outcome on each port",
  "Needs several serial ports with different outcomes.",
  "obd/obd.py:OBD.__connect", "obd/utils.py:OBDStatus")
p("C52", "close() always succeeds and leaves a closed connection",
  "close() returns normally, after it status() is NOT_CONNECTED, no command is supported, port_name(), protocol_id() and protocol_name() are empty, and a second close() does nothing.",
  "every state and device behaviour, including an unplugged device",
  "The failing case needs the device to disappear between the last query and close().",
  "obd/obd.py:OBD.close", "obd/elm327.py:ELM327.close")
p("C53", "query() never raises because of the adapter",
  "Whatever the adapter sends, and whenever it is unplugged, query() of a built-in command returns a response and does not raise.",
  "every device behaviour and every history",
  "Failure points are everywhere in the call.",
  "obd/obd.py:OBD.query", "obd/elm327.py:ELM327.send_and_parse")
# ---------------------------------------------------------------- Async
p("C54", "The watch list is frozen while the loop runs",
  "While the update loop is running, watch, unwatch and unwatch_all change nothing, so the loop never fails because the list changes under it.",
  "every history of Async calls and every interleaving with the update loop",
  "Interleavings.",
  "obd/asynchronous.py:Async.watch", "obd/asynchronous.py:Async.unwatch", "obd/asynchronous.py:Async.unwatch_all", "obd/asynchronous.py:Async.run")
p("C55", "Async.query returns the latest value of a watched command",
  "For a watched command query() returns the last response the update loop obtained for it since it was watched (a null response if none), and for any other command a null response; it never talks to the adapter.",
  "every history of watch/unwatch calls and loop iterations",
  "History-dependent.",
  "obd/asynchronous.py:Async.query", "obd/asynchronous.py:Async.run")
p("C56", "Callbacks fire once per new value, in subscription order",
  "Each time the loop stores a new response for a command, every callback subscribed for it is called exactly once with that response, in subscription order, and no other callback is called; subscribing the same callback twice has no effect.",
  "every subscription history and every run of the loop",
  "History-dependent.",
  "obd/asynchronous.py:Async.watch", "obd/asynchronous.py:Async.run")
p("C57", "unwatch(command, callback) removes only that callback",
  "If a callback is given, only that callback is unsubscribed and all others remain live; without a callback the command and all its callbacks are dropped.",
  "every subscription state and every callback",
  "Includes callbacks that are not subscribed.",
  "obd/asynchronous.py:Async.unwatch")
p("C58", "paused() restores the running state",
  "A with-block on paused() stops the loop inside the block and restarts it on exit exactly if it was running on entry, also when blocks are nested.",
  "every nesting of paused blocks around every sequence of calls",
  "Nesting depth and contents are unbounded.",
  "obd/asynchronous.py:Async.__enter__", "obd/asynchronous.py:Async.__exit__")
p("C59", "At most one update thread; stop() is final",
  "Whatever the sequence of start, stop and disconnections, at most one update thread is live, and after stop() returns no query is sent and no callback is called until the next start().",
  "every call history and every interleaving with the update thread",
  "Interleavings.",
  "obd/asynchronous.py:Async.start", "obd/asynchronous.py:Async.stop", "obd/asynchronous.py:Async.run")
p("C60", "stop() always returns",
  "stop() (and paused()) returns normally whatever the update thread is doing: it neither raises nor hangs, as long as callbacks return; start() never raises either.",
  "every interleaving of the caller with the update thread",
  "Needs a disconnect to be noticed by the loop between two statements of stop().",
  "obd/asynchronous.py:Async.stop", "obd/asynchronous.py:Async.run")
# ---------------------------------------------------------------- end to end
p("C61", "Engine speed end to end",
  "On a connection under any supported protocol, if the engine answers an RPM query with bytes A B the response is (256 A + B) / 4 rpm, whatever other ECUs and adapter messages are mixed in.",
  "every protocol, engine address, A, B and surrounding lines from other transmitters",
  "Combination of all layers.",
  "obd/obd.py:OBD.query", "obd/elm327.py:ELM327.send_and_parse", "obd/protocols/protocol.py:Protocol.__call__", "obd/OBDCommand.py:OBDCommand.__call__", "obd/decoders.py:decode_uas")
p("C62", "Only answers to the request are decoded",
  "A non-null response is decoded from a message that answers the command that was sent (mode + 0x40 and the same PID); negative responses (7F ...) give a null response.",
  "every reply to every command",
  "Depends on arbitrary reply contents.",
  "obd/OBDCommand.py:OBDCommand.__call__", "obd/obd.py:OBD.query")
p("C63", "Unconnected objects answer harmlessly",
  "On an object without a connection status() is NOT_CONNECTED, port_name, protocol_id and protocol_name are empty strings, supports() is False and test_cmd() does not raise, for every command.",
  "every way of ending up without a connection, every command",
  "Several failure paths lead there.",
  "obd/obd.py:OBD")
p("C65", "The calibration ID is returned as sent",
  "Querying CALIBRATION_ID of a car that sends one 16-character calibration ID returns exactly those 16 characters.",
  "every calibration ID, under CAN and legacy framing",
  "The set of IDs is astronomically large; the test-suite calls the string decoder directly, without the command's size limit.",
  "obd/decoders.py:decode_encoded_string", "obd/commands.py:CALIBRATION_ID")
p("C64", "The command tables and values are as documented",
  "Every command listed in docs/Command Tables.md exists under its name and at commands[mode][pid], and querying it yields None or a value of the documented type (the unit, a string, the listed texts, a Status with the listed tests, a Monitor with the listed tests, ...), whatever the car sends; the freeze-frame commands likewise; and every command of the tables is documented.",
  "every documented command and every sequence of messages it may be given",
  "The type of the value must be right for every reply; tests decode a few replies per decoder and never compare the tables with the documentation.",
  "docs/Command Tables.md", "docs/Responses.md", "obd/commands.py", "obd/decoders.py")
p("C66", "Commands are found by name, by mode and PID, and by equality",
  "For every string, commands[name] is the table command of that name or raises KeyError, and has_name(name) (the 'in' operator) is True exactly for command names; for every command object, has_command is True exactly if a table command sends the same bytes under the same header; integer keys outside of the table raise IndexError; the base commands exist; len(commands) is the number of commands.",
  "every string, every integer and every command object",
  "The strings, integers and command objects are unlimited in number.",
  "obd/commands.py:Commands")
p("C67", "scan_serial lists the ports that can be opened",
  "On every system, scan_serial returns exactly those candidate ports that can be opened, Bluetooth before USB on Linux, and does not raise.",
  "every platform string, every set of device files, every outcome of opening each of them",
  "The outcome depends on the devices present and the errors they give.",
  "obd/utils.py:scan_serial", "obd/utils.py:try_port")
p("C68", "Stored trouble codes, end to end",
  "When a connected car's ECUs answer the stored-codes request with their codes (in any protocol the library supports, single or multi frame, interleaved, with adapter text in between), query(GET_DTC) returns exactly these codes with their descriptions, ECU by ECU in order of their addresses.",
  "every device, every session history, every protocol, any number of ECUs and codes, every interleaving of their frames",
  "The lines, protocols, ECUs and numbers of codes are unbounded and the layers (adapter, framing, reassembly, filter, decoder) interact.",
  "obd/obd.py:OBD.query", "obd/elm327.py:ELM327.send_and_parse", "obd/decoders.py:dtc", "obd/commands.py:__mode3__")
p("C69", "Pending trouble codes, end to end",
  "The same for query(GET_CURRENT_DTC): the codes the ECUs report as pending are exactly the codes returned.",
  "every device, every session history, every protocol, any number of ECUs and codes",
  "As C68.",
  "obd/obd.py:OBD.query", "obd/decoders.py:dtc", "obd/commands.py:__mode7__", "obd/protocols/protocol_legacy.py:LegacyProtocol.parse_message")
p("C70", "A list of trouble codes means that an ECU answered",
  "If query(GET_DTC) or query(GET_CURRENT_DTC) returns a non-null response, then some ECU answered the request; in particular an empty list means no trouble codes, not that no one answered.",
  "every device, every reachable state of the connection object",
  "What an adapter may send in place of an answer is unbounded.",
  "obd/decoders.py:dtc", "obd/OBDCommand.py:OBDCommand.__call__", "obd/OBDResponse.py:OBDResponse.is_null")
p("C71", "Fast mode only saves time",
  "On an adapter that repeats the last command on a carriage return and obeys response limits, fast=True and fast=False give the same constructor outcome, the same supported commands and the same responses and exceptions for every list of queries.",
  "every such adapter, every car behind it (replies may depend on time), every list of queries",
  "Two whole sessions with different traffic must agree; the adapter's and car's behaviour is unbounded.",
  "obd/obd.py:OBD.query", "obd/obd.py:OBD.__build_command_string", "obd/obd.py:OBD.__load_commands")
p("C72", "Check-engine light, end to end",
  "When the engine of a connected car answers a STATUS query with the bytes A B C D, whatever other ECUs and the adapter say, the response's MIL is bit 7 of A, DTC_count the low seven bits of A, ignition_type by bit 3 of B, and each readiness monitor is available and complete according to its two bits (provided the reply is not one on which the parser fails and no other ECU uses the standard engine address, see C14, C61).",
  "every device, every session history, every protocol, every reply containing the engine's answer, all values of the four bytes",
  "The lines, protocols and histories are unbounded and the layers (adapter, framing, filter, decoder) interact.",
  "obd/obd.py:OBD.query", "obd/decoders.py:status", "obd/OBDResponse.py:Status", "obd/commands.py:__mode1__")
p("C73", "VIN, end to end",
  "When the engine of a connected car answers a VIN query with a 17-character VIN, in the way of CAN or of the older protocols, query(VIN) returns exactly this VIN.",
  "every device, every session history, every protocol, every VIN, every reply containing the engine's answer",
  "As C72; there are 36^17 VINs.",
  "obd/obd.py:OBD.query", "obd/decoders.py:decode_encoded_string", "obd/commands.py:__mode9__")
p("C74", "Monitor tests, end to end",
  "When ECUs of a connected car answer a mode 06 query, every test result that an ECU sends with a known scaling is found in the returned Monitor.",
  "every device, every session history, every monitor command, any number of ECUs and results",
  "The lines, ECUs, results and histories are unbounded.",
  "obd/obd.py:OBD.query", "obd/decoders.py:monitor", "obd/OBDResponse.py:Monitor", "obd/commands.py:__mode6__")
p("C75", "Freeze frame values, end to end",
  "When the engine answers a mode 02 query of a scalar sensor with PID, frame number and data (SAE J1979), the response is the value of the data, as for mode 01.",
  "every device, every session history, every scalar mode 02 command, all frame numbers and data",
  "As C72.",
  "obd/commands.py:__mode2__", "obd/OBDCommand.py:OBDCommand.__call__", "obd/decoders.py")
p("C76", "Creating a connection does not raise",
  "OBD(...) returns an object whatever ports, adapter and car do; trouble shows in status(), not in exceptions.",
  "every device (all failures of opening, baud rate setting, probing, reading and writing; all replies), all arguments",
  "There are unboundedly many adapter behaviours and points at which the line can fail.",
  "obd/obd.py:OBD.__init__", "obd/obd.py:OBD.__connect", "obd/elm327.py:ELM327.__init__", "obd/elm327.py:ELM327.auto_baudrate")
p("C77", "A connection stays what it was",
  "From the return of the constructor until close() is called or the line is lost, status(), port_name(), protocol_id(), protocol_name(), the known ECUs, supports() and test_cmd() do not change, whatever is queried, forced, put to sleep or woken, and whichever calls raise. What status() returns is one of the four documented texts, and comparing the texts compares the states.",
  "every device, every constructor call, every list of calls other than close()",
  "Histories are unbounded.",
  "obd/obd.py:OBD", "obd/elm327.py:ELM327.send_and_parse", "obd/elm327.py:ELM327.low_power")
p("C78", "No serial port is leaked",
  "At any time at most the port in use is open: every other port the library opened has been closed; after close(), a failed connection or a raising constructor none is open.",
  "every device, every list of ports, every constructor call and every history of calls",
  "Histories, port lists and failure points are unbounded.",
  "obd/obd.py:OBD.__connect", "obd/elm327.py:ELM327.close", "obd/elm327.py:ELM327.__init__", "obd/elm327.py:ELM327.__write", "obd/elm327.py:ELM327.__read")
p("C79", "Every call costs a bounded amount of traffic",
  "A call to query(), low_power(), normal_power(), close(), status() or an information method writes at most three lines to the adapter and waits for input at most twelve times per line written; creating a connection writes at most 29 lines per port tried plus 43 and tries at most six baud rates per port, whatever the adapter answers.",
  "every device, every reachable state, every call, every list of ports",
  "Adapters can send anything, including nothing; histories are unbounded.",
  "obd/elm327.py:ELM327.__send", "obd/elm327.py:ELM327.__read", "obd/elm327.py:ELM327.auto_baudrate", "obd/elm327.py:ELM327.auto_protocol", "obd/obd.py:OBD.query")
p("C80", "A response depends on the reply only",
  "Two queries of the same command on connections with the same protocol and the same known ECUs, answered by the same lines, give the same response or the same exception, whatever happened before on each connection, whatever fast mode, headers and frame counts are in force.",
  "every two devices, every two reachable states (hence all pairs of histories), all commands, all replies",
  "Histories and replies are unbounded; a state leaking into a response shows on particular pairs of histories only.",
  "obd/obd.py:OBD.query", "obd/elm327.py:ELM327.send_and_parse", "obd/OBDCommand.py:OBDCommand.__call__", "obd/protocols/protocol.py:Protocol.__call__")
p("C81", "Trouble codes are erased only on request",
  "The car is told to clear its trouble codes (a line 04, or a carriage return repeating it) only by a query of a mode 04 command, at most once per such query; connecting, sleeping, waking up, reading anything else and closing never do.",
  "every device, every constructor call, every list of calls",
  "Fast mode sends blank lines whose meaning depends on the whole history of lines.",
  "obd/obd.py:OBD.query", "obd/obd.py:OBD.__build_command_string", "obd/elm327.py:ELM327.normal_power", "obd/commands.py:__mode4__")
p("C82", "The verdict of a mode 06 test",
  "In a mode 06 reply, a test has passed exactly if the value the car sent lies between the limits it sent, read as SAE J1979 says: signed for scaling IDs 0x80 and above, unsigned below, scaling ID 0x2E as a truth value. A test that was not sent has not passed.",
  "every reply, every test in it, every scaling ID of the standard table, all 2^48 values and limits",
  "Passing depends on scaling factors, offsets, signs and rounding for each of the scaling IDs and every triple of 16 bit numbers.",
  "obd/decoders.py:parse_monitor_test", "obd/decoders.py:monitor", "obd/OBDResponse.py:MonitorTest.passed", "obd/UnitsAndScaling.py:UAS.__call__")
p("C83", "The adapter's own readings are always available",
  "As long as the connection is neither closed nor lost, ELM_VERSION and ELM_VOLTAGE can be queried without force. ELM_VERSION returns the text the adapter replies, line by line; ELM_VOLTAGE the number in the first line, with or without a V, in volts, and a null response if there is none.",
  "every device, every constructor call, every list of calls but close(), every reply",
  "Histories and replies are unbounded.",
  "obd/commands.py:Commands.base_commands", "obd/obd.py:OBD.query", "obd/decoders.py:raw_string", "obd/decoders.py:elm_voltage")
p("C84", "Connecting only asks what it has to",
  "Every line the constructor writes, even if it raises or fails, is one of: reset, echo off, headers on, line feeds off; the wake-up, with start_low_power only; the voltage, with check_voltage only; the choice of a protocol, the requested one only if one was requested; a request for the supported PIDs.",
  "every device, every constructor call",
  "The lines depend on what the adapter answers, and on where it stops answering.",
  "obd/obd.py:OBD.__init__", "obd/obd.py:OBD.__load_commands", "obd/elm327.py:ELM327.__init__", "obd/elm327.py:ELM327.auto_protocol", "obd/elm327.py:ELM327.manual_protocol")
p("C85", "An asynchronous connection is a synchronous one",
  "Whatever the threads and callbacks of an Async object do, its connection is in the state some sequence of synchronous calls leads to: the forced queries of the loop, in the order it made them, the power calls made, and close() only if the user called it. The responses stored are those these queries return, in order, none missing but possibly one about to be stored; every response given to a callback is one of them. Hence what holds of synchronous queries holds of what callbacks get.",
  "every device, every constructor call, every schedule of the threads, every behaviour of the callbacks",
  "Schedules are unbounded, and a response can be lost, duplicated or reordered in particular interleavings only.",
  "obd/asynchronous.py:Async.run", "obd/asynchronous.py:Async.query", "obd/asynchronous.py:Async.stop", "obd/obd.py:OBD.query")
p("C86", "The printed form of a command is source that rebuilds it",
  "For every command, built in or made by the user, repr(command) is a Python expression which, with OBDCommand, ECU and the identity decoder raw_string in scope, evaluates to a command with the same name, description, request, expected length, ECU mask, fast flag and header; so it equals the original. Two commands that print alike differ at most in the decoder.",
  "every command (every name, description, request, header with any characters and bytes), every choice of printable characters",
  "Names, descriptions and requests are arbitrary strings: quotes, backslashes, control characters and characters outside ASCII each take another path through the quoting rules.",
  "obd/OBDCommand.py:OBDCommand.__repr__", "obd/OBDCommand.py:OBDCommand.__eq__")
p("C87", "The printed report of a monitor says what the car reported",
  "The text of a monitor decoded from any mode 06 reply says that there is nothing to report exactly if no result with known scaling was sent; otherwise it has one line for each test ID sent with known scaling, with description, value and verdict of the last such result, and PASSED exactly if the number sent lies between the limits sent. A test looked up by an ID not sent is printed without description and value, as failed.",
  "every reply, every way of printing a value on one line",
  "Replies have any number of results, repeated and unknown ones in any order.",
  "obd/OBDResponse.py:Monitor.__str__", "obd/OBDResponse.py:MonitorTest.__str__", "obd/decoders.py:monitor")
p("C88", "How the adapter's bytes are cut into chunks has no effect",
  "Two adapters that send the same bytes, each reply ended by a prompt, a silence or a break, but in different chunks, cannot be told apart: the constructor has the same outcome, and after any calls except low_power() (which stops reading at OK) every query, normal_power() and close() has the same outcome, sends the same lines and leaves the same object; likewise every step of every thread of an Async connection.",
  "every pair of adapters, every way of cutting, every sequence of calls, every schedule",
  "Chunks depend on the operating system, the driver and timing, and a test sees one way of cutting.",
  "obd/elm327.py:ELM327.__read", "obd/elm327.py:ELM327.__send", "obd/obd.py:OBD", "obd/asynchronous.py:Async")
p("C89", "Custom commands work as documented",
  "A custom command is treated as unsupported until it is added: query() then sends nothing. query(c, force=True) does not depend on the set of supported commands and leaves it alone; after supported_commands.add(c), query(c) has the outcome, the traffic and the after-effects of the forced query. Whatever function the decoder is, it only decides the value: it is called on at least one message, each from an ECU the command listens to and of exactly the declared number of bytes, and its value or exception is that of the query.",
  "every command, decoder function, adapter, state and set of supported commands",
  "Decoders are arbitrary functions written by users and the set of supported commands is open to them.",
  "obd/obd.py:OBD.query", "obd/obd.py:OBD.test_cmd", "obd/OBDCommand.py:OBDCommand.__call__", "docs/Custom Commands.md")
p("C90", "Commands and readiness tests print what they are",
  "str(command) is the request as a bytes literal, behind the header if that is not the engine's, then the description; print_commands() prints one such line for each supported command; two commands that print alike are equal. The text of each readiness test of a status reply gives its name and the availability and completeness bits the car sent.",
  "every command with any bytes and characters, every state, every status reply",
  "Requests, headers and descriptions are arbitrary.",
  "obd/OBDCommand.py:OBDCommand.__str__", "obd/obd.py:OBD.print_commands", "obd/OBDResponse.py:StatusTest.__str__")
p("C91", "One request at a time, also with an update thread",
  "After a line was written to the adapter its reply is read, or the port is closed, before the next line is written (only the blank that wakes the adapter right after opening may be followed at once). This holds for every history of calls, and for an Async connection however single steps of the user's thread, the update thread and the callbacks interleave: at most one thread is in a call to the connection at any time, and each query, power call and close() takes effect as if it happened at once.",
  "every adapter and car, constructor arguments, histories of calls, schedules that interleave single accesses to attributes and to the port",
  "The schedules are unbounded; a test sees one interleaving.",
  "obd/elm327.py:ELM327.__send", "obd/elm327.py:ELM327.close", "obd/asynchronous.py:Async.run", "obd/asynchronous.py:Async.stop", "obd/obd.py:OBD.query", "obd/obd.py:OBD.low_power")
p("C92", "States (fuel type, fuel systems, sensors present, standards), end to end",
  "When the engine of a connected car answers a query of O2_SENSORS, O2_SENSORS_ALT, OBD_COMPLIANCE, AUX_INPUT_STATUS or FUEL_TYPE with the byte A, of FUEL_STATUS with two bytes, or of AIR_STATUS with one byte, whatever other ECUs and the adapter say, the response is what the table says about these bytes (for the O2 sensors and the auxiliary input: their bits from the most significant on, see C103), and None for a value that is not in the table; only an AIR_STATUS byte with one of the upper four bits alone raises IndexError (C36). As in C61 the reply must not be one on which the parser fails and no other ECU may use the standard engine address.",
  "every device, every session history, every protocol, every reply containing the engine's answer, all values of the bytes",
  "Each test decodes one hand-made message; here dialogue, parsing, choice of the ECU and decoding have to agree for all byte values and all surrounding traffic.",
  "obd/obd.py:OBD.query", "obd/decoders.py:fuel_status,air_status,o2_sensors,o2_sensors_alt,aux_input_status,obd_compliance,fuel_type", "obd/protocols/protocol.py:Protocol.__call__")
p("C93", "Calibration ID, CVN and message counts, end to end",
  "When ECUs of a connected car answer a query of CALIBRATION_ID, CVN, CALIBRATION_ID_MESSAGE_COUNT or CVN_MESSAGE_COUNT, the response is about the ECU of the lowest address that says anything, whatever the others send and in whatever order the lines come: its ID (as far as C65 allows), its CVN bytes (as far as C38 allows), its counts.",
  "every device, every session history, every protocol, any number of answering ECUs, all IDs, CVN bytes and counts",
  "Which ECU is reported depends on the interleaving of multi-frame replies of several ECUs; tests decode one message.",
  "obd/obd.py:OBD.query", "obd/decoders.py:decode_encoded_string,cvn,count", "obd/protocols/protocol.py:Protocol.__call__")
p("C94", "The unit of a response depends on the command only",
  "response.unit is None exactly if the response has no value. Two replies to the same command of the tables that have a value have the same unit, whatever the vehicle sent; a freeze frame command has the unit of the command it was made from; the mode 01 sensors have the unit of the standard.",
  "every command of the tables, any two lists of messages, any way pint prints units",
  "A test sees one reply of one command; a decoder could switch units or types with the payload.",
  "obd/OBDResponse.py:OBDResponse.unit", "obd/decoders.py", "obd/commands.py:Commands")
p("C95", "Each round of the update loop asks for every watched command once, in order",
  "With callbacks that do not stop, pause or close the connection and do not change subscriptions once the loop was told to stop: between two sleeps the loop asks for each watched command exactly once, in the order in which they were subscribed, stores the response to each before asking for the next, and sleeps only after the last. The watch list has no command twice. (unwatch(c, callback) with a callback that is not subscribed takes the command off the list, as C57 says.)",
  "every adapter and car, constructor arguments, schedules of threads and callbacks, histories of calls",
  "Rounds are interleaved with arbitrary calls of the user; the number of commands and of rounds is unbounded.",
  "obd/asynchronous.py:Async.run", "obd/asynchronous.py:Async.watch", "obd/asynchronous.py:Async.unwatch")
p("C96", "Watched values keep being refreshed",
  "In every fair run with callbacks as in C95 in which from some point on the user does not stop, pause or close the connection, the connection stays up and no exception of a query or a callback ends the loop, the loop keeps running and for every watched command again and again a new response is stored and all callbacks subscribed for it are called with it.",
  "every adapter and car, infinite fair schedules, every watched command",
  "Liveness: no finite run can show it.",
  "obd/asynchronous.py:Async.run", "obd/asynchronous.py:Async.start", "obd/asynchronous.py:Async.watch")

p("C97", "The raw text of a message is what the adapter printed",
  "raw() of a message of a response is exactly the lines which its transmitter sent in the adapter's reply to the last command sent for that query, without their spaces, in order of arrival (or the one line of adapter text, unchanged); parsing the raw text again gives the same message and nothing else.",
  "every protocol, every list of reply lines, every reachable connection, command and adapter",
  "The reply lines are arbitrary text; lines of several ECUs and adapter chatter may be interleaved in any way.",
  "obd/protocols/protocol.py:Message.raw", "obd/protocols/protocol.py:Protocol.__call__", "obd/obd.py:OBD.query")

p("C98", "A working adapter is given the right status",
  "With an adapter that works as its data sheet says, the status is what is really there: ELM_CONNECTED if the voltage is checked and below 6 V; otherwise CAR_CONNECTED with the requested protocol (or the announced one, or the first in the documented order) if the car can be reached under it; otherwise OBD_CONNECTED (ELM_CONNECTED without voltage check). Without a car the constructor does not raise, and the status stays until close() as long as the adapter does not fail.",
  "every adapter that answers the set-up commands, every car behind it (any reply to 0100 under each protocol), every constructor call, every chunking of the replies, every later list of calls",
  "Completeness over all cars and all ways in which the replies arrive; tests try a few simulated adapters.",
  "obd/elm327.py:ELM327.__init__", "obd/elm327.py:ELM327.auto_protocol", "obd/elm327.py:ELM327.manual_protocol", "obd/obd.py:OBD.__connect", "obd/obd.py:OBD.status")

p("C99", "Callbacks get what the car said",
  "A callback is called only with responses stored for a command it was subscribed to at that time (callbacks as in C56; unwatch as the code has it, see C57). What is stored is what the bytes mean that the engine said in the reply to the loop's query, whatever other ECUs and the adapter say: scalar sensors (C61), states (C92), check-engine light (C72); and exactly the stored trouble codes of all ECUs (C68).",
  "every adapter and car, constructor arguments, schedules of threads and callbacks, histories of calls, all payload bytes",
  "The value passes through the adapter dialogue, the frame parser, the decoder and a concurrent loop; every byte value and interleaving must work.",
  "obd/asynchronous.py:Async.run", "obd/asynchronous.py:Async.watch", "obd/obd.py:OBD.query", "obd/OBDCommand.py:OBDCommand.__call__")

p("C100", "The voltage is the number that the adapter prints",
  "If the adapter answers the voltage request with digits, a point and digits, with or without a V, ELM_VOLTAGE is that number, with the relative error of one rounding to a float at most; an answer with a character that is in no number gives a null response. More generally, the value is what Python's float() makes of the text without V: texts of its documented grammar give the nearest binary64 number (ties to even; an infinity when too large), all others a null response. During the set-up the ignition counts as off exactly if the number printed (with at most ten digits after the point) is below 6.",
  "every text the adapter may print (for the error bound: every decimal number of up to 60 digits before and after the point), every reachable connection, every car behind a working adapter",
  "There are unboundedly many texts; rounding could move a reading across the threshold.",
  "obd/decoders.py:elm_voltage", "obd/elm327.py:ELM327.__init__")

p("C101", "Freeze frame code, lists of PIDs, drive cycle status, end to end",
  "When the engine of a connected car answers FREEZE_DTC with two bytes, the response is the code they denote with its description (P0000 for 00 00, C31); for PIDS_A, PIDS_B, PIDS_C with four bytes, bit k of the response is the bit for the k-th PID of the list; STATUS_DRIVE_CYCLE is decoded like STATUS; MAX_VALUES and EMISSION_REQ, which the library does not decode, give None and never raise. As in C61 the reply must not be one on which the parser fails and no other ECU may use the standard engine address.",
  "every device, every session history, every protocol, every reply containing the engine's answer, all values of the bytes",
  "All byte values under every protocol, mixed with arbitrary other lines.",
  "obd/decoders.py:single_dtc", "obd/decoders.py:pid", "obd/decoders.py:status", "obd/decoders.py:drop", "obd/obd.py:OBD.query")

p("C102", "Waiting for a reply comes to an end",
  "A call that waits for a reply of the adapter returns. (It does as soon as a read fails, gives nothing within the timeout, or completes a text with the end marker, and not before; what was received until then is the reply. An adapter that goes on sending without a prompt and without a pause keeps the call waiting for ever.)",
  "every endless sequence of outcomes of reads from the port, every end marker",
  "Whether a loop ends for every behaviour of a peer that never stops cannot be seen in finitely many runs.",
  "obd/elm327.py:ELM327.__read")

p("C103", "Oxygen sensors present are reported in their place",
  "O2_SENSORS and O2_SENSORS_ALT report sensor s of bank b at value[b][s-1], as SAE J1979 assigns the bits (PID 13: A0 to A3 are bank 1, sensors 1 to 4, A4 to A7 bank 2; PID 1D: A0, A1 bank 1, A2, A3 bank 2, ...), and AUX_INPUT_STATUS is bit A0.",
  "every byte, every set of messages, also the mode 02 counterparts",
  "The sample bytes of the tests are symmetric or follow the code; only the standard tells the assignment, for all 256 values.",
  "obd/decoders.py:o2_sensors", "obd/decoders.py:o2_sensors_alt", "obd/decoders.py:aux_input_status")

p("C104", "A lost connection ends the update loop",
  "Once is_connected() is False it stays False, and whatever the user and callbacks do the update loop makes at most one more query and stores at most one more response; once the line is lost (NOT_CONNECTED) nothing at all is done with the port any more. In every fair run with callbacks as in C95 the loop then ends and is not started again, and the object does not count as running (so that subscriptions can be changed) unless the loop was ended by an exception of a query or a callback.",
  "every adapter, every point at which the connection is lost, every schedule of user, loop and callbacks",
  "The line can be lost at any point of any interleaving, also while start(), stop() or a callback is running; that the loop ends is a liveness property over infinite schedules.",
  "obd/asynchronous.py:run", "obd/asynchronous.py:start", "obd/obd.py:query")

p("C105", "Bytes that are not plain ASCII are read as UTF-8, and noise does no harm",
  "A reply that is any text in UTF-8 is read as that text. Whatever bytes a reply consists of, the ASCII characters read are exactly its ASCII bytes in order, every character read is encoded in the reply, and bytes that are part of no encoded character leave no trace, so that they do not change the lines of an ASCII reply. Asking a command for its mode or PID raises UnicodeDecodeError exactly if it has at least two (three) bytes and is not UTF-8.",
  "every reply and every command, of any bytes and any length",
  "Line noise can put any bytes at any position of a reply of any length.",
  "obd/elm327.py:ELM327.__read", "obd/OBDCommand.py:OBDCommand.mode", "obd/OBDCommand.py:OBDCommand.pid")
p("C106", "Printing a response shows its value",
  "str(response) is Python source for the value where the value is made of strings, truth values and bytes: evaluating the printed list of trouble codes, the printed tuple of a single trouble code, of the fuel systems or of the oxygen sensor banks, or the printed bytearray gives the value back, whatever characters the strings contain. A bit field prints one digit for each bit in order, a text prints as itself, a truth value as True or False, a missing value as None, and a reading as pint prints it. A monitor prints the report of C87.",
  "every response, every list of codes, every string of any characters, every number of banks and bits",
  "Quotes, backslashes and control characters can occur anywhere in strings of any length, and lists have any length.",
  "obd/OBDResponse.py:OBDResponse.__str__", "obd/utils.py:BitArray.__str__", "obd/decoders.py:dtc", "obd/decoders.py:o2_sensors")

p("C107", "Comparing messages tells whether the car answered the same",
  "Two messages compare equal if they have the same text, ECU and data. (They do not: frames compare by identity, so a message equals itself and nothing else; messages of two replies always differ, even for the same lines.)",
  "every protocol, every ECU map, all replies with any number of lines",
  "Equality must hold or fail for all pairs of messages of all replies.",
  "obd/protocols/protocol.py:Message.__eq__", "obd/protocols/protocol.py:Protocol.__call__")
p("C108", "The protocol in use is reported by its documented number and name",
  "On a connection to a car protocol_id() and protocol_name() are a row of the documented table; otherwise both are empty strings, or, after the connection was lost, still the row. The number can be passed back as protocol=. (Two exceptions: protocol 3 is named ISO 9141-2 where the documentation says AUTO, ISO 9141-2; and after a close() that raised, both functions raise AttributeError.)",
  "every adapter, every way of choosing the protocol, every sequence of calls, lines lost at any point",
  "Which protocol is chosen depends on the replies of the adapter, and the connection can be lost or closed at any point.",
  "obd/obd.py:OBD.protocol_id", "obd/obd.py:OBD.protocol_name", "obd/elm327.py:ELM327.protocol_name", "obd/protocols/protocol_legacy.py:SAE_J1850_PWM", "obd/protocols/protocol_can.py:ISO_15765_4_11bit_500k")

p("C109", "ELM_CONNECTED and OBD_CONNECTED mean what the documentation says",
  "OBD_CONNECTED is only reported with the voltage check, if the adapter acknowledged the settings, the voltage was not low and no protocol reached the car; ELM_CONNECTED only if the adapter acknowledged the settings and the voltage was low or, without the voltage check, no protocol reached the car. (The last is not so if the adapter answers ATDPN with anything but one line: the car has answered, but is not connected.)",
  "every adapter behaviour, every constructor call, every list of ports",
  "The adapter can reply anything to any of up to 29 lines.",
  "obd/elm327.py:ELM327.__init__", "obd/elm327.py:ELM327.set_protocol", "obd/elm327.py:ELM327.manual_protocol", "obd/elm327.py:ELM327.auto_protocol")

if __name__ == "__main__":
    for x in P:
        print(json.dumps(x))
