# Formal model of python-OBD in Lean 4 — design

Source: `/repo` (python-OBD 0.7.3, pinned). Nothing in `/repo` is run; every
definition of the model cites the file and lines it was read from.

## 1. Trusted base

* Lean 4.33.0's kernel. Every property theorem depends at most on `propext`,
  `Classical.choice` and `Quot.sound`; `Verif/Audit.lean` (generated by
  `tools/audit.py` from `MANIFEST.json`) prints the axioms of each of them
  during the build. No axioms are added, no compiled evaluation is used:
  evaluations of concrete tables and demonstration runs use `decide +kernel`,
  i.e. the kernel's own reduction.
* Mathlib is used for lists, orders, rationals and tactics only.
* The reading of the Python source: the model is hand-written; table modules
  (`Model/CommandTable.lean`, `Model/DtcTable.lean`) are generated from the
  *text* of `commands.py` / `codes.py` by `tools/gen_tables.py`, and
  `Spec/DocTable.lean` from the text of `docs/Command Tables.md` by
  `tools/gen_docs.py`.
* Python semantics assumed: see section 3.

## 2. Layout

| directory | content |
|---|---|
| `Verif/Py/` | Python building blocks: exceptions as values, bytes, slices, hex, UTF-8, dicts, stable sort, binary64 rounding, a state-and-exception monad |
| `Verif/Model/` | the model, one module per source file |
| `Verif/Spec/` | small specifications, independent of the model (ISO-TP segmenter, legacy framer, big-endian digits, adapter dialogue, sessions, ...) |
| `Verif/Lemmas/` | helper lemmas |
| `Verif/Props/` | the property theorems `Cxx_...`, each with a non-vacuity example |
| `tools/` | generators of tables, manifest and audit; `mutate.py`, the mutation tester |
| `seeded/LOG.jsonl` | every wrong program that was tried, and what failed |

How a theorem is named: `Cxx_full` is the property as stated in
`properties.jsonl` (a `def ... : Prop`) when it is false of the code,
`Cxx_refuted` proves its negation with a concrete input or device,
`Cxx_..._partial` are the strongest parts that hold. A property with no such
suffix is proved as stated.

## 3. What is modelled, and simplifications

| source | modelled | simplified or left out |
|---|---|---|
| `utils.py` | BitArray, bytes_to_int, bytes_to_hex, twos_comp, isHex, contiguous, OBDStatus (`Model/Utils`); try_port, scan_serial (`Model/Scan`) | the operating system is a parameter: platform name, directory listing, outcome of opening each port |
| `protocols/*` | all functions (`Model/Protocol`; `Message.__eq__` in `Model/Identity`) | mutated objects become returned values; `Frame` objects are not updated in place after parsing (nobody reads `seq_index` or `data` of a frame after reassembly) |
| `OBDCommand.py` | all (`Model/Command`, `Model/Text`) | which characters outside ASCII `repr` prints as they are is a parameter |
| `OBDResponse.py` | the classes, `is_null`, `unit`, `__str__` (`Model/Value`, `Model/Decoders`, `Model/Text`, `Model/Show`) | how `pint` prints a quantity or a unit and the address in the default `__str__` of `Status` are parameters |
| `decoders.py`, `UnitsAndScaling.py`, `codes.py` | all (`Model/Decoders`, `Model/Uas`, `Model/UasTable`, `Model/Codes`, `Model/DtcTable`) | a `pint` quantity is a magnitude with a unit name; floats are rationals, each arithmetic operation is rounded to binary64 (to nearest even). No subnormals, inf or nan arise from byte-sized inputs; a reading too large for a float raises OverflowError, as in Python |
| `commands.py` | the complete tables and the `Commands` class (`Model/CommandTable`, `Model/Commands`, `Model/Lookup`) | `str.isupper` on ASCII names |
| `elm327.py` | all (`Model/Elm`), over an arbitrary *device*: a function from the history of I/O events to the next outcome (each open, rate change and write may fail, each read loop gets an arbitrary finite sequence of chunks ending in a timeout, an exception, or the end marker) | a read loop that never ends (except in C102); `port.close()` raising; times. The retry loop in `__send` performs 11 retries (that is how often `delayed += 0.1` stays below 1.0 in binary64). `float()` is a parameter (`Py/FloatText` has CPython's for ASCII strings, used in C100); `str.lower` on ASCII |
| `obd.py` | all (`Model/Obd`, print_commands in `Model/Text`) | the result of `scan_serial` is a parameter of the constructor |
| `asynchronous.py` | all (`Model/Async`), as an interleaving of one user thread, the update threads and the callbacks at the granularity of single accesses to shared attributes, on top of the real `OBD.query` and an arbitrary device | atomic in `Model/Async`: one query of the adapter, one power call, one `close()` (`Model/Fine` takes them apart into single accesses to attributes and the port, and C91 proves that nothing else becomes possible, as long as the user makes no power calls while the loop runs), one change of the subscription tables (after `running` was read), one method call made by a callback. One user thread. The lists of callbacks are objects on a heap, and the loop walks through the list object itself, so that a change made by a callback shifts its position. A change of the command dictionary that keeps its size while the loop iterates over it is over-approximated: CPython's iterator may then go on with any of the present keys in any order, or the loop ends with RuntimeError. Sleeping times are not modelled |
| `__init__.py` | nothing to model | |

Logging has no effect, except where building the log message itself raises
(`"%d" % None` in `protocol.py`, `self.__port.baudrate` in `elm327.py`).
Memory exhaustion, KeyboardInterrupt and monkey-patching are outside the model.

## 4. Properties

Legend: *round-trip* = parser after an independent encoder is the identity;
*soundness* = any accepted output has an explanation; *invariant* = induction
over operations; *refutation* = the full statement is false of the code, its
negation is proved with a witness and the provable part is `_partial`. The
notes in `MANIFEST.json` say for each refuted property what is wrong and what is
proved instead. No property of the list had to be left out of the model.

| id | proofs in `Props/` | how |
|---|---|---|
| C01–C05 | `Utils` | induction against positional / bitwise specs |
| C06, C07 | `Can` | round-trip with `Spec/IsoTp`; invariant "unwrapped index = true index" |
| C08 | `Can`, `Tracking` | exact: an order is harmless iff every frame is in the window of its predecessor (`Spec/Tracking`); refutations (lost, corrupted) |
| C09 | `Can`, `Tracking` | accepted iff the believed indices are 1..n, outcome for every receipt (`C09_outcome`); refutation: lost tail |
| C10 | `Can`, `CanExact` | soundness over arbitrary lines; exactly which frames are put together (`Assembles`), and to what |
| C11–C13 | `Lines`, `Interleaving` | grouping = filtering; non-interference; any interleaving of the same per-ECU lines gives the same messages (sorted duplicate-free transmitters are determined by their set) |
| C14 | `Lines`, `CanExact`, `Robust` | exact characterisation of the raising inputs; refutation |
| C15 | `Can` | direct |
| C16–C19 | `Legacy` | round-trip for permutations; soundness; refutation: lost tail |
| C20, C21 | `EcuMap` | case analysis on populate_ecu_map, argmax fold; refutation |
| C22–C26 | `Commands` | direct / induction / whole-table kernel evaluation lifted to all integers |
| C27 | `Total` | per-decoder totality, exact characterisation; refutation AIR_STATUS |
| C28–C30 | `Sensors` | monotone rounding, error bounds; refutations |
| C31–C33 | `Dtc`, `DtcLetters` | injectivity, round-trip; refutations: `P0000`, odd payloads, hex letters |
| C34 | `Status` | bit-level spec |
| C35 | `Monitor` | blocks of nine bytes, dictionary of tests |
| C36 | `Enums` | bit-level specs; refutation |
| C37, C38, C65 | `Vin` | exact characterisation of what `strip` removes; refutations |
| C39 | `Serial` | fold over chunks |
| C40–C44 | `Connect`, `Ports` | invariants over arbitrary devices and call histories; exact dialogue of a connection attempt |
| C45–C49 | `Query`, `Fast`, `Header`, `InForce` | invariants over histories; refutations with concrete devices |
| C50 | `Supported` | least fixed point specification of announced commands |
| C51 | `Ports` | exact behaviour of the port loop; refutation (statuses compared as strings) |
| C52, C53, C63 | `Robust`, `Raises` | classification of all failures; exact for table commands; refutations |
| C54–C60 | `Async`, `AsyncActual`, `OneCall`, `StopRaises` | interleaving invariants over all schedules, fairness for C60; refutations with concrete schedules |
| C61, C62 | `EndToEnd` | composition of constructor, dialogue, parser, filter and decoder; refutations |
| C64 | `Docs` | generated documentation table against command table and decoders |
| C66 | `Lookup` | dictionary of the `Commands` object; refutation for `len` |
| C67 | `Scan` | exact characterisation over all systems; refutation |
| C68–C70 | `TroubleCodes`, `PendingLegacy` | composition as in C61, for any number of ECUs and any protocol; refutations |
| C71 | `Optimise`, `OptimiseHeaders` | simulation between a fast and a plain session over an adapter that obeys limits and repeats (`Spec/Adapter`), then also with answers that depend on the header in force (`Spec/AdapterHeaders`); refutations |
| C72–C75 | `Readings`, `Freeze` | composition as in C61 with C34, C35, C37; refutations |
| C76 | `Start` | classification of all exceptions of the constructor by induction over its steps; refutations |
| C77, C78 | `Sessions` | invariants over call histories, counting of opened and closed ports; refutations |
| C79 | `Traffic` | cost accounting over every step of the stateful code (additive weights on events) |
| C80 | `Stateless` | every exchange is a function of (protocol object, command, reply lines); determinism from C10-C19 |
| C81 | `Erase` | automaton on the lines written (an adapter that repeats the last command on a blank line), invariants; refutations |
| C82 | `Verdict` | from C35: monotone scalings, arithmetic on the exact values for every scaling ID |
| C83 | `AdapterInfo` | invariant: base commands stay supported; exchange lemma with a text reply |
| C84 | `Opening` | step invariant on the lines written, over the whole constructor including raising paths |
| C85 | `Refine` | forward simulation: each step of the asynchronous system is at most one call of the synchronous one |
| C86 | `Repr` | an evaluator for the calls `repr` prints (`Spec/PyLiteral`), and induction over the quoted text |
| C87 | `Printed` | C35 and C82, and lines of a joined text |
| C88 | `Chunks` | the read loop depends on the concatenation up to the prompt only; then every method of the model, and every step of `AW.step`, is equal for the two adapters (function by function) |
| C89 | `Custom` | `exchange` commutes with replacing the set of supported commands; `exchange` split before the decoder |
| C90 | `Shown` | the bytes literal is read back with the evaluator of C86; readiness tests from C34 |
| C91 | `Fine` | queries, power calls and `close()` as programs of single steps (`Model/Fine`); forward simulation to the atomic model; an invariant of the serial history |
| C92, C93 | `States` | composition as in C61 with C36, C38, C65; the first message is that of the lowest address |
| C94 | `Units` | each decoder has one static unit, by cases over the decoders; the tables use no custom decoder |
| C95 | `Rounds` | an invariant: what has been asked for in this round, followed by what the iterator still holds, is the watch list (`Spec/Rounds` computes all three from the log) |
| C96 | `Rounds` | a measure that falls with every step of the update thread until it sleeps; fairness; C95's invariant at the moment of falling asleep; an endless fair run of the demo car shows that the hypotheses can be met |
| C97 | `Raw` | the frames of a transmitter are the frames of its lines (C11), whose raw text is the line without spaces; re-parsing uses that a hex line has no line break; end to end through the normal form of `query` |
| C98 | `Works` | `Spec.Elm327` describes an adapter that answers the set-up commands, with an arbitrary car; the set-up is then evaluated step by step (the converse of C41/C42, which read the dialogue off a finished connection); a concrete adapter whose car is reached with protocol 8 only meets the hypotheses |
| C99 | `Live` | C85 turns each stored response into the answer of a synchronous query, to which C61, C68, C72, C92 apply; the subscriber by induction over `dueA` (C56_exact_partial) |
| C100 | `Volts`, `FloatText` | `Py.pyFloat` models CPython's `float(str)` (ASCII) and is proved equal to the documented grammar (`Spec/FloatGrammar`) with rounding to the nearest binary64 number (`Spec/Binary64`; by the way `Lemmas.rnd_nearest`: so is `Py.rnd`, the rounding of all arithmetic of the model, for normal numbers); evaluated on printed decimals by induction over the digits, rounding error bounds for the threshold; applied to C83 and C98, in which `float` is a parameter |
| C101 | `Rest` | `engine_value` (C61) and the decoders (C31, C04, C34) |
| C102 | `Reading` | the loop of `__read` as a step function over an endless port (`Model/Reading`); induction over the passes; agreement with `Model.readLoop`; refutation by a babbling adapter |
| C103 | `Banks` | from C36, which is exact on all 256 bytes, and the bit assignment of SAE J1979 (`Spec/Banks`); refutation |
| C104 | `Lost` | invariants: no step of a lost connection leads to a query, something is watched while the loop runs, `running` has a cause; liveness from C96's lemmas: a loop that kept running would store responses again and again |
| C105 | `Utf8` | the decoder's states as prefixes of encodings (`Chain`), against the UTF-8 encoder of Lean's library |
| C106 | `ShowResponse` | printing (`Model/Show`) followed by reading (`Spec/PyValue`, `Spec/PyLiteral`) is the identity; induction over the items of a display |
| C107 | `Identity` | `Protocol.__call__` again with an identity for each frame object (`Model/Identity`), erasure to `Proto.call`, identities of a call are new and disjoint |
| C108 | `Names` | invariant over all calls: which protocol object an interface can have in which status (`Lemmas/Names`); separate tables of numbers and names (`Spec/ProtocolNames`) |
| C109 | `Lesser` | the dialogues of set-ups that do not reach the car (`Spec/Refusal`), each step of `__init__` in turn (`Lemmas/Refusal`) |

## 5. Where the code disagrees with what a user expects

Each refuted property is a finding; besides those, modelling showed (no property
is claimed about these):

* A NaN voltage passes the voltage check.
* `str(response)` of a STATUS response is an address (`Status` has no `__str__`).
* A query or a callback that raises ends the update thread while `running`
  stays True.
* A callback that unsubscribes itself while `stop()` waits makes the loop skip the
  callback after it (C56_refuted).
* Waking the adapter (`normal_power()`) sends a blank and a carriage return; an ELM327
  repeats its last command on a bare carriage return.
* If resetting the header in `close()` raises (C52), the object stays connected but
  supports no command.
* In legacy multi-line replies only the first line's PID is looked at.
* Power calls by the user while the update loop runs interleave their lines with
  those of the loop (C91_refuted).
* docs/Connections.md names protocol 3 "AUTO, ISO 9141-2"; `protocol_name()` returns
  "ISO 9141-2" (C108_refuted).
* A car that has answered counts as not connected if the adapter replies to ATDPN with
  anything but one line (C109_refuted).
