# Formal model of pica: design

## Trusted base

* The Lean 4.33.0 kernel. Every theorem named in `MANIFEST.json` depends on at most `propext`, `Classical.choice` and
  `Quot.sound`. `AXIOMS.txt` lists the axioms theorem by theorem, and `lean/Verif/Audit.lean` fails to build if a named
  theorem depends on anything else (both are written by `tools/axioms.py`). There are no axioms of our own, no `sorry`, no
  `native_decide` and no `bv_decide`.
* The transcription. Every model definition quotes the file and the lines of `/repo` it transcribes. Nothing of `/repo`
  was built or run.
* The PDL code generator (`pdl-compiler 0.3.2`) is not in the repository. Its semantics are an assumption, see "Generated
  codec".
* Rust and tokio semantics as described under "Concurrency", and the behaviour of `glam`, `serde_json`, `hyper` and `hex`
  as described under "What is left out".

The specifications in `lean/Verif/Spec` have to be read to know what a theorem says. They use the data types of the
model (device, session, command, response) and nothing of its functions, with four exceptions that are stated where they
occur: `View.of` (reading a parameter), the numeric codes of the enumerations in `Spec/Wire.lean`, `Pica.step` in
`AnswersTo`, and the runs and schedules (`Pica.Run`, `System.Run`, `Site.Run`, `Link.run`) over which histories are quantified.

## What is modelled

| part | source | model |
|---|---|---|
| MAC addresses | `src/mac_address.rs` | `Model/MacAddress.lean` |
| packet description, as far as the emulator uses it | `src/uci_packets.pdl` | `Model/Enums.lean`, `Packets.lean`, `Codec.lean` |
| framing, segmentation, reassembly | `src/packets.rs`, `src/lib.rs` 240-344 | `Model/Framing.lean` |
| APP configuration | `src/app_config.rs` | `Model/AppConfig.lean` |
| sessions, devices, command handlers | `src/session.rs`, `src/device.rs` | `Model/Session.lean`, `Device.lean` |
| the environment, one command at a time | `src/lib.rs` | `Model/Pica.lean` |
| the tasks around it | `src/lib.rs`, tasks spawned by `device.rs`, `session.rs` | `Model/System.lean` |
| trace files | `src/pcapng.rs` | `Model/Pcapng.lean` |
| the task of a connection with its trace | `src/lib.rs` 238-389 | `Model/Trace.lean` |
| the Python host: packet reader and writer | `py/pica/pica/__init__.py` | `Model/Host.lean` |
| a host with parsers generated from the same description | `src/uci_packets.pdl` | `Model/HostPackets.lean` |
| its packet library: the parsers and serialisers of all messages | `py/pica/pica/packets/uci.py` | `Model/PyUci.lean`, `Model/PyPackets.lean` |
| the console of the host: the commands it sends, file transfer | `py/pica/console.py` 146-358 | `Model/Console.lean` |
| positions, distances and angles | `src/bin/http-server/position.rs` | `Model/Position.lean` |
| web server: registry, requests, events | `src/bin/http-server/main.rs` | `Model/Http.lean` |
| texts of the events and of the state | `src/bin/http-server/main.rs` 70-107, 171-185, 334-351, 415-424 | `Model/WebText.lean` |
| the page of the web server: its list of devices | `static/index.html` 79-225 | `Model/Page.lean` |
| the default program: its estimator and the commands it sends | `src/bin/main.rs` 27-47, 60-73 | `Model/Main.lean` |
| the sleeps of the tasks | `src/session.rs` 75-86, `src/device.rs` 149-156, 764-777, 819-830 | `Model/Clock.lean` |
| the rotation of a position | `src/bin/http-server/position.rs` 93-98, 106 | `Model/Glam.lean` |
| the position in a body | `src/bin/http-server/main.rs` 372-400, `static/index.html` 118-131 | `Model/JsonBody.lean` |
| the angles shown for a position | `src/bin/http-server/position.rs` 42-59 | `Model/Euler.lean` |
| what the page draws: markers, axes, arrows, sectors | `static/src/components/Map.js` 17-29, 128, 181-221, `Orientation.js` 29-48, 88-132, `DeviceInfo.js` 129-147, 187-190 | `Model/Draw.lean` |
| gestures on the page, references to devices, requests | `static/src/components/Map.js` 65-115, `DeviceInfo.js` 98-119, `static/index.html` 93-141 | `Model/Editor.lean` |
| the two tests and their hosts | `tests/ranging.py`, `tests/data_transfer.py`, `tests/helper.py`, `py/pica/pica/__init__.py` 79-171 | `Model/Tests.lean` |
| the enumerations of the Python package | `py/pica/pica/packets/uci.py` | `Model/PyEnums.lean`, names of the other side in `Model/EnumNames.lean` |
| the lines typed at the console, its requests to the web server | `py/pica/console.py` 36-144, 258-358, 390-394, 405-491 | `Model/CommandLine.lean` |
| what the console prints of a packet | `py/pica/pica/packets/uci.py` 25-83, `py/pica/console.py` 360-388 | `Model/PyFields.lean`, `Model/PyShow.lean` |
| the sizes of the Python packets | `py/pica/pica/packets/uci.py` | `Model/PySize.lean` |
| the stream of events of one listener | `src/bin/http-server/main.rs` 119, 171-185 | `Model/Stream.lean` |
| completion of the line being typed | `py/pica/console.py` 434-466 | `Model/Completion.lean` |
| structures of the Python packets outside the messages | `py/pica/pica/packets/uci.py` | `Model/PyStructs.lean` |
| web server and emulator together | `src/bin/http-server/main.rs` | `Model/Site.lean` |

`Spec` holds the specifications, `Proofs` the lemmas and the histories used as witnesses, `Props` the theorems of
`MANIFEST.json`, each with examples that meet its hypotheses.

## What is left out

* Tokio's timer: that a sleep never ends early, that `abort` cancels a sleeping task and not one that has woken before it
  sleeps again. How late a sleep ends is a parameter.
* Logging, argument parsing and the start-up of the two programs, errors of the listening socket, environment variables.
* The wall clock. Time stamps of traces are inputs; a task that sleeps may wake at any time.
* TCP: a connection is a list of bytes in each direction, cut anywhere. A writer waiting for
  its host is one that makes no step; the memory its messages take is left out. A connection may close at any time.
* Memory exhaustion, and overflow of `usize` counters that would need more than 2^64 operations. `u32` and `u16`
  counters and lengths that can overflow are modelled.
* JSON syntax: for most properties a request body is an argument of an arbitrary parser whose results are a position, an
  early end of input or another error. For C86 the parser is `serde_json::from_slice` with the derived `Deserialize`, which
  `Model/JsonBody.lean` describes from memory (version 1.0.107, without its optional features): the crate is not in the
  repository. The texts of the reasons of 406 responses are left out. In the texts of the events and of the state the
  three angles are an arbitrary function of the position (`to_euler` of `glam`). For C87 they have the accuracy stated in
  `Model/Euler.lean`, from memory of version 0.25; nothing is said of a device that looks straight up or down.
* In the page: the grid, line widths, arrow heads, the handle, the size of the elements and the rounding of the numbers in
  what is drawn; `screenToSvg`, and that a slider which the user has touched no longer follows `value=`. The browser is taken to follow the standards of event streams and JSON.
* `hyper` requests: method, path and body. A handler may be dropped at any `await` when its client is gone.
* `f32`: real numbers with a rounding after every operation. The rounding is a parameter restricted by the structure
  `Arith`; rounding to nearest even in binary32 is an instance (`Arith.ieee` in `Proofs/Binary32.lean`). Overflow, NaN
  and infinity do not occur for the positions the web server accepts, whose coordinates are `i16`; they are left out.
  Negative zero is tracked where `atan` distinguishes it. `glam`'s rotation is an arbitrary function with finite values;
  for C85 it has the accuracy stated in `Model/Glam.lean`, which describes version 0.25 of the crate from memory: the order of
  the turns, the formula of `mul_vec3` and bounds for the rounding errors.
* The notifications spawned with a delay are delivered by tasks that may run in any order; delivery to a closed
  connection does nothing.
* The packets of `uci_packets.pdl` that the emulator neither parses nor builds, except for their layout (C113, C116, C117).
* Of `uci.py`: `show` prints objects as `parse` makes them, so that a field of type
  `bytearray` holds a list; the text of the type `Optional[int]` is that of Python up to 3.13. In the console, the line being
  typed that is printed again after a packet.

## Conventions

* A Rust panic is an explicit result (`Except Panic`). A panic inside `Pica::run` stops the emulator: in the task model
  the flag `System.stopped` is set and the schedule ends. A panic of a connection task ends the connection only. A panic
  of a handler of the web server that holds the lock of the registry poisons it.
* Integer types are `UInt8/16/32/64` when they appear on the wire and `Nat` when the code uses `usize`. Underflow
  (`n_active_sessions -= 1`) is a panic of the model.
* Hash maps are association lists without duplicate keys. Iteration order is the order of the list, and runs may permute
  the list at any time (`Pica.Reorder`), so that theorems over runs hold for every order of iteration.
* Functions that take `&mut self` return the new value together with the result, so that "an error changes nothing" is a
  statement about the model.
* Effects (spawned notifications, timers started and aborted, in-band stops) are returned as a list; the task model turns
  them into tasks.

### Generated codec

`decode_full`/`try_from` of a leaf packet reads its fields in order, little endian, lowest bits first. It ignores reserved
fields, and fails on a closed enum value without a tag, on a short buffer and on trailing bytes. `specialize` selects the
child by the constrained fields, fails if that child fails to parse, and returns `None` when no child matches. Encoding
writes zero for reserved fields and fails (`unwrap` panics) when a `_count_` or `_size_` field overflows.

### Concurrency

`Pica::run` processes one command at a time from a bounded FIFO queue. Every other activity is a task: one per
connection, one per started session (timer), one per delayed notification, one per in-band stop, one per request of the web
server. `Model/System.lean` is a labelled transition system with one step per task action and a free choice of the next
step. A task that sends to a full queue waits, and the waiting tasks get room in any order. `abort` of a timer takes effect at its next
suspension, so an aborted timer that is already sending may still enqueue one round. `Pica::add_device` and `Pica::run`
hold the same `&mut self`, so a direct call is a `Connect` command. A step of the event loop is atomic, so the response to a
command comes before the delayed notifications the command causes; in the code this relies on their sleep of 1 or 5 ms.

`Model/Site.lean` adds the web server: its requests, the event channel of capacity 16 between the emulator and the server,
and the handlers waiting for the answers of anchor commands.

## Properties

"False" means that the code violates the property as stated in `properties.jsonl`: the negation is proved with a concrete
witness (`_false`), next to the strongest true statement found (`_partial`).

* C01-C03 MAC addresses: round trip, canonical text, exact acceptance, against a separate definition of hexadecimal text
  (`Spec/Hex.lean`).
* C04-C07 APP configuration: against a table of formats (`Spec/AppFormat.lean`) with the size and the legal codes of
  each identifier.
* C08-C10, C12, C62 framing: round trips by induction over packets and chunks. C12 is false.
* C11, C63, C64 the Python host: what it reads is what the emulator sent, and conversely, over all schedules.
* C70, C71 the Python packet library, which is checked in and not generated at build time: its objects against the
  commands, responses and notifications (`Spec/PyUci.lean`). C71 is false.
* C72, C73 the console: the packets it writes, through the framing, to the commands and data the emulator receives
  (`Spec/Console.lean`). Both are false.
* C74-C76 responses and delayed notifications of a whole schedule (`Spec/Answers.lean`, `Spec/Notices.lean`). C76 is false.
* C13-C17, C24 command dispatch: case analysis over the whole dispatch with an arbitrary payload. C16 is false;
  `C16_partial` is the exact set of packets that stop the emulator (`Spec/Dispatch.lean`).
* C18-C23, C25-C32, C49, C50, C56 devices and sessions: invariants by induction over histories, and frame theorems. False: C27,
  C28, C29, C30, C31, C49.
* C65-C67 data packets and queries: the exact answers.
* C68-C69 new sessions and reasons: the table of default parameters as bytes (`Spec.defaults`), and the reason each kind of
  command gives in SESSION_STATUS_NTF (`Spec.Reason`).
* C33-C38, C57 ranging: one round against a specification of the peers (`Spec/Ranging.lean`), histories for C35 and
  C36. C36 is false. C57 says exactly which rounds complete.
* C39-C42 registry of the emulator: histories; C41 is false.
* C43-C45 scheduler: invariants of the transition system. C44 is false; `C44_partial` gives a discipline of the hosts
  under which no schedule stops the emulator.
* C46 pcapng: an independent block reader recovers the input.
* C77, C78 the trace of a connection: invariants of a transition system with the reader, the writer and the file
  (`Model/Trace.lean`, `Spec/Trace.lean`). C78 is false.
* C47, C48 codecs: lawful combinators, and the bytes of every message written out in `Spec/Wire.lean`.
* C51, C52, C54 web server: state machine. All three are false or partial.
* C79 the texts of /events and /get-state: an independent reader of event streams and JSON (`Spec/WebText.lean`,
  `Spec/Json.lean`) recovers the events and the devices.
* C80 the page: a transition system with the server, the two requests of the page and its listeners (`Model/Page.lean`,
  `Spec/Page.lean`). False.
* C81 the description of the web interface: a small language of schemas (`Spec/OpenApi.lean`), the documents a reader finds
  (C79) and the status codes of each handler. False.
* C82 the default program: the schedules of the emulator with its estimator and its listener (`Model/Main.lean`).
* C83 delayed notifications with a clock (`Model/Clock.lean`): a timed schedule is a schedule of C42-C48, and its waiting
  notifications are what was promised and not yet given.
* C84 the rate of a session: every running task has slept an interval for each round of the session so far; each aborted
  task adds at most one. The intervals are traced back to the RANGING_DURATION of the host's
  SESSION_SET_APP_CONFIG commands by C56 (`C84_interval`, `C84_configured`).
* C85 turned devices: the rotation of `glam` is close to the product of three turns about the axes
  (`Model/Glam.lean`); angles of points that are close to each other are close.
* C86 bodies of requests: the reader of `serde_json` is sound and complete for the grammar of RFC 8259 in
  `Spec/JsonText.lean`; a text that is cut off ends early, and a whole document never does.
* C87 angles shown: the entries of the matrix that `to_euler` reads are close to those of the three turns; false for a pitch
  beyond 90 degrees, where other angles of the same rotation are shown.
* C88, C89 liveness: infinite schedules with strong fairness towards the event loop, closed connections, ranging tasks,
  cancelled tasks, delayed notifications and in-band stops (`Spec/Fair.lean`); queue and counters as variants. C89 also counts
  the in-band stops of every finite schedule. Schedules that end in a panic are those of C44.
* C90 web clients: the outcome of every handler stated outright (`Spec/Replies.lean`), and the pairing of requests for anchors
  with the outcomes of their commands by induction over the histories of the program.
* C91 gestures: the effect of each gesture stated outright; the page compared with a page that nobody uses, by induction over
  the histories of page, server and user: they differ only in devices for which a request or an event is under way.
* C92 the ranging test: each host is followed through 24 stages, each of which says what is queued, asleep or awake for the host
  and by when it is over; that the stages are exhaustive is an invariant of all punctual runs.
* C93 the data transfer test: the same, with stages for the parts of the file and for a controlee that has the data before or after
  its first round. The hosts are not independent here: as long as the controlee waits for the data, the controller has not had its
  first round, and the order and the distance of their connections put a bound on that.
* C94 codes: the tags of the packet description and the classes of the Python package are transcribed separately
  (`tools/gen_enums.py`, `tools/gen_names.py`); the kernel compares the two tables.
* C95 lines of the console: `Spec/CommandLine.lean` says which lines ask for what, without the order in which the code looks
  at the words; for requests to the web server the claim ends at what its router does with them.
* C96 round trip of the Python packets: `Spec/PyPackets.lean` gives the range of every field; `C96_exact` shows that these ranges
  are neither too wide nor too narrow.
* C97 the other half of C84: `PromptRun` (Spec/Clock.lean) is the clocked schedules in which no step is taken while a task that
  has not been aborted is overdue by more than the lag. The lag is an assumption on the machine, which also covers a queue
  that is full; without it nothing is promised.
* C98 the layouts of the Python packets. `Spec/Pdl.lean` is the meaning of the packet description language as far as
  `uci_packets.pdl` uses it: fields least significant bit first, counts, sizes, fixed and reserved fields, optional fields,
  lists, derived packets with constraints. `Spec/PdlPackets.lean` is the description itself, written from it by
  `tools/gen_pdl.py`; `Spec/PyLayout.lean` names the packet of each class and the field of each attribute. This meaning is
  trusted like the one under "Generated codec". C96 alone would not see a writer and a reader that agree on a wrong layout.
  `Spec/PyCut.lean` says what is left of an object out of range (`C96_wide`); what it leaves alone raises if it does not fit.
* C99 the same for the emulator: the codecs of `Model/Packets.lean` against `Spec/PdlPackets.lean`; `Spec/Layout.lean` names
  the packet of each message and the field of each of its values. With C98, both sides of the connection are compared with one
  description. The arrays of fixed size (addresses, keys, the country code) have their size in the type of the value.
* C100 the `size` properties of the Python packets: false for the commands that ask for parameters and for DL-TDoA measurements.
* C101 which panic sites are reached by some schedule, and from what: exactly those of `Spec.knownPanics` and
  `Spec.malformedPanics`.
* C102 ranges below 20 metres are the whole part of the distance, with every rounding.
* C103 the unit tests of `position.rs` and `mac_address.rs` (`Spec/UnitTests.lean`) hold of the model, with every
  rounding and every accurate rotation.
* C104 the texts that Python's `int` takes for decimal numbers and for the bytes of an address (`Spec/PyInt.lean`), and what the
  lines with them do. The grammar was compared with the `int` of Python 3.11 on its white space, prefixes and underscores,
  which showed that an earlier model wrongly skipped the separators 1c to 1f.
* C105 the drawing: `Spec/Picture.lean` is a camera, given by three perpendicular directions, a cube and the direction straight
  ahead as `turned` of C85 has it; nothing in it comes from the page. `Model/Draw.lean` has the transformations of CSS and SVG
  as their standards define them, which are trusted like the other standards of the browser.
* C106 the console: `Spec/PyShow.lean` reads bytes in base sixteen, says which parts of an object cannot be seen (`visible`) and
  which identifiers have a name, by the tables of the packet description (`Model/EnumNames.lean`), not those of `uci.py`. The
  names and values that are printed are compared with the fields of the packet description in `Spec/PyShown.lean`. The
  fields of the classes (`Model/PyFields.lean`) are generated from `uci.py` by `tools/gen_fields.py`, which only reads its text.
* C107 liveness of the web server: `Spec/SiteFair.lean` has infinite schedules of the program in which it does not end, with
  strong fairness towards the event loop, the task that hears of connections and each handler that waits for an answer; clients
  and hosts may be idle forever. What is broadcast, handled, asked and answered is read off the steps, not the states.
* C108 the stream of a listener: `Model/Stream.lean` has the channel of capacity 1024 as one receiver sees it, as the library
  documents it. The listener's task runs at any time, also between two events of a handler (the runtime has several threads).
* C109 hosts in the program with the web server: C88 and C107 joined. The projection of a fair schedule of the program to the
  emulator is a fair schedule of it; the registry has of a device handle what the last event handled about it says.
* C110 completion at the console: the proposals are exactly the commands or parameters that begin with the word being typed.
  That the console takes what it proposes is false of parameters given by position and after leading blanks.
* C111 a Python host and the emulator from end to end: C70, C64, C74 and C71 put together for the responses
  (`Spec/Conversation.lean`).
* C112 the two directions of a connection: each goes on without the other (`Spec/Duplex.lean`). A host that reads nothing is a
  schedule in which its writer makes no step.
* C113 structures of the Python package outside the messages: `Follows` says of a reader and a writer that they are those of a
  list of fields of the packet description (`Spec/PyStructs.lean`). False for an object of `Rssi` or `Aoa` that was read and
  whose list was then emptied: its old payload is written (46).
* C114 influence between hosts: two histories in which the same commands concern a host tell it the same, up to measurements
  and data (`Spec/Influence.lean` says what concerns a host and what it is told). The devices of the host are compared
  without handles, addresses and task identifiers, so the claim includes that these are of no effect. The notifications set
  off by one command are compared without their order. That a round can end the emulator depends on the others; only for
  packets it does not.
* C115 enumeration order: states equal up to the order of their maps do the same under every command, so a history depends on
  its commands and environment only (`Spec/Enumeration.lean`). The order of the measurements of one round is excepted, and
  `C115_shuffled` shows that it has to be. Which of several panics occurs may depend on the order, whether one occurs does not.
  The notifications set off for a host by one command are compared without their order, because a reset drops the sessions in
  the order of the map. Packets to different hosts are not ordered against each other: they go over different channels.
* C116 unambiguous description: proved once for every list of fields in which each array has its count or size before it or is
  the last field, then checked for all packets and structures of `Spec/PdlPackets.lean`. `Spec/Reading.lean` says which values
  are values for the fields (enumerations are numbers of their width) and which are the same. That a count equals the number of
  elements is part of what a packet is on the wire (C98, C99); so the claim is about the description, not about what a program
  accepts.
* C117 test lines: `Spec/Vectors.lean` is the list of the lines with the packets they belong to. That a line is no packet is
  proved for all values: whoever fits the fields and agrees with the bytes would be found by going through the fields in order
  (`clear_accepts`); that one is, by its values.
* C118 machine: `Spec/Machine.lean` is the reference machine of a host, a relation with a line per case; its parts are the
  specifications of the single commands (`Spec/` modules it imports). The emulator refines it: step by step (`C118_answer`,
  `C118_other`), for whole conversations (`C118_history`) and in schedules (`C118_schedule`); what the Python host reads are its answers (`C118_host`). The machine is deterministic (`C118_unique`) and stuck just where `C118_silent` says. A command that makes the
  emulator panic has no answer; that the machine drifts only in two ways says nothing on when it does.
* C119 bursts: `Spec/Burst.lean` counts what a step sets off (packets, notifications, ranging tasks, in-band stops). The bound on
  a history (`C119_notices`) is amortised, with the number of sessions as the potential. `C119_schedule` and
  `C119_stops` carry the bounds over to schedules, and `C119_flood` and `C119_endless` show that the rounds are needed there;
  `C119_reports` bounds the reports alone. How often the event loop runs a task's command is the subject of C84, not of this.
* C120 mixing: `Spec/Commute.lean` says what a host's part of a sequence of packets is. Every event keeps its environment, hence the
  identifiers of ranging tasks; in schedules these are given in the order of processing, so there the states agree up to them.
  Packets commute with packets of other hosts and with anchor requests, rounds with rounds of other hosts; packets and rounds do not
  (`C120_round`). A packet of one host and the end
  of the connection of another can be exchanged (`C120_disconnect`). New connections, in-band
  stops and ends of connections against anything but packets are not treated.
* C53, C55, C58-C60 positions: over the reals with rounding. C61 joins them with ranging and the web server.

## What was found

Behaviour of the code that contradicts a property, its comments or the UCI specification, each with a proved witness in
the theorem named.

1. SESSION_INIT with the id of an existing session answers DUPLICATE but replaces the session by a new one, in
   SESSION_STATE_DEINIT, that no command can move; an ACTIVE session replaced this way leaves the device ACTIVE for ever (`C28_false`,
   `C27_false`).
2. Removing the last controlee of an ACTIVE session makes it IDLE without stopping its timer or counting it
   down. The next START of the session stops the emulator (`C29_false`), and the device stays ACTIVE (`C27_false`).
3. A ranging round still queued when its session or device disappears stops the emulator, and so does a round whose
   device has a closed connection (`C44_false`). A round queued before STOP still sends a SESSION_INFO_NTF.
4. A packet of a supported group with an unknown opcode, a truncated or overlong payload, or an unsupported opcode stops the
   emulator. So do malformed data packets and some one- and two-byte packets (`C16_false`, `C16_partial`).
5. GET_DEVICE_INFO and SET_CONFIG on a device with an ACTIVE session, SESSION_SET_APP_CONFIG of a session that is not of a
   FiRa ranging type, setting a MAC address with MAC_ADDRESS_MODE 1, and reading a parameter longer than 255 bytes stop the
   emulator (`Spec.Fatal`, `C16_partial`, `C67_long`).
6. GET_CONFIG(DEVICE_STATE) always reports 0xff (`C49_false`).
7. The bound of 8 controlees is checked by equality: a longer list, set by DST_MAC_ADDRESS, grows without bound
   (`C31_false`). NUMBER_OF_CONTROLEES wraps at 256, and sub-session keys are never answered per controlee (`C30_false`).
8. MAC_ADDRESS_MODE 2 allows extended addresses, but a measured peer with an extended address stops the emulator, as do
   more than 255 measurements and more than 65535 bytes of queued data (`C57_round_survives`).
9. The address of a device is the low 16 bits of its handle, without a check against anchors or other devices (`C41_false_anchor`,
   `C41_false_devices`).
10. A data packet between two fragments of a control message is appended to that message (`C12_false`); data fragments
    are delivered one by one; a message with an empty payload is never written (`C09_empty`).
11. Data for a peer whose distance is unknown are lost (`C36_false`). DATA_MESSAGE_RCV is sent in every round, even without
    data.
12. Without a listener of /events a request that changes the registry panics and poisons it, and a
    connection event ends the program (`C52_false`).
13. Answers to anchor requests handled out of order, or handlers dropped, leave the registry of the web server different
    from that of the emulator (`C51_false_order`, `C51_false_dropped`).
14. Coincident devices are reported at an elevation of 90 degrees (`C60_coincident`).
15. A JSON body that ends early counts as the default position rather than an error (`C54_address_partial`).
16. STOP of a session that is not ACTIVE answers ERROR_SESSION_ACTIVE, and START of one that is not IDLE
    ERROR_SESSION_NOT_CONFIGURED (`C29_stop`, `C29_start_partial`).
17. The padding of a pcapng block is 4 bytes when none is needed; the block is still well formed (`C46_read`).
18. `SessionUpdateControllerMulticastListRsp` in the checked-in `uci.py` (3381-3406) has no list of controlees, so the
    Python host never reads the emulator's response to a multicast list update: it gets a bare `SessionConfigPacket`, and
    `expect_control` of the class fails (`C71_false`).
19. The description of the packets gives STS_LENGTH a default of 32 symbols and the emulator uses 64; RANGING_ROUND_CONTROL
    is 0x06 by default where the defaults of its fields make 0x03 (`Spec.defaults`, `C68_values`).
20. Six commands of the console (`device_reset`, `get_device_info`, `get_caps_info`, `set_config`, `get_config`,
    `session_set_app_config`) use classes or names that are not in `uci.py` and raise `AttributeError` (`C73_false`). As a
    device refuses everything before its reset, a console host can do nothing with the emulator (`C73_stuck`).
21. A file of more than 65535 bytes sent with `data_transfer` stops the emulator at the next round (`C72_long_false`). The
    console reads the destination address as big-endian; the emulator ignores it and delivers to every peer.
22. `_read_exact` of the Python host is documented to raise when the connection closes, and loops for ever instead
    (`py/pica/pica/__init__.py` 30-38; read only, not modelled).
23. Every status notification is sent by a task of its own that sleeps for the same time, so a host that does not wait may be
    told of IDLE before INIT (`C76_false`). A host that waits for each notification is told in order (`C76_order_partial`).
24. `File::write` ignores its argument `_dir`, and there is one interface for both directions: a trace does not tell who sent a
    packet (`C78_false`). The headers do, unless the host sends responses, notifications or data of another format
    (`C78_exchange_partial`).
25. The page asks for the state and for the events independently and replaces its list by the state: a device that connects
    meanwhile is lost (`C80_false`) or shown twice (`C80_false_twice`). When the stream of events breaks, which the server
    does to a page that lags by more than 1024 events, the browser opens a new one and the page misses what happened in
    between (`C80_false_break`). The page tells devices apart by address (`C80_false_address`).
    A page that listens before it has the state loses events about earlier devices to an exception (`C80_false_exception`).
26. `static/openapi.yaml` describes another server: the state is an object, not an array (`C81_false_state`); categories are
    written "Uci" and "Anchor", not "uci" and "anchor", so that no event conforms (`C81_false_events`); positions are not
    nested; every command has an unlisted status code (`C81_false_codes`), and /init-uci-device never answers 403
    (`C81_false_initialized`). Everything else of the events conforms (`C81_events_partial`).
27. The comment in `src/bin/main.rs` says that the estimator cannot produce any result. It always produces one: every peer is
    reported at distance zero (`C82_round`).
28. A request whose body is cut off almost anywhere moves the device to the origin and is answered by 200 (`C86_false`,
    `C86_cut`): `position!` takes every error of the category `Eof` for an absent body. Only a part that ends inside a number of
    an ignored member is refused.
29. The bodies that are taken are wider and narrower than the published description: an array of six numbers is taken,
    `-0` is refused (it is a float for `serde_json`), and ignored members may hold strings that are not UTF-8.
30. A pitch beyond 90 degrees, which requests may set up to 127, is shown as other angles of the same rotation: 120 degrees
    are shown as 60 with the yaw and the roll half a turn away (`C87_over`, `C87_false`). Angles beyond half a turn are shown
    within it.
31. A device can be lifted above 32767 on the page; the server refuses this with 406, which the page does not look at, so the page
    goes on to show a position that the device does not have (`C91_refused`, `C91_high_false`).
32. Pressing a second button of the mouse on the ground while a device is dragged deselects it; the end of the movement raises an
    exception, the request is never sent and the page goes on to show the wrong position (`C91_buttons_false`).
33. Two quick movements of a device are two requests; if the server handles the second first, the device ends where it was put
    first (`C91_last_false`).
34. The ranging test of the repository can fail although nothing is wrong: when notifications may be 4 ms late the emulator can
    report the ACTIVE device before the ACTIVE session, and when a host, the emulator or a ranging task may take 250 ms a third
    measurement can come where the test expects the response to the stop (`C92_late_false`, `C92_lag_false`). Below these
    figures it cannot (`C92_pass`).
35. The data transfer test passes only if the controlee is ACTIVE at the first round of the controller. With a second between the
    two connections it fails on a perfect machine: the first round drops the file although nobody receives it, and the second hands
    the controlee a message with no data in it (`C93_gap_false`). Between 0.995 s and 1 s nothing is proved.
36. The Python package has no names for the tags declared within a range of an enumeration of the packet description, such as
    `REGULATION_UWB_OFF` or `CCC_HOP_MODE_KEY` (`C94_open`); `from_int` returns plain integers for them.
37. A slip in a line of the console ends it or is ignored without a word: `session_init 0x10` and `session_init a=b=c` raise
    (`C95_letters`, `C95_equals`), while in `pica_set_position 00:01 yav=90` the misspelt name is dropped and the device is moved
    to the origin, as missing coordinates are zero. A file with a space or an equals sign in its name cannot be sent.
38. `SessionGetAppConfigCmd.parse` and `CoreGetConfigCmd.parse` build the identifiers with the constructor of the enumeration
    and not with `from_int`, so a request for a parameter of the vendor ranges (0xa0 to 0xff, named in the packet description)
    is written by the package and read as a packet of no class (`C96_false`, `C96_unlisted`).
39. A DL-TDoA measurement built with none or both of its two time stamps is written without an exception and is not read back
    (`C96_exact`: it is read from no bytes at all); a time stamp out of range raises `OverflowError` while other integers are
    truncated.
40. `CoreGetConfigCmd.size` and `SessionGetAppConfigCmd.size` count eight bytes for each identifier of one byte;
    `DlTdoaRangingMeasurement.size` has no `return`, so that the size of a notification with such a measurement raises `TypeError`
    (C100).
41. A device put more than 40 below the ground by a request has no cross on the map, and its dashed line goes to the wrong
    place: the text `-${40 + device.position.y}` then has two signs (`C105_ground_false`, `C105_deep`, `C105_deep_line`). The roll of a device is
    passed to its orientation and not drawn.

42. The console never describes the answer to CORE_GET_CAPS_INFO in full: nine of the twenty-seven capabilities have no name
    in `CapTlvType`, `show` asks for it (`val.name`) and the exception is dropped, so the description ends within the eighteenth
    (`C106_false`). The same happens at any unnamed parameter in a response. The time stamps of DL-TDoA measurements are printed
    as the text `##typing.Optional[int]##`.
43. A packet of an undefined message type (4 to 7) in a known group is answered like a command of this group and opcode: the
    host reads the answer to `80 00 00 00` as the response to CORE_DEVICE_RESET with status UNKNOWN_OID (`C17_type`, and the
    example beside `C106_schedule`). The console reads only the queue of control messages: data sent to its device stay on a
    queue that nothing empties and are never shown.
44. With more than 512 devices one set-position sends more events than the channel of the web server holds (1024). A listener
    whose task does not run meanwhile loses its stream although it had read everything before (`C108_false`); up to 512 it
    cannot (`C108_small`).
45. At the console, Tab proposes parameters that were already given by position; the line that results, such as
    `range_start 7 session_id=7`, raises a `TypeError` that ends the console (`C110_given`). After blanks at the beginning of a
    line Tab proposes commands, none of which is known there (`C110_blanks`).
46. In the Python package an `Rssi` or `Aoa` packet that was read and whose list was then emptied is written with the bytes
    that were read: `payload or self.payload or []` takes the old payload when the new one is empty
    (`C113_kept`, `C113_tlv_written_false`). The `size` of a derived class leaves out the three bytes of type and length
    (`C113_tlv_size`).
47. The test lines of `uci_packets.pdl` are for a header of seven bytes: only 5 of the 58 well-written ones are packets of the
    description, one of them (1305) by accident (`C117_valid`). Lines 842 (`\\x00`) and 1132 (`\x0E7\0x07`) are not well written.
    That of the multicast list response (1078) has no count as well, that of the notification (1093) a byte too many before the
    count (`C117_trimmed`).
48. The attempt count of in-band stops is any byte, and stops are sent for a session that is not even ranging: a multicast list update
    of 58 bytes can set off 2040 of them, each a command in the queue that goes through all the devices (an example in
    `Props/Burst.lean`; the bound is `C119_tasks`).
49. The channel to a host (`src/lib.rs` 347) is unbounded and the event loop never waits for it: a host that sends four packets and
    then stops reading lets it grow by one packet per round, up to 2^32 - 1 for one session (`C119_flood`; that the write routine
    stops at a full socket is not modelled). A peer whose reports are disabled sends it data, empty or not, in every round, without
    any limit (`C119_endless`).
50. Read in the documentation, not proved: `README.md` says that `cargo run` starts the web server (23-34), but `Cargo.toml` 17 runs
    `src/bin/main.rs`, which has none; and the console is `py/pica/console.py`, not `scripts/console.py` (`README.md` 44, 71).

## Wrong programs

`seeded/LOG.jsonl` records the mutations of the model tried in a scratch copy: the definition, the edit, the claim it
breaks, the theorems that no longer prove and, where none failed, the theorems added or tightened in answer. Lines marked
`automatic` are edits made by a program (numbers, operators, arguments and dropped updates) of definitions in `Model/`; only
the first declaration that failed is recorded for them. Of those that nothing failed on, the note says why.
