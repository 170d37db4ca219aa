# Formal model of knx-stack: design

The code under study is the python package `knx_stack` and the C daemon
`daemon/usbhid.c` in /repo. It is read as text only; it is never executed.
The model is written in Lean 4 (version 4.33.0) in `lean/Verif`.

## 1. Structure

| directory | content |
|---|---|
| `lean/Verif/Model/*` | the model, function by function; each definition cites the file and lines it models |
| `lean/Verif/Spec/*` | small specifications written without the model's functions (byte layouts, relations, automata, rationals) |
| `lean/Verif/Lemmas/*` | auxiliary lemmas |
| `lean/Verif/Props/*` | the property theorems, each with an `example` that meets its hypotheses |
| `lean/Verif/Conformance.lean` | the tests, doctests and README examples of the repository, evaluated on the model (tests of the transcription, not proofs of properties) |
| `lean/Verif/Audit.lean` | prints the axioms of every theorem listed in `MANIFEST.json` (written by `tools/manifest.py`) |
| `tools/` | `claims.json` (source of the manifest), `manifest.py`, `imports.sh`, `mutate.py`, `log.py` (see section 5) |
| `seeded/` | `mutants.jsonl` (wrong edits), `LOG.jsonl` (what happened to them) |

| model file | code |
|---|---|
| `Base` | exceptions, ctypes integers and bit fields, dicts |
| `Msg`, `Unicode` | msg.py; the decimal digits that `int` accepts |
| `PyInt` | `int` of a text (datapointtypes.py:587-588) |
| `Address`, `Texts` | address.py, texts of addresses and of the address table |
| `Tables` | address_table.py, association_table.py |
| `Float`, `Dpt` | datapointtypes.py |
| `LData` | definition/layer/link/ldata.py |
| `State` | groupobject_table.py, state.py, definition/knxnet_ip/state.py |
| `Decode` | decode/layer, decode/cemi, decode/usb_hid |
| `KnxNetIp` | decode/knxnet_ip, definition/knxnet_ip, `decode_msg` |
| `Encode` | encode, `encode_msg` |
| `NumberAsap` | `encode_msg` of messages that have an int for their ASAP |
| `Iterables`, `SharedTables`, `Rename` | the tables given iterators or their own list; tables that share a dict or an address table; address objects changed after they were stored |
| `MsgTexts` | `__repr__` of the messages that `decode_msg` gives, of their datapoints and ASAPs |
| `TableTexts` | `__repr__` of the group object table and the association table |
| `RequestTexts` | `__repr__` of the messages that `encode_msg` takes |
| `UnitTexts` | `__repr__` of octets, shorts, longs and link layer data |
| `StateText` | `__repr__` of the state |
| `IpText` | `inet_aton`, `inet_ntoa` as called by encode/knxnet_ip/core and definition/knxnet_ip/msg.py |
| `ClientLog`, `UsbLog` | the calls of the logger in client/knxnet_ip.py and client/usbhid.py |
| `DecodeLog` | the decoders again, with their calls of the loggers: transport layer, KNXnet/IP header, tunnelling request and acknowledgement |
| `DiscoveryLog` | the callbacks of client/knxnet_ip_discovery.py with their calls of the logger |
| `EncodeLog` | the encoders again, with their calls of the loggers, and the tunnelling client with the lines of the encoders |
| `ClientOutput` | the tunnelling client with all lines logged for it, and those that the program prints |
| `UsbOutput` | the USB client with all lines logged for it, which the program prints |
| `TunnelProgram` | `writer` and the main part of client/knxnet_ip.py, with its sleeps and the clock |
| `Remote` | the remote endpoint of the tunnelling client: where datagrams go to, and that its connected socket receives from there only |
| `DiscoveryMain` | the main part of client/knxnet_ip_discovery.py; name resolution is a parameter |
| `Client`, `UsbClient` | client/knxnet_ip.py, client/knxnet_ip_discovery.py, client/usbhid.py |
| `Daemon`, `DaemonSystem`, `DaemonMain` | daemon/usbhid.c |

Modelling decisions:

* Python exceptions are values (`Err`). A function that mutates `State` or a table and may raise is a
  function `σ → Except Err α × σ`, so mutations made before the exception are visible after it.
* ctypes integers: assigning an int to an n-bit (bit)field keeps it modulo 2^n. Octets are `BitVec 8`.
  Bit fields are `getField off width` / `setField off width` on naturals, fields allocated from the
  least significant bit (the layout of `LittleEndianStructure` on a little-endian host, confirmed by
  the doctests in the repository).
* Python dicts are association lists in insertion order, keyed by `==`; a dict keeps the first of two equal keys.
* `list.sort(key=..)` is insertion sort. Python's sort is stable, so every stable sort gives the same list.
* Object identity (`is`) of addresses is modelled with an object id next to the value.
* Python floats are exact rationals with signed zero, infinities and NaN; every operation is followed by
  round-to-nearest-even to binary64. `decimal.Decimal` rounding to two places is half-even, and raises
  `InvalidOperation` beyond 28 digits. A `c_float` is binary32. That the rounding function of the model is the one of
  IEEE 754, stated without it (`Spec/Ieee.lean`: no number of the format is nearer, and of two equally near ones the even
  one is taken), is proved in `Lemmas/Ieee.lean` and used in the statements of C18, C21 and C22 and in `c92_double`.
* Datapoint setters mutate the raw value and may raise half way, so they are functions of type `Py Nat Unit`.
* Text formatting done eagerly for log messages is part of the model where it can raise
  (`"{}".format(dpt)` in the transport layer decoders and in the clients); log output itself is modelled for the clients and
  the decoders only.
* The clients and the daemon are transition systems over callbacks. They carry extra observations (datagrams sent,
  messages decoded, reports written, texts sent, "a buffer was written outside its bounds") that the code does not store.
* The daemon's `sscanf("%2hhx")` is modelled after the C standard, on the text read and the arbitrary memory behind it,
  which every input event carries. The characters `0x`, on which the standard and glibc differ, give the parameter `zx`.

* `DaemonSystem` is the daemon as a process among clients, device and kernel. One action is one system call of the daemon
  (`select`, one `accept`, one `read` with the `write` to the device that follows, one `write` to a client) or something
  done by a client or the device; all interleavings are considered. Descriptors 0 to 2 are open at the start. `select`
  returns all ready descriptors; `accept` takes the lowest free descriptor and fails at the limit; `read` returns what is
  there, up to the length asked for; `write` to a client blocks until the whole text fits into the buffer (in fact a part
  may be sent before). A client that closes leaves a connection that can still be written to; the first write is
  answered by a reset, and writing after that raises SIGPIPE. A reset of an open connection is first reported as an error
  of the next `read` or `write`. Reading and writing fail after the device was removed.

## 2. Trusted base

* Lean's kernel and the axioms `propext`, `Classical.choice`, `Quot.sound`. `Verif/Audit.lean` prints the axioms of
  every theorem of the manifest; no theorem depends on anything else, some on fewer. No axioms of our own, no `sorry`,
  no `native_decide`, no `bv_decide`.
* The reading of python, ctypes, `decimal`, `inspect`, `asyncio` and C semantics written in the
  comments of the model. The model is a hand transcription: nothing mechanically ties it to /repo. `Conformance.lean`
  evaluates it on every test, doctest and README example of the repository; all give the documented results.
* The reading of the English claims in `properties.jsonl` as the Lean statements.

Modelled: every function of `knx_stack` reachable from `encode_msg`, `decode_msg`, the table classes, the datapoint
types and factories, the two KNXnet/IP clients, the USB client and the main loop of the daemon, as listed in section 1;
also `t_connect.req.encode` and `t_disconnect.req.encode`, which nothing calls.

Not modelled:

* `__repr__` texts other than those of `Msg`, octets, link layer data, addresses, the three tables, the state and the messages; of
  the others only whether they raise. The text of a float is a parameter (any injective one without `,`, `}` and line
  ends), and so is the order in which a set of properties is shown;
* asyncio scheduling and timers, other than as arbitrary interleavings of callbacks and, for the tunnelling program, sleeps
  that never end early (asyncio may end them early by the resolution of its clock); socket errors;
* the text of IP addresses in the messages: they hold 32 bit numbers; `inet_aton` and `inet_ntoa` are modelled
  separately (`IpText`); a host name as the remote endpoint of the tunnelling client, which `sendto` of a connected socket
  refuses;
* python ints used where an `ASAP` is expected, except in messages given to `encode_msg`;
* decimal digits that Unicode got after version 14.0, and lone surrogates in strings, which are no characters of Lean;
* attributes of ctypes classes and enums whose names begin with an underscore, and of the datapoint classes
  that are no fields (`length`, `encode`, `decode`, `Action` and so on), as datapoint field names; members of the module
  that are no datapoint types, as names given to the factory;
* the iteration order of the set of properties in `Description_Factory.make` (an order is fixed; C84 shows that it is
  without effect on the description);
* of the daemon: failures to make its socket, signals other than SIGPIPE, failures of `select` and
  of `accept` for other reasons than the limit, faults caused by reading unmapped memory (that the reads happen is
  modelled, `readPositions`), partial writes, output to a closed terminal.

## 3. Properties

"Refuted" means the claim is false of the code as written; the negation is proved with a concrete
witness (`_refuted`) and the part that does hold is proved under the name suffix `_partial`. The status, the theorems
and what is missing are in `MANIFEST.json`.

* **C01, C02** characters and octet lists; list induction two characters at a time. Digits are those of `int(c, 16)`.
* **C03** octet lists and naturals; case analysis and arithmetic.
* **C04** bit field lemmas over 16 bit values.
* **C05, C06, C07** address table as record with sorted list; invariants by induction over a list of
  operations. C06 refuted for an add at capacity of an address that is present and equal to the individual address;
  C07 refuted for direct `AddressTable.add`.
* **C08, C09** association table with its derived index; the index is proved equal to a specification
  computed from the ASAP dictionary, and the dictionary equal to a fold of the history.
  Both refuted after a shared address was disassociated; proved for all other histories of successful calls.
* **C10, C11, C12** refuted by witnesses (C10 and C11 also universally, see C83); partial theorems give the exact conditions.
* **C13** case analysis on the lookup.
* **C14** association list induction over histories against a `foldl` specification.
* **C15, C16, C17** table of datapoint classes with bit fields; generic bit field laws, then a finite
  check over the (complete) table of fields with `decide`. C17 refuted by the float 0xF800.
* **C18-C21** exact rational arithmetic with an IEEE-754 binary64 round-to-nearest-even function; C20 refuted
  near zero, `_partial` elsewhere. C19 has the exception 0xF800.
* **C22** binary32 decoding/encoding on rationals: round trip, nearest value, and that exactly the
  numbers of absolute value at least 2^128 - 2^103 are stored as an infinity (`c22_overflow`).
* **C23-C28** encoder as explicit function; frames proved equal to a specified byte layout, then decoded. Refuted in
  corner cases (first address 0 or the own one, own address in the group table, over-long data, ASAP without address);
  `Props/Exact.lean` says what happens in each of these cases for all states.
* **C29-C36** decoder characterised on arbitrary byte strings. C29, C31 and C32 refuted as stated, `_partial` with exact
  conditions.
* **C37** frame lemmas about the encoder.
* **C38** finite: all TPCI octets by case analysis; refuted in part.
* **C39, C43, C44** invariants over lists of API calls, with the exact values of counter and channel.
* **C40-C42** decoder/encoder of tunnelling frames; C42 refuted.
* **C45** byte layouts.
* **C46-C49** client as a transition system over callbacks; C46 by induction on the gateway's schedule, refuted for
  telegrams whose decoding raises (`c46_stuck_refuted`: all of them); C47, C48 refuted, with `c47_exact` for the former.
* **C50, C51, C53, C54** daemon as a transition system, invariant over possible histories. C50 and C54 refuted for lines
  that are malformed, empty or too long.
* **C52** decoder case analysis.

* **C55** two devices: the octets one device's encoder produces, changed the way the bus changes them, are decoded by
  another device with other tables. From the layout theorem (C28) and the fan-out theorem (C29).
* **C56** layout of the connection oriented frames (`t_connect`, `t_disconnect`); unfolding.
* **C57, C58** individually addressed telegrams characterised completely; case analysis on the decoder. C57 refuted.
* **C59** the exceptions `decode_msg` can raise on a KNXnet/IP datagram; case analysis. Refuted.
* **C60** search, connect, connection state and disconnect responses against a specified function of their octets.
* **C61** the datagrams a client sends, as a function of what it receives; case analysis on the decoder.
* **C62, C63** client, lossy network and a standard server (`Spec/Gateway.lean`) as one system. C62 by an invariant that
  relates both counters to what is under way; C63 refuted, proved for schedules where each acknowledgement arrives in time.
* **C64** the reverse direction with a server that repeats until acknowledged; refuted for repetitions.
* **C65, C66** USB client as a transition system over its two tasks (`Model/UsbClient.lean`), its input as pieces of text;
  splitting into lines is shown to depend on the whole text only. Both refuted for whatever raises.
* **C67** discovery: exact request, response against the standard's layout; refuted for the individual address.
* **C68** changing the own address: a life of calls and address changes against a fresh device with the last address and the
  same calls; refuted for ASAP 0.
* **C69** what the daemon looks at while it handles a line: positions read by the tests, `sscanf` and `fprintf`, and what
  the packet depends on; refuted for empty lines, printing, white space and single digits.
* **C70** texts of addresses and of the address table, against digits and lines specified separately.
* **C71** encoding raises exactly when a separately specified list of needs is not met; case analysis on the messages.

* **C72** USB client, daemon, bus, daemon, USB client in one statement; composition of C28, C55, C65, C66 and of the lines
  the daemon reads. Refuted for two lines read in one piece.
* **C73** order and floats: binary rounding is monotone, so are the steps of encoder and decoder; refuted for numbers
  between -0.0099 and 0.
* **C74** whether the daemon survives its clients: exactly when the process ends or waits, and that the signal needs a client
  that left and was written to since (invariant over all interleavings); refuted from every idle state by
  a client that closes between two reports, by many connections, by a client that does not read.
* **C75** every run of the process is a possible history: invariant over all interleavings.
* **C76** the daemon's command line, with `getopt_long` as in glibc: command lines specified separately and read back;
  refuted for the port, the host and `-d`.
* **C77** what passes the daemon: for each connection, text sent = text read + text left, and lines written = reports read
  + lines left, as invariants over all interleavings; refuted for clients beyond the 64th.
* **C78** progress and fairness of the daemon's loop: a measure that every step decreases, and one for each descriptor that
  waits, which no action of others increases.
* **C79** the temperature of the climate report: error bounds of the binary rounding, and all 512 tenths by evaluation;
  refuted for negative numbers, from 51.2 on, and for text: `int` repeats the digits, an odd multiple of the number.
* **C80** texts of IP addresses: `inet_aton` of glibc against a grammar; both directions by induction on digits. Refuted for
  leading zeros, fewer numbers, text behind a blank, host names.
* **C81, C82** the tunnelling client as a program with a clock (`Model/TunnelProgram.lean`): an event is a datagram, the loss
  of the transport or a wake-up, at a time; invariants over all runs give order, distance and services of what is sent, and
  with a bound on the lateness of the wake-ups also its times.
* **C83** a reference machine (`Spec/TableMachine.lean`) without sorting, positions, objects and index: a bag of known
  addresses, the associations, and a copy of both made by each successful call. Simulation by induction over histories of
  all four kinds of calls, raising or not; the place of an address in the sorted table is the number of smaller ones. From
  the machine follow exact or universal versions of C08 to C11 (`c08_exact`, `c08_pooled_refuted`, `c09_shared_refuted`,
  `c10_shared_refuted`, `c11_shift_refuted`).
* **C84** what a dictionary of fields amounts to, as a sum of codes at places (`Spec/FieldOrder.lean`); the loop of the
  factory by induction, permutations from the sum. Refuted for the exception raised and for the key `value` beside a property.
* **C85** the two loops of `associate` see different lists (`Model/Iterables.lean`); the loop over the live list by
  induction with the part already passed as invariant; consequences by the machine of C83.
* **C86** a heap of dict objects (`Model/SharedTables.lean`) against tables as values (`Spec/SharedTables.lean`).
* **C87** two machines of C83 with one bag of addresses, exact for all histories; the shift of places as in C11.
* **C88** the renamed table against the old one with two values exchanged; later calls by the history lemmas of C08, which
  do not need sorted addresses.
* **C89** the texts read back from left to right: every part ends at a character it cannot contain, or is a word that is
  no prefix of another word (`Spec/MsgTexts.lean` says what is shown). Names of ASAPs are the exception; decoded messages
  have the name that the table gives to their number, so the name is known once the number is read.
* **C90** lines read back one by one, each from its last `>`; that equal texts mean equal behaviour is shown of lookups that
  use the shown entries only. Refuted after a call that raised, and for names with line ends.
* **C91** texts read back as for C89; names of ASAPs are last here, so they need no care. Equal frames: the encoders use
  the number of an ASAP only, and a number written as the library writes it (`Spec.Canonical`) is determined by what is
  shown of it. Refuted for hidden bits and for small negative 2 octet floats.
* **C92** what the factory refuses: for each field the exception does not depend on what the datapoint holds, so the first
  field refused decides (`Spec/Factory.lean`); refuted for unknown fields and numbers out of range.
* **C93** datapoints of another type than the registered one: refuted for every type; which bits the frame keeps.
* **C94, C95** two installations on one bus, over two tunnels, or one on USB: composition of C46, C62, C63, C65, C66 and of
  what the frame of a request delivers there (`Received` of `Spec/Tunnels.lean`). The frames a gateway accepts are a
  sublist of those of the messages written. Refuted for a lost acknowledgement.
* **C96** other numbers and names for the ASAPs: every table call, every encoder and every decoder commutes with relabelling
  (`Spec/Relabel.lean`), because dictionaries compare ASAPs by number and nothing else looks at them.
* **C97, C98** datagrams of another channel and of a server that ends the connection (`Spec/Channel.lean`): from the exact
  decoding of responses (C60) and of requests. Refuted for every client.
* **C99, C100** two runs of the decoder on telegrams that agree in what a receiver needs (`Spec/Alike.lean`); octets behind
  the declared lengths, refuted for tunnelling requests and telegrams.
* **C101** the client with its remote endpoint (`Model/Remote.lean`, `Spec/Remote.lean`): every run is a run of the client
  without the datagrams from elsewhere. Refuted for every server with a data endpoint of its own.
* **C102** the discovery program for every command line and every resolver (`Model/DiscoveryMain.lean`).
* **C103** program, server and a network with delays as one timed system (`Spec/TimedNet.lean`), by an invariant: the
  connection is being opened, or the last request is on its way, or its acknowledgement is, or nothing is; when the three
  seconds after a request are over, it is the last of these. The bound on the delay is exact (`c103_slow`).
* **C104** the same with losses and datagrams that overtake others (`Spec/LossyNet.lean`), by an invariant that counts: the server has not seen the counter of the
  last request, or it has and the program does not know, or the program does; in each case the requests written but not accepted
  are at most as many as the datagrams lost, and one more if something is on its way. The count is exact (`c104_tight`); without
  losses nothing is missing (`c103_reordered`), and without the connect request or its answer the program waits forever (`c104_silent`).
* **C105** the status codes of the standard as a table of their own (`Spec/StatusCodes.lean`), all 256 octets; refuted for
  `E_SEQUENCE_NUMBER` (3 in definitions.py, 4 in the standard), `E_TUNNELLING_LAYER` and errors of disconnect responses.
* **C106** sizes of the types and the place of a value in a telegram as a table and a predicate of their own
  (`Spec/ValueForm.lean`), sending and receiving; refuted for `DPT_Control_Dimming` and `DPT_Brightness`.
* **C107** the ranges of 9.001, 9.004, 9.005 and the octets for invalid data (`Spec/Range16.lean`); numbers in the range are
  encoded, refuted for all others that fit, for the marker when encoding and when decoding.
* **C108** client, network and a server that may refuse (`Spec/Refusal.lean`), by an invariant: the client is one counter ahead of
  the server, so are the requests under way, and no acknowledgement under way is the one the client waits for. Refuted for every
  refusal the client hears of.
* **C109** the reports of the standard for a frame of any length (`Spec/UsbPackets.lean`), sending and receiving; refuted for
  every frame that takes more than one.
* **C110** the frame type (`Spec/FrameTypes.lean`): two telegrams that say the same are delivered alike, whatever their control
  octets say about the way on the bus; telegrams beyond the standard frame are sent as standard frames.
* **C111** the texts of octets, shorts, longs and link layer data (`Model/UnitTexts.lean`).
* **C112** pacing: an invariant of runs of the process, at most one line waits on the connection (`Spec/DaemonPaced.lean`), joined
  with C50 for what is written to the device.
* **C113** errors of the decoder, the counterpart of C71: the fields at the front of a report or datagram are described as data
  (`Spec/DecodeComplaint.lean`: widths, tests, lengths that cut what follows); reading them determines the exception.
* **C114** the wording of messages: a pattern for every kind (`Spec/LogTexts.lean`), filled in with fields that Lean's own
  `toString` writes.
* **C115** the same for tables, link layer data, numbers and the state (`Model/StateText.lean`, `Spec/StateText.lean`).
* **C116** messages with an int for their ASAP, compared with the message that has the ASAP of that number (`Spec/NumberAsap.lean`).
* **C117** the log of the tunnelling client: the lines for an event, written from patterns and from the octets of the datagram
  (`Spec/ClientLog.lean`), over runs of the client with its logger.
* **C118** the log of the USB client, compared with what it decoded and with what it sent (`Spec/UsbLog.lean`).
* **C119** the log of the decoders: the lines for a frame, written from its octets, the tables and what is decoded
  (`Spec/DecodeLog.lean`). Refuted in three ways, for all telegrams of the kind.
* **C120** the log of the discovery: the lines for an event (`Spec/DiscoveryLog.lean`), and that they determine it.
* **C121** the log of the encoders: the lines for a frame, written from its octets (`Spec/EncodeLog.lean`); for a client, those of the
  datagrams on the wire. Refuted without transport, and for acknowledgements of requests that are not the expected one.
* **C122** what the tunnelling program prints: the lines of C117, C119 and C121 put together (`Spec/ClientOutput.lean`). Telegrams that
  are discarded are printed in full, those that are delivered not at all.
* **C123** ints given to the float types: they become the nearest double first (`c123_double`), which for large ints is not the
  nearest number of the type in the end (`c123_refuted`); below 2^53 it is (`c123_nearest_partial`), and otherwise one of the two next
  to the int (`c123_neighbour`) or an infinity (`c123_overflow`).
* **C124** what the USB program prints, where all levels are printed (`Spec/UsbOutput.lean`): telegrams with their octets and addresses,
  but of connection-oriented, tagged and broadcast ones nothing (`c124_refuted`).
* **C125** numbers that a 2-octet float has exactly, `M * 2^E` hundredths: ints are read back as written (`c125_int`) and no others
  are ever read (`c125_int_only`), other numbers are read as one double for all numbers around (`c125_stored_partial`), not always the nearest to the hundredths (`c125_refuted`).
* **C126** the form of 2-octet floats (`Spec/Canonical.lean`): the least exponent, and that raw values of this form are the ones
  restored by reading and writing, but for the mantissa -2048.
* **C127** numbers that a 4-octet float has exactly: those of the format of IEEE 754 (`Spec/Ieee.lean`) are the ones ever read, each
  is read back as written, and no two raw values are read alike.
* **C128** the number written is the number read elsewhere (`Spec/Numbers.lean`): C94, C72 and C95 for numbers rather than octets, and
  with C125 for ints. Objects of other types are told something else (C93).

## 4. Disagreements between code and claims found while modelling

Tables:

* `associate` loops twice over its argument: an iterator or generator is exhausted by the first loop, so that its addresses
  become known and none is associated, without an exception (`c85_iterator_refuted`).
* `disassociate(asap, address_table.addresses)` removes from the list it loops over and so keeps every second address
  (`c85_live_refuted`).
* `GroupObjectTable` keeps a nonempty dict it is given and copies nothing; an empty one it does not keep
  (`c86_shared_refuted`).
* An address object changed while an ASAP has an equal one of its own (`associate` adds only the first to the address
  table): that ASAP receives telegrams to the new address and cannot send any more (`c88_refuted`).
* Two association tables with one address table: a new address of one shifts the TSAPs the other has indexed, which then
  delivers to the wrong ASAPs (`c87_refuted`).
* `AddressTable.add` appends an address that is already there, unless it is the individual address (`or` for `and`);
  the constructor ignores `max_size` (`c07_add_duplicates`, `c06_refuted`).
* Disassociating an address shared by two ASAPs removes it from the address table: the other ASAP no longer receives it,
  cannot send (`TypeError`), and cannot be disassociated (`ValueError`); unresolved addresses of different ASAPs are
  merged under the TSAP `None` (`c08_shared_refuted`, `c10_refuted`).
* A failed `associate` keeps the addresses that fitted, which shifts TSAP numbers under a stale index, so telegrams reach
  other ASAPs (`c11_refuted`).
* After a call that raised, the text of the association table does not show that its index is stale
  (`c90_stale_refuted`); a name with a line end makes one group object look like two (`c90_forged_refuted`).
* the documentation calls an ASAP an int and gives `asap=0` to a message; group messages with an int raise (`c116_refuted`).
* `get_free_asap_value` can return a number in use (`c12_refuted`).
* An address equal, but not identical, to the individual address is entered as a group address; property confirmations
  are lost from then on (`c26_refuted`).
* ASAP 0 keeps the first own address when the own address is changed: sending for it raises `TypeError` (`c68_refuted`).
* A registered address without association makes decoding raise `KeyError` (`c31_unassociated`).

Datapoints:

* `DPT_Control_Dimming` (3.007, four bits) is sent in an octet of its own, and `DPT_Brightness` (7.013, sixteen bits) is one octet
  wide, so that neither is sent as a value of its type and a received brightness loses its upper octet (`c106_refuted`,
  `c106_truncated`).
* The two octet floats know neither the ranges of their types nor the octets for invalid data: -300 degrees are sent, 671000 lux
  are sent as invalid, and invalid data are read as 670760.96 (`c107_refuted`, `c107_marker_refuted`, `c107_invalid_refuted`).
* `Msg.make_from_str` takes the decimal digits of any script for hex digits (`c02_refuted`); so does a property write.
* Small negative numbers and -0.0 encode to -20.48 (`c20_refuted`, `c20_negzero_refuted`); 0xF800 decodes to a number
  that cannot be encoded (`c17_refuted`, `c19_exception`).
* A negative temperature wraps: -5 set in a climate report reads as 46.2 (`c79_negative_refuted`). A temperature given as
  text is accepted with its digits repeated ten times: "21" reads as 21.7 (`c79_text_refuted`).
* `DPT_Float_16.decode` multiplies by 0.01 where dividing by 100 would give the nearest double: 0.35, written, is read as
  0.35000000000000003, and no datapoint is read as 0.35 (`c125_refuted`).
* An int given to a 4-octet float is rounded twice, to a double and then to a float: for 2^60 + 2^36 + 1 the farther of the two
  neighbours is stored (`c123_refuted`).
* The factory ignores fields that the type does not have, and takes numbers modulo the range of their field
  (`c92_unknown_refuted`, `c92_range_refuted`).
* A write sends the number of the datapoint as the registered type, whatever type the datapoint is of: 21 degrees, written
  where a power is registered, arrive as 4e-42 W (`c93_refuted`, `c93_float_refuted`).
* An undefined operating mode makes `decode_msg` raise `ValueError`, because the first datapoint is formatted for the
  log (`c29_refuted`, `c31_refuted`); this also ends the read loop of the USB client.
* The texts of datapoints do not show the bits outside the fields named in their properties (`c89_hidden_refuted`); a
  name of an ASAP can make one message look like two (`c89_forged_refuted`).
* The tunnelling client logs requests without their telegrams, and messages before it encodes them (`c117_value_refuted`,
  `c117_write_refuted`). The USB client does not log a message that it sent if the message has no text (`c118_hidden_refuted`).
* The decoders drop connection-oriented and broadcast telegrams without a line in the log (`c119_refuted`), log telegrams with an
  unknown service as received (`c119_received_refuted`), and acknowledgements as requests (`c119_ack_refuted`).
* The USB program prints everything it reads and writes as errors (`c124_own`), and for telegrams that the decoders drop only that nothing
  was read (`c124_refuted`).
* The tunnelling program prints telegrams for others in full and of those it delivers only the counter (`c122_value_refuted`).
  The encoders log frames that a client without transport never sends (`c121_wire_refuted`), and acknowledgements with the counter
  of the state instead of that of the request (`c121_ack_refuted`).
* Two writes with the same log line can become different frames (`c91_hidden_refuted`, `c91_float_refuted`). The log line
  of an acknowledgement shows the counter of the message, the frame carries that of the state (`c61_ack`).

Frames:

* `decode_msg` returns `None` for group frames that are not plain group data on USB and a tuple for tunnelling
  acknowledgements (`c32_none_refuted`, `c32_tuple_refuted`).
* Group messages whose first address is 0 or the own address are sent but not delivered (`c23_refuted`).
* An ASAP registered without addresses gives a frame without destination and length (`c27_refuted`, `c28_refuted`). Where
  the value has four octets, a receiver takes the service code and the first octet of the value for the destination: 21.5,
  written to such an ASAP, is a telegram to 16/0/65 (`c28_misdirected_refuted`).
* After a telegram whose decoding raises, a tunnelling client acknowledges and decodes nothing more until the server gives it
  up; the opening of a transport connection by any device is such a telegram (`c46_stuck_refuted`, `c57_raises`).
* Frames longer than a USB report are neither split nor put together: a property write of more than 38 octets becomes a report
  of more than 64, and the reports of a split frame are ignored (`c109_refuted`, `c109_receive_refuted`).
* A property write of more than 10 octets is marked as a standard frame, which has no room for it (`c110_refuted`).
* Length octets wrap for property data beyond 232 (USB) or 250 octets (`c27_long_refuted`).
* `nsdu` reads T_Connect and T_Disconnect frames as connected data, and some frames as nothing
  (`c38_connect_refuted`, `c38_none_refuted`).
* Encoding a write indication ignores the medium and always gives a USB report (`c28_indication_partial`).
* A telegram without application octet, i.e. every T_Connect, T_Disconnect, T_ACK and T_NAK on the bus, raises
  `IndexError` when decoded (`c57_raises`); on KNXnet/IP its tunnelling request is then never acknowledged.
* The doctest of `t_disconnect.req` (not run by the test suite) shows the control octet 0x86, the code gives 0x96.

Tunnelling and client:

* An acknowledgement with an error counts as one without: after it the client is one counter ahead of the server for good
  (`c108_refuted`).
* The acknowledgement of a repeated request carries the next counter instead of the request's, and a repeated request 255
  is reported as a sequence error (`c42_refuted`, `c42_wrap_refuted`).
* The client does not repeat requests and counts by acknowledgements: a telegram written after an acknowledgement was
  lost, or before it arrived, carries a used counter and is acknowledged but discarded (`c63_refuted`,
  `c63_early_refuted`). An acknowledgement to the server that is lost is never recovered by repetition (`c64_refuted`).
* The channel of incoming requests, acknowledgements and responses is never compared with the connection's: a request of
  another connection is delivered and uses up a counter (`c97_taken_refuted`, `c97_ack_refuted`, `c97_closed_refuted`).
* A disconnect request of the server is neither answered nor obeyed, an error in a connection state response is ignored: the
  client goes on sending (`c98_refuted`, `c98_forever_refuted`).
* The total length of a datagram and the length octet of a telegram are not looked at: what follows becomes part of the
  value (`c100_total_refuted`, `c100_length_refuted`).
* An acknowledgement with an undefined status advances the local counter and then raises.
* A telegram whose decoding raises is never acknowledged; all later ones are then out of sequence (`c46_refuted`).
* A connect response without endpoint, which is how servers refuse a connection, raises `TypeError` (`c59_refuted`).
* A refused connection with endpoint sets `connected` and resets the remote counter (`c47_refuted`); the local counter is never reset
  (`c48_refuted`); `connected` stays set when the connection is lost.

Clients:

* The search response decoder takes the two octets before the individual address (KNX medium and device status) for it;
  its doctest shows 0x0200 where the example frame says 0xFFFF (`c67_refuted`).
* Any exception while decoding, e.g. for a control telegram on the bus, ends the read task of the USB client, and an
  exception while encoding or formatting ends its write task; the other task goes on, so the client neither reports nor
  stops (`c65_refuted`, `c66_refuted`, `c66_format_refuted`). A closed connection ends the read task by `IndexError`.
* Addresses are read by `inet_aton`: 192.168.1.010 is 192.168.1.8, and 10.1 is 10.0.0.1 (`c80_zero_refuted`,
  `c80_short_refuted`). A host name as local address binds the socket, then `connection_made` raises and the client waits for
  ever (`c80_host_refuted`).
* The tunnelling program asks for a connection once and waits for ever if it gets no answer; an exception in writing one
  message ends it with the others unsent (`c81_silent_refuted`, `c81_spoilt_refuted`). It sends one connection state request
  in its life and no disconnect request, so a server drops the connection before the 42nd message, and keeps the channel
  after the end of a shorter program (`c82_refuted`, `c82_close_refuted`).
* The client sends tunnelling requests to the endpoint it was made with, and hears only that, although the server may have
  named another data endpoint in its connect response (`c101_refuted`, `c101_deaf_refuted`).
* The discovery program takes its own name (`sys.argv[0]`) for the local address (`c102_refuted`).
* `start_tunneling`, `send_discovery_request` and `listen_discovery_responses` use a global `loop` that exists only when
  their file is run as a program. (By reading; not part of the model.)

Daemon:

* A malformed, empty or over-long line makes the daemon write its packet buffer, e.g. the last report read from the bus
  (`c50_refuted`, `c50_empty_refuted`, `c50_long_refuted`).
* An empty line makes it read before its buffer, every accepted line is printed up to the next NUL behind it, two spaces
  put whatever hex digits stand behind them on the bus, `9g` counts as 09 (`c69_empty_refuted`, `c69_print_refuted`,
  `c69_full_refuted`, `c69_leak_refuted`, `c69_digit_refuted`).
* Two lines that arrive together are read in one piece, whose length is odd without the last line end: neither is sent, and
  the packet buffer is written once more (`c72_refuted`). Nothing in the USB client keeps lines apart.
* A line of 56 octets ended by CR LF is read in two pieces and written twice.
* A client that closes its connection while reports come in ends the daemon: SIGPIPE is not ignored and the device is
  looked at before the clients (`c74_closed_refuted`). Clients that only connect end it once `accept` fails, and beyond
  1024 descriptors they make `FD_SET` write outside its set (`c74_connections_refuted`). A client that does not read, such
  as a USB client whose read task ended (C65), stops the daemon for everybody (`c74_blocked_refuted`).
* `--port` and `--host` have no effect, `-d X` makes the daemon end, `-d/dev/hidraw2` prints the usage
  (`c76_port_refuted`, `c76_short_refuted`, `c76_joined_refuted`).
* The 65th client is watched but never in the client table, so it can send but gets no reports, even after other clients
  left (`c77_table_refuted`).

## 5. Tests against wrong programs

`tools/mutate.py` applies an edit from `seeded/mutants.jsonl` to a scratch copy of the model, builds it, replaces the
proof of every declaration that fails by `sorry` until the copy builds, and lists the property theorems that then depend
on `sorryAx`. `seeded/LOG.jsonl` has one line per attempt: the definition and the edit, the claim it breaks, the theorems
that failed, and the theorems that were tightened. A theorem listed as failed is one whose proof, or the proof of a
lemma it uses, no longer goes through. A mutant that breaks a claim while no theorem of that claim fails is a reason to
tighten the theorem.
