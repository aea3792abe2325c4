# Formal model of NubeDev/bacnet in Lean 4

## What this is

`lean/Verif/` contains a model of the Go code in /repo (read as text, never
built or run) and machine-checked theorems about it. `properties.jsonl` lists
the claims, `MANIFEST.json` maps each claim to theorem names,
`seeded/LOG.jsonl` records mutation experiments on the model.

## Layout of the Lean development

* `Verif/Model/*.lean` – the code, function by function. Every definition has a
  comment citing file and lines in /repo and its simplifications.
* `Verif/Spec/*.lean` – small specifications written from the English claim or
  the BACnet standard; they never mention the model.
* `Verif/Text.lean` – notation `t!"abc"` for lists of character codes.
* `Verif/Lemmas/*.lean` – helper lemmas.
* `Verif/Props/*.lean` – the property theorems (`Cnn_...`), each one with an
  `example` showing a concrete instance of its hypotheses. A claim that the
  code violates has a theorem `Cnn_fails...` (negation, with a concrete
  witness) and the part that holds as `Cnn_..._partial`.

## Modelling conventions

* Go `uint8/16/32/64`, `int32` are Lean `UInt8/16/32/64`, `Int32` (same
  wrap-around). `int`/`uint` are unbounded `Int`/`Nat`; every place where this
  matters (values come from 32-bit fields on a 64-bit platform) is commented.
* `float32/float64` are their IEEE bit patterns (`UInt32/UInt64`): the code
  only moves the bits (`binary.Write/Read`).
* A Go function is a total Lean function into `Outcome α`
  (`ok | panic kind | diverge`). A run-time panic is an explicit outcome, never
  a junk value. Loops whose termination is in doubt take fuel; running out is
  `diverge`; "terminates" means some fuel suffices, "does not terminate" means
  that every fuel runs out.
* `encoding.Decoder` is the state (unread bytes, byte `UnreadByte` would
  restore, error). `binary.Read` of n>0 bytes: no-op after an error; short
  input drains the buffer, sets EOF/ErrUnexpectedEOF and leaves the destination
  unchanged. `bytes.Buffer.Read` (used by Skip, date, time) accepts short input
  silently and *overwrites* the error. These stdlib semantics are trusted.
* `encoding.Encoder` is the state (bytes so far, error).
* `interface{}` values are the inductive types `Scalar`/`Value`, including a
  constructor for Go types the code does not know.
* Goroutines, mutexes and channels (packages tsm, utsm) are transition systems;
  one step is one atomic action (lock, channel operation, map access).
  Theorems quantify over all reachable states of any number of goroutines.
* The client as a whole (`Model/System.lean`) is one transition system: the
  handlers of arriving datagrams, the request calls and the discovery calls run
  over the systems of tsm and utsm. Crashes end an execution and are the subject
  of other claims (C38, C49, C81).
* The command discover (`Model/Discover.lean`) is a transition system of its
  own: the loop of `WhoIs` calls, the workers and the merging goroutine with
  their two buffered channels. The calls return anything. The read of
  `results` for saving is one atomic step (in Go it is a data race).
  Package cmd does not compile at this commit (`NetworkClose()` is called
  without its argument in readprop.go); the claims are about the text of the
  functions.
* A single discovery call (`Model/DiscoveryCall.lean`) is a transition system of
  its own as well, with the goroutine that sends the request and the variable
  `err` both goroutines use. Reads and writes of `err` are atomic (in Go they
  are a data race); the channel of `Subscribe` loses its last message when the
  time is up, as in the model of utsm.
* The life of a client (`Model/Lifecycle.lean`) is a transition system of its
  socket, its receive loops and the datagrams waiting at the socket. Datagrams
  the operating system drops for lack of room are left out. The commands read,
  whois, write and multi are in the same file; what read and whois do after
  opening the network is a parameter (they never get there, C132).
* Flags (`Model/Flags.lean`): trusted are that pflag stores the default in the
  variable when a flag is registered, and that the `init` functions of a package
  run in the order of its file names.
* The timed subscriptions (`Model/Timed.lean`): the steps of `Model/Utsm.lean` with a clock that only goes forward, in whole
  ticks; `lastReceived`, the overall context and the context of each round with their deadlines. A context is done from its
  deadline on; if there is a message as well, the select takes either. Ghost fields note when things happened. In executions
  marked prompt, time passes only when no subscriber and no publisher at a channel with room can go on.
* The timed request calls (`Model/TimedCalls.lean`): the steps of `Model/System.lean` with a clock in whole milliseconds that only
  goes forward. A call begins before it has a slot; it may give up waiting for the slot or the id when the context of `tsm.ID` is
  done and not earlier, and `Receive` may return a time-out when its own is done and not earlier; a context is done from its
  deadline on. Computing, sending and the network take no time unless the execution lets the clock run meanwhile; "nothing is
  slow" means that the clock runs only while no calling goroutine can make a step. Garbage collection and timers that fire late
  are executions that are not "prompt".
* The networks of a process (`Model/Process.lean`): one store for the process; `Network` values are numbered, a pointer of the
  program is knowledge of the number, and pointers may be forgotten; the client of a network can be closed only through the
  network, because the field is private. `net.ListenUDP` fails exactly for a port that a socket of the process has or that the
  rest of the system (a fixed set of ports) refuses. Copies of a `Network` value by the program are left out.
* The special months and days (`Model/DatePattern.lean`): the comparisons of `encoding/date.go`; nothing in /repo calls them.
* The home directory and the settings (`Model/HomeDir.lean`): environment variables and the programs that are run are inputs;
  what is done under a lock is one step; paths are those of Unix. Trusted: the behaviour of `strings.TrimSpace`, `strings.SplitN`,
  `filepath.Join`, and that `exec.Cmd.Run` wraps `exec.ErrNotFound`.
* Texts of addresses (`Model/AddrText.lean`): `ParseIP` and `ParseCIDR` of Go 1.17 on the characters (IPv6 text is a
  parameter), `ValidIP`, `NormaliseIPAddr`; the texts btypes makes of identifiers and answers (`%v` of a value is a
  parameter); the checked type assertions of helpers/data. `C151_refines` shows that the other modules, which work with
  the parsed address, lose nothing.
* The command write (`Model/WriteCmd.lean`) takes package strconv as a
  parameter: theorems say what they assume of it (`C123_Parses`).
* Network and clock are the environment: client calls are functions of an
  arbitrary script of events (send failure, time-out, delivered value).
* Logging, formatting of error texts, and the CLI output are not modelled.

## Trusted base

* Lean 4.33.0 kernel; axioms used by the theorems: `propext`,
  `Classical.choice`, `Quot.sound` only (checked by a command in
  `Verif/Axioms.lean`). No `sorry`, no `native_decide`, no `bv_decide`.
* The transcription of the Go code into `Verif/Model`.
* The stated semantics of the Go standard library (`encoding/binary`,
  `bytes.Buffer`, `net` (`ParseCIDR` from the parsed host part, `To4`,
  `CIDRMask`, `ReadFromUDP` dropping what exceeds the buffer), `fmt` (`%d`),
  `regexp` (alternatives of character classes), `encoding/json` (maps keep
  keys and values), conversion of `uint32` to `float32` (nearest, ties to
  even, written out in the model), `reflect` kinds, `sync`, channels), of
  go-cache (a map without expiry) and of `golang.org/x/text`
  (UCS-2 decoding is an uninterpreted parameter).

## Not modelled

* Goroutines that package network starts (its calls are modelled as
  sequential programs over an arbitrary behaviour of the client's calls).
* `cmd/` except the commands `discover` and `write`, log output, JSON text layout
  (only the key mapping is), socket system calls, `sync.Pool` reuse policy
  (any reuse is allowed), timers (a time-out may fire at any moment).

## Plan per property

* **C01 Tag headers round-trip** — Encoder/Decoder tag functions as state transformers; round-trip by case split on number/length class.
* **C02 Tag headers follow the BACnet layout** — `Spec.tagHeader` is written from clause 20.2.1 without the model; refinement `encoder appends Spec.tagHeader`.
* **C03 Unsigned integers are minimal big-endian and round-trip** — Round trip + minimality against `Spec.minBytes` (number of base-256 digits).
* **C04 Object identifiers round-trip and are never silently aliased** — Expected false for out-of-range identifiers (masks): negation by witness, iff-characterisation as `_partial`.
* **C05 Application values round-trip** — Round trip for every supported type; int32 128..255 / 32768..65535 and Enumerated expected to fail: negation + exact characterisation.
* **C06 Announced length equals content length** — Header/content split against Spec; float64 expected to fail (length 4, 8 octets): negation + partial.
* **C07 Unsupported values are refused, errors are sticky** — Invariant over arbitrary sequences of encoder operations.
* **C08 Signed integers are two's complement** — Against an independent two's complement spec; 3-octet negatives expected to fail: negation + partial.
* **C09 Decoding an application value never crashes the process** — Panics are explicit outcomes; iff-characterisation of the panicking inputs, negation by witness.
* **C10 Truncated application values are reported** — Prefix analysis; the empty prefix (decodes to Null) and cut string headers (panic) are expected counterexamples; partial for the rest.
* **C11 Decoder failure is final** — Invariant `error => buffer empty` over sequences of primitive reads; Skip/date clear errors: negation + partial.
* **C12 Bit strings are decoded bit for bit** — Bit-level refinement against the wire bits; k=0,u>0 and k>15 expected to fail: negation + partial.
* **C13 Bit string set/get laws** — Set/get laws over the list-of-octets representation.
* **C14 Dates and times are decoded as transmitted** — Field-by-field refinement; epoch 1990 and year 255 expected to fail: negation + partial.
* **C15 Max-segments / max-APDU octet** — Arithmetic characterisation over all Nat; >1476 expected to fail.
* **C16 BVLC header round-trips and its length field is exact** — Round trip, and length field equation for every payload below 65532 octets.
* **C17 NPDU headers round-trip** — Round trip for well-formed headers; vendor type 0x80 expected to fail.
* **C18 Decoding a network header never crashes** — Totality by structure of the model (no panic outcome), plus consumption bound.
* **C19 I-Am-Router-To-Network lists are decoded completely** — Exact result for every list; expected false for k=1 and k>=3.
* **C20 APDU headers round-trip** — Round trip per PDU type + refusal of the others.
* **C21 Error PDUs report the device's class and code** — Exact decode of the standard Error-PDU; expected false (code lost).
* **C22 Who-Is requests round-trip** — Round trip; boundary 4194303 expected to fail.
* **C23 I-Am messages round-trip** — Round trip.
* **C24 ReadProperty request layout** — Refinement to a Spec byte layout + round trip.
* **C25 Invalid object types and properties are refused before transmission** — Expected false: the header error is dropped; negation + what is actually sent; multi-requests.
* **C26 ReadProperty acknowledgements produced by the library are well formed and round-trip** — Round trip for all values; tag balance expected false (closing tag 4).
* **C27 ReadProperty results: complete and in order** — Decoding of Spec-encoded acknowledgements, induction over the value list; every conforming value is read as something, so `C27_exact` is an equivalence.
* **C28 ReadProperty decoding terminates** — Fuelled loop; fuel = buffer length always suffices.
* **C29 WriteProperty request layout** — Refinement to Spec layout.
* **C30 WriteProperty never crashes the caller** — Expected false: type assertion panic; exact characterisation.
* **C31 ReadPropertyMultiple request layout** — Refinement to Spec layout by induction over objects and properties.
* **C32 WritePropertyMultiple request layout** — Expected false with priority; exact layout proved.
* **C33 ReadPropertyMultiple results: complete and in order** — Decoding of Spec-encoded acknowledgements, nested induction over objects, results, values. `C33_verdict` covers every conforming answer without constructed values: the objects before the first one that has no results or an error are decoded, decoding ends with that error; with C135 this gives 'exactly if' (`C33_exact`).
* **C34 ReadPropertyMultiple decoding terminates** — Expected false: divergence for every fuel on truncated input; termination for conforming input.
* **C35 ReadPropertyMultiple acknowledgements produced by the library round-trip** — Expected false: witness; 
* **C36 Property errors inside a multi-read are reported** — Exact decode of an error entry after any conforming prefix.
* **C37 Only replies complete a pending request** — handleMsg as a pure function datagram -> effects; expected false for confirmed requests and network-layer messages.
* **C38 No datagram crashes the process** — Expected false: witnesses; safe class of datagrams proved safe.
* **C39 Forwarded messages are handled like direct ones** — Expected false: witness + general statement.
* **C40 Reject and Abort end the request** — Expected false: proved that no effect is produced.
* **C41 Frame kind selection** — Decision logic.
* **C42 Bounded retransmission** — Client calls as functions of a scripted network; count of transmissions.
* **C43 Oversized requests are never transmitted** — Same model; size guard.
* **C44 The result of a call is what the device answered** — Same model; result analysis.
* **C45 Requests to routed devices carry a valid network header** — Header round trip of the addresses used by the four calls; WPM and multi-octet addresses expected to fail.
* **C46 Invoke ids of concurrent requests are distinct and valid** — Interleaving state machine; inductive invariant.
* **C47 No invoke id is ever lost** — Same machine; conservation invariant (counting).
* **C48 Replies reach the transaction they were addressed to** — Expected false (state object recycled): reachable misdelivery; invariant under no stale sender.
* **C49 Late or duplicate replies are harmless** — Expected false: reachable panic; exact condition.
* **C50 Waiting callers make progress** — Same machine; enabledness.
* **C51 Subscribers receive exactly the matching messages, in order** — Interleaving state machine of Publish/Subscribe with mutexes and the one-slot channel; history invariant.
* **C52 Discovery never deadlocks** — Expected false: reachable state from which nothing moves, for every continuation.
* **C53 Unsubscribing is complete** — Invariant.
* **C54 Who-Is results: in range, unique, first answer wins** — Functional model of the result loop; induction over received messages.
* **C55 Object list scan covers every index exactly once** — Functional model of the chunk loop; induction.
* **C56 Object information is requested for every object exactly once** — Functional model of the grouping loop; induction.
* **C57 Names are attached to the object they belong to** — Functional model; expected false when the device answers in another order or types > 128 are mixed.
* **C58 The object table contains exactly the listed objects** — Map model; induction.
* **C59 Object tables survive JSON** — Name table model; expected false for unnamed types.
* **C60 IP addresses survive the conversion to BACnet addresses** — Round trip.
* **C61 The broadcast address is the last address of the subnet** — Bitwise/arithmetical characterisation for every mask.
* **C62 A client opened by IP uses the given subnet and port** — Expected false: arguments swapped; characterisation of when opening succeeds.
* **C63 Port validation** — Regex modelled as a decimal-string matcher; iff over all integers.
* **C64 Priority array: the active value is the one of highest priority** — List model of the 16 slots; expected panic for REAL entries.
* **C65 Releasing a priority** — Decision logic.
* **C66 A configured device is addressed as configured** — Expected false (port dropped); the rest proved.
* **C67 Discovery returns each device once with its own data** — Expected false (pointer aliasing), exact result proved.
* **C68 Object list of a device is complete** — Functional model; one-object devices expected to fail.
* **C69 Service table is consistent** — Finite table, complete `decide`.
* **C70 Property names round-trip** — Finite table, complete `decide` lifted over the look-up functions.
* **C71 Conforming application values are decoded to their meaning** — Decoding of Spec-encoded values, one case per kind; negation for dates.
* **C72 Every answer reaches the request it belongs to** — handleMsg as a function; exact effects for Spec-built datagrams.
* **C75 An I-Am is published once with its sender's address** — Exact effect of Spec-built I-Am datagrams; negation for the address length.
* **C76 Only well-formed BACnet/IP frames have an effect** — Negation (type octet and length field are ignored) and the part that holds.
* **C77 Segments are not taken for whole answers** — Negation for every segment.
* **C73 A write succeeds only when it was acknowledged** — Composition of handleMsg and the call; negations for peers' requests and other services' answers.
* **C74 A read returns the property that was asked for** — Negation: the answer's own identifiers are returned.
* **C78 A complete read delivers the device's values** — Composition of request encoding, handleMsg on the Spec-built answer, and the call.
* **C79 A complete write** — Same composition for SimpleACK.
* **C80 Invalid requests are refused** — Negation: a bare header (read) or an aliased object (write) is transmitted; nothing sent implies an error.
* **C81 Request calls return** — Negations (hang, panic); termination for answers the decoders end on.
* **C82 Requests that fit are sent** — Size guard includes the network header; exact guard proved.
* **C83 One entry per object in an answer** — Exact decoding of answers with components and date-times; negation when there is a component.
* **C84 Components of constructed values have their standard datatype** — Same theorem; table compared with the standard's, negations for Booleans and two shed levels.
* **C85 Date-times in answers** — Same theorem; year as in C14.
* **C86 Malformed results are rejected** — Negations.
* **C87 WhoIsRouterToNetwork returns the announced networks** — Exact effect of Spec-built announcements; negations for one, three and four networks.
* **C88 WhatIsNetworkNumber returns the announced numbers** — Exact effect of Spec-built messages, induction on their list.
* **C89 The Who-Is request covers the requested range** — Octets of the request, interval reasoning on truncated limits; negation above 2^32.
* **C90 Discovery end to end** — Composition of C75 and C54 over lists of datagrams.
* **C91 Reading the objects of a device never crashes** — Invariant over the name loop; crash theorems from octets.
* **C92 The requests of Objects respect the device's limit** — Sizes of the standard encodings; arithmetic.
* **C93 Objects end to end** — Composition of C57, C78 and C92 for a specification device.
* **C94 One missing property does not spoil the others** — Refuted from C36 through the retry loop.
* **C95 Answers of the announced size are received whole** — Truncation of the datagram composed with C72.
* **C96 The receive loop survives errors** — Induction over the stream of socket results.
* **C97 No sender crashes the receive loop** — Induction over the stream; `To4` of other addresses is nil.
* **C98 Broadcasts go to the port in use** — From C61.
* **C99 A client opened by interface name uses the interface's IPv4 address** — First-match lemma over the interface addresses.
* **C100 Texts of enumeration values** — Generic lemma about the generated functions, tables by evaluation.
* **C101 Values of a priority array are exact** — Real value of the converted bits against the integer; negation above 2^24.
* **C102 Network discovery lists every device that answered** — Induction over the answers; negation for DeviceDiscover and long addresses.
* **C103 Reading a present value as float returns the value answered** — Composition of C78 and the conversion; negation for other types.
* **C104 Reading a present value as number returns the value answered** — Same.
* **C105 Point writes transmit the value in the point's type** — Composition of C79 and C29/C30; negations.
* **C106 Inputs are not reported as writable** — Negation; case analysis.
* **C107 Failed reads are reported** — Negation for the details.
* **C108 The unit of a point is the unit answered** — Composition of C78, C71 and C100; negation above 16 bits.
* **C109 Network discovery keeps what the devices announced** — Induction over the answers; negation when the reads fail.
* **C110 Names are written and read back exactly** — Composition of C79 and C78.
* **C111 The store returns what was put into it** — Map lemmas; negations.
* **C112 Points of a device are its objects other than devices** — Induction over the object list.
* **C113 Learned limits are used** — Negation: only the outer fields change.
* **C114 Discovery returns every device that answered in time** — The client as a whole (Model/System) is a transition system whose projections are the systems of C46 - C53; history of publications; the list is the function of C54 on a prefix of them. Negation for every I-Am.
* **C115 Discovery calls return** — Negation: an execution for any two I-Ams, lifted from C52; with one message no publication waits for ever.
* **C116 Concurrent request calls behave as if they were alone** — Refinement: an invariant relates every call of the transition system to the sequential function with the script of its own attempts.
* **C117 What a call returns is the answer to its request** — C116 with C44, C73 and the invariant that every value received was mailed by a handler for a datagram that arrived (C37). Negations: executions for every valid read and every acknowledgement.
* **C118 Requests under way have different invoke ids on the wire** — The invariant that active calls hold open transactions (C46); the encoder only appends, so the header octets stay.
* **C119 A request call under way can always end** — Induction over the attempts left; a caller inside Put is run to its end first (C50).
* **C120 The discover command saves what it found** — Invariant over the transition system counting, for every predicate, the devices in channels, workers and results; negation: an execution for any number of workers and devices.
* **C121 The discover command ends** — Safety from the same invariant; a measure (calls left, then work left) that every step decreases; case analysis of stuck states.
* **C122 The discover command asks for every device** — From the model of WhoIs: the first block has the limits 0 and 0, which means all; every other block has equal limits.
* **C123 The write command writes what was asked** — Composition of the end-to-end read (C71, C78) and the request octets (C29); strconv is a parameter. Negations for every unknown name, unparsable text, enumerated value, priority above 255, odd number above 2^24 and non-number answer.
* **C124 A discovery call whose request could not be sent reports it** — Transition system of the two goroutines of a call with the shared variable err; invariants by induction over executions. Negations with explicit schedules: error overwritten, sender blocked for ever, silent calls. Eight own steps at most, never stuck.
* **C125 The answers to a discovery request are not missed** — Invariant over executions relating the list to what was published between the points where the subscription is entered and left; the points are unique. Negations: the request goes out before the subscription is entered, the last message stays in the channel.
* **C126 Discovery requests are sent as broadcasts** — Composition of the request octets (C89), the frame and the choice of the BVLC function. Negation for every interface: the local Who-Is is framed as a unicast.
* **C127 An I-Am sent by the library is understood** — Composition of the encoder, the frame and the handler of the receiving client. Negations: address length not set, identifiers out of range.
* **C128 The answer to a request under way is not dropped** — Case distinction over the moves of the whole client with its invariants (table of transactions, tied calls); the second part builds the moves.
* **C129 A client that was closed is closed** — Invariants over executions of a small transition system of a client (socket, receive loops, buffer of the socket). Negations: ClientClose(true) closes the standard error output and nothing else.
* **C130 A client has one receive loop** — Invariant relating datagrams arrived, handed over and waiting; the number of loops is runs minus errors minus exits. Negation: n calls of Whois leave n loops.
* **C131 A command that cannot open its interface says so** — Composition with the models of opening (C62, C99). Negations: write and multi drop the error of NewClient and dereference nil; so does the receive loop.
* **C132 The commands read and whois do their work** — Negation for every interface that can be opened and every continuation: New dereferences the nil store.
* **C133 The multi command reads names and values** — Composition of the calls (C78) with octet-exact requests. Negations: the unused object list is not answered; the limit is not one positive number.
* **C134 A flag that is not given has its announced default** — Induction over the command line; the table of registrations is checked by evaluation. Negation for every command line without the two flags.
* **C135 Whether decoding a ReadPropertyMultiple answer ends is decided by its length** — Every round of every loop uses up input, fails, or comes back to a state it never leaves (end of the input; a closing context tag of one octet other than 4): induction on the number of octets left. This also shows that the bound `fuel` of the model loses nothing.
* **C136 A device that answers badly does not stop the requests to other devices** — Invariant: a call that hangs keeps its transaction; counting of slots. Negation: an execution by induction on the number of calls, in which one device's answers take all slots; converse: with fewer such calls some other goroutine can give its slot back.
* **C137 A subscription ends in time and with all that was published to it** — The publishers and subscribers of C51 with a clock, `lastReceived` and the deadlines of the two contexts. Two invariants per call: one for all executions (lower bounds), one for executions in which time passes only while nobody can go on (upper bounds). Negations: executions with any number of ticks, by induction.
* **C138 A request call returns in time** — The client of C73 with a clock and the deadlines of the contexts of `tsm.ID` and `tsm.Receive`. One lemma lists what a single caller can do in a step; two invariants per caller, as in C137; a progress lemma says where callers can be when nobody can go on. Negation: one hanging answer, then any number of ticks.
* **C139 A network that was opened can be closed, and one that was not leaves no port taken** — A transition system of clients, `Network` values, pointers of the program and the store; "held" is reachability from the pointers, an invariant says that a client that is not held never is again.
* **C140 Networks on different interfaces can be open at the same time** — Same system: `NewClient` depends on the sockets of the process only by whether its port is free.
* **C141 Special months and days of a date are recognised** — The predicates against a separate table of the standard, over all octets of a date and through the decoder.
* **C142 An answer in time is not reported as a time-out** — System of C138: while an answer is offered the state is busy, so the clock stands still, and `Allows` forbids the time-out before the deadline; the negation is an execution in which the answer arrives at the deadline.
* **C143 The memory of the transaction manager is accessed by one goroutine at a time** — A table of which memory each goroutine accesses next (checked against the steps for writes), races as two conflicting next accesses; by the invariants of C46-C48 objects have one owner, so only one kind of race is left.
* **C144 The home directory is found** — Separate description of a line of the password file; case analysis of the detection.
* **C145 Dir returns the home directory of the moment** — Transition system with a history of environments; invariant: the cache is of a time after the last Reset.
* **C146 Expanded paths lie below the home directory** — Paths as lists of names; cleaning keeps names.
* **C147 Settings for interface and port are used** — The variables do not depend on the settings.
* **C148 The value a device sent can be fetched from the answer** — End to end from the octets of the answer; the Go type of every decoded value.
* **C149 An address text that is accepted is used as this address** — Exact language accepted; octets of the device built.
* **C150 Address texts are read back** — The parser of package net inverted: exactly the dotted decimal texts.
* **C151 Address and prefix length of a configuration are read as given** — Refinement: the text level agrees with the model on parsed addresses.
* **C152 The text of an object identifier identifies the object** — The texts are split at the first blank.
* **C153 A printed answer tells which property was read** — Exact condition for equal texts.
* **C154 Fetching a value after a failed read does not crash** — Exact condition for the crash; end to end for answers.
* **C155 The memory of the subscription manager is accessed by one goroutine at a time** — A table of accesses with the mutexes held, as in C143; the invariant of C51 says that a publisher only meets subscribers that have subscribed.
* **C156 The results of the discover command are read when they are complete** — The system of C120; a race is two enabled steps, one that reads and one that writes the results. Exact by the invariant of C120: what waits to be merged was found by a worker.
* **C157 The text of a bit string tells its bits** — Injectivity of the text; exactly which contents have none.
* **C158 What was set in a control octet is read from it** — Histories of setter calls as lists of operations; what is read is the last value said, or all values together, by induction.
* **C159 An address is taken for what it was declared to be** — Case analysis of the predicates of an address; lengths modulo 256 as the Go conversion to uint8 takes them.
* **C160 The octets of a bit string are those received** — Bit strings received, as in C12; the least number of octets by arithmetic on the remainder; exact condition for the crash.
