# Formal model of hrygo/gosms in Lean 4

## How the model is organised

* `Verif/Go/*` – the fragment of Go the code uses: byte slices, bounds-checked indexing, `copy`,
  big-endian integers, UTF-8 strings. A Go panic is the value `none` of an `Option`; a Go `error` is a
  value of an explicit type.
* `Verif/Model/*` – the code, function by function. Every definition cites file and lines of /repo.
* `Verif/Spec/*` – small specifications written without reference to the model (wire layouts as lists of
  fields, canonical stream splitting, abstract maps, counters).
* `Verif/Lemmas/*` – helper lemmas.
* `Verif/Props/*` – the property theorems; each has `example`s next to it showing its hypotheses are met.

Goroutines and channels are state machines with explicit steps; "for every interleaving" is "for every
list of steps". Clocks are arbitrary lists of readings. MD5, GB18030, the regular expression engine and the
random source are arbitrary functions (parameters of the theorems).

When the code does not satisfy a property in full, the file contains (a) a theorem refuting the full
statement with a concrete witness, named `..._fails` or `..._refuted`, and (b) a theorem with suffix
`_partial` with the strongest statement found that does hold.

## Plan per property

| Property | Modelled | Method |
|---|---|---|
| C01 octet strings | OctetString, TrimStr on byte lists | list induction |
| C02 hex ids | digit table and shifting loop | inverse function, induction on digits |
| C03 BCD | StoBcd loop, BcdToString | induction on pairs of digits |
| C04 BCD ids | NextVal as a state step with a clock reading | invariant over histories |
| C05, C06 cyclic sequence | NextVal on 32-bit words | modular arithmetic; refutation for data centers |
| C07, C08 snowflake | NextVal incl. waiting loop over a list of clock readings | invariant over histories, bit-field lemmas |
| C09, C10 snowflake32 | same | same; non-termination by induction on the clock |
| C11 SGIP sequence | NextVal step | arithmetic mod 2^32 |
| C12-C15 TLV | ReadObject/WriteObject on a reader, list operations | round trip, refinement to lists |
| C16, C17 text | Go UTF-8 decoding, UTF-16BE transcoding | induction on characters |
| C18-C20 slices | ToTPUDHISlices, MsgSlices | list algebra; refutation of reassembly |
| C21-C40 codecs | every Encode/Decode/constructor/ToResponse/Check of the three protocols | writer/reader calculus: encoder = concatenation of the fields of the layout spec, decoder inverse to it |
| C41-C44 framing, robustness | OnTraffic/DecodeAndCheckHeader on a buffer, decoders with panics | refinement to canonical splitting, exact panic conditions |
| C45-C49 server | session state machine, login, counters, window, ticks | inductive invariants over event lists |
| C50-C51 options | options_mt.go, setOptions | case analysis, induction on option lists |
| C52 store | Load/FindByCid | induction over loads |
| C53, C54 events | Register/Call/... and micro-step Register | refinement to a map; interleaving witness |
| C55-C62 client | send/response/query/clean, session pool, Close, receiver | state machines with a heap of results and dynamically typed keys |
| C69 reports reach the result | same state machine as C55 | refuted: invariant on the keys of the message id map |
| C70 closing while in use | goroutines as programs over the session's fields, any schedule | invariant over schedules; refutations for any two goroutines |
| C71 pool size | pool as list of sessions, ticks and dials as steps | induction over histories |
| C72 no connection | PeekSession against any evolution of pool and health | induction over looks; non-termination as refutation |
| C73 client crash | the three client onTraffic functions on any packet, panics as `none` | exact characterisation; two for-all refutations |
| C74 client answers | bytes written, closing, results of the same functions | one equation per protocol and kind, against a separate table of kinds, bodies and answers |
| C75 answer recorded | server response encoder, client receiver, onTraffic, result caches composed | composition of the earlier theorems; refutation for CMPP and SMGP |
| C76 answers | on_traffic.go, all handlers, completeLogin: packets, tasks, window, write queue and callbacks as one transition system (Model/ServerTraffic) | invariant: what is written, queued and still to be sent for a request is a prefix of what its handler sends; counting; a decreasing measure for coming to rest |
| C77 reports | the same, with ToDeliveryReport and NewDeliveryReport | the same invariant: frames of one request are in order |
| C78 account rules | the packet checks (their outcome is unused) | refutation from C76 |
| C79 logins on the wire | login handlers and callbacks in the same system | invariant: logged in only after an accepting response was written; frames written before a packet arrived precede its answer |
| C80 counters | CounterAddMt, CounterAddRpt in the callbacks | invariant, and telling frames apart by their bytes |
| C81 texts from handsets | NewDelivery, NewDeliver of the three protocols | equation for the whole frame, for every text; refutations for classes of texts |
| C63 limiter | setupLimiter | integer division |
| C64 StructCopy | structs as lists of named typed fields | induction on fields |
| C65 command names | String methods | case analysis |
| C67 closed connections do not count | sessions state machine, `late` callbacks as parameter | invariant; lock-out as refutation |
| C68 inactivity | heartbeat state machine | decision from the history |
| C66 part numbers | NewSubmit of CMPP and SMGP | per-index list reasoning; refutation for SMGP |
| C82 random choices | RandNum, DiceCheck, processTime with the draw as parameter | counting draws |
| C83 shutdown | signal, goroutine of destory.go and main as a transition system | invariant; decreasing measure under fair schedules; refutations for all hooks |
| C84 client command | loop, shared variable, tasks of the pool | invariant; a schedule for every list |
| C85 pid file | savePid on file contents | case analysis |
| C86 generators | SeqInit on a configuration function | composition with C05-C11; refutations for all configurations |
| C87 loggers | custom_log New, logInit | equality of results under changes of one key |
| C88 store start | auth.New, InitDB, setConnect, ReplaceAll | case analysis; list induction for the address |
| C89 shipped patterns | parser and meaning of the fragment of regexp used, config.yaml | expansion into classes, disjointness sound for all texts; composition with C58 |
| C90 own frames | OnTick, activeTest, mockDelivery, sendTerminate beside Model/ServerTraffic (Model/ServerTicks) | simulation: without own frames a run is one of C76; origin invariant; history of heartbeats and use; counting |
| C91 closing | the closing tasks and callbacks of Model/ServerTraffic and Model/ServerTicks | invariant: closing has a cause on the wire or among the requests; a closing task is kept until it ran |
| C92 closing and the ticker | LogSession, LogCounter, deferFunc, sendTerminate, completeLogin as single accesses (Model/Ticker) | schedules that end the process from every state; invariant of the visit for schedules kept apart |
| C93 reported | mockSendCmppReport, mockSendSmgpReport with the draw (Model/ServerTraffic) | conservation of a task's frames, which are lost all or none (invariant); recipients counted by a positional reading of the decoder |
| C94 login exchange | client request and response handling (Model/ClientLogin) joined with Model/ServerTraffic | fields of the encoded request against the server's decision; the state of the server's session as an invariant of what it wrote |
| C95 replay | as C94 | the decision depends on the body, the account and the number of sessions only; what is hashed is injective in id, secret and time |
| C96 server known | as C94 | every digest and sequence number is accepted; bytes of the server's response |
| C97 logging | the Log methods and the handlers' records (Model/Logging), panics as none | every decoded or made packet has what its Log reads; the names of commands are total (C89 group) |
| C98 passwords | as C97, with levels | two runs compared; hex is injective, so dumps determine the packet |
| C99 texts | as C97 | two packets compared |
| C100 login crowds | the server's pool as a machine over submits and ends (Model/Pools) | invariants over operation lists; crowds computed for every number of CPUs |
| C101 isolation | an event loop with its sessions' pools (Model/Pools) | invariant over step lists; the loop's recovery by giving the steps; a stuck loop by induction over what follows |
| C102 ticks reach all | as C100 | as C100 |
| C103 client memory | the three caches of Model/Client | invariants over all histories: an entry's key is the one its result holds; the leak by induction over what follows |
| C104 client heartbeats | one session's health checks (Model/ClientHeartbeat) | exact effect of a check after any history |
| C105 journal | the cleaner's handler, the pool and the collection on top of Model/Client (Model/Journal) | invariant: waiting and stored results are distinct and handed over; what is lost stays out by induction over what follows |
| C106 text end to end | Model/Client, ClientTraffic, ServerTraffic joined by bytes | composition of C76 (one answer per packet at rest) and C75 (answer recorded); induction over what follows for its staying |
| C107 concurrent sending | SelectSession and CreateSessionFactory as steps of goroutines around the lock (Model/ClientSelect) | invariant of the lock and of each goroutine's place; progress by giving the steps; blocking by induction over what follows |
| C108 usable connection | lruSort's connection attempts and PeekSession's looks as single steps (Model/ClientPoolFill) | blocking by induction over what follows; the state after a tick |
| C109 client window | the factory's window and limiter (Model/Limiter) | from the bounds of C63 |
| C110 reload | listing, reading and inserting as steps, with an operator's changes between them (Model/Reload) | origin invariant of map entries; a whole reload equals the load of C52; invariant for a careful operator |
| C111 connections | connections with the sessions that own them (Model/ClientConns) | invariant: the pool's connections are open unless closing; leak by induction over what follows |
| C112 base path | setBasePath, strings.Index (Model/Startup) | list induction for the first occurrence |
| C113 ports | main, Start and pprofDebug as goroutines binding ports (Model/Process) | invariant over all schedules |
| C114 several loops | check, load and store of the count as steps of several event loops (Model/Accept) | invariant for one loop, and for loops that do not interleave in the middle of counting; constructed runs, by induction on the limit, for the rest |
| C115 printing | the `String` methods with `fmt`'s verbs as functions on bytes, panics as `none` (Model/Printing) | the print of a header is read back (numbers have digits only, names no comma); tables of statuses by lookup; the failing part is built from the decoder's round trip |
| C116 ending client | the pool's goroutine, the shutdown functions in any order, receivers and the garbage collector as interleaved steps (Model/ClientStop) | invariants (a session being closed has no connection; what the closing function found is closed or in its list); constructed runs from every state in which a connection is being made |
| C117 concurrent ids | the five NextVal bodies as programs of single accesses, any number of goroutines, the mutex as a holder (Model/IdLock) | invariant over all schedules: between lock and unlock one goroutine only, the fields those of calls one after the other; each body alone refines NextVal of Model/Sequences; counting argument from values taken to values returned; constructed runs for the failures |
| C118 shared memory | arrays and slices as windows onto them; the event loop's memory as one array overwritten at any time; what each Decode and NewSubmit keeps of its argument (Model/Buffers) | invariant over all histories: the arrays of handlers and of the write queue are none of the event loop's and are never written again; positions of the kept fields read off the decoders; the sharing itself proved for every byte and every number |
| C119 objects used again | Decode as assignments to an object that is a parameter, Encode as raising the length (Model/Reuse) | each Decode compared read by read with the one on a new object: which fields it leaves; invariant over histories of uses; for the four that remember, the outcome for every pair of bodies |
| C120 following a message in the logs | the records of Model/Logging with keys and values; the frames of Model/ServerTraffic | `Shows`: exactly one field of the key, by lookup over the header's fields; ids compared as texts, their digits as numbers; records of answers compared with what decoding the frame gives (round trips C12-C14); the failure for all ids of a generator by the bits of the timestamp |
| C121 ids over restarts | lives of a process, each with generators made anew from the configuration (Model/Restart) | no id twice iff the lives share no millisecond (minute, place in a second): the first id of a shared unit is the same in both lives, by induction over the calls; conversely ids tell their time (C04, C08, C11) |
| C122 calling events | functions in slices that share arrays with the caller, arguments, channels with room for one (Model/EventCalls) | a function given one by one is kept through every history, by induction; each way to lose it refuted for all slices |
| C123 configuration changed at run time | configuration as a function of time; the pool with max-conns read once per tick (Model/LiveConfig) | bound and reached number by induction over histories with changes; the torn range and the number lowered refuted for all values |
| C124 the end of the server | all connections (Model/ServerTicks) beside the signal goroutine and the main goroutine (Model/Shutdown), with no function registered (Model/ServerStop) | the process and each connection are projections of the history; what holds at every prefix of a connection (C76) holds at the end; the five steps to the exit computed from any state |
| C125 handlers of closed connections | the window of a session with its handlers waiting, at work and giving back (Model/Window) | invariant: every channel but the session's is closed; a handler at work after the closing waits on nil, for every continuation; rest reached by induction on the handlers left |
| C126 client goroutines | the caches of the client with every access a step: senders (write, then store), receivers (look up, four assignments), the cleaner (visits, then deletions) (Model/ClientRaces) | invariants over all interleavings: who can reach a result; phases of a receiver; keys the cleaner holds are numbers of old requests |
| C127 ids of one process | all connections of a process (Model/Farm), each the connection of Model/ServerTicks; ids are values the generators of Model/IdLock returned | counting: an id is given at most as often as accepted submits drew it, on two connections together; C117 for the generators; origin of deliveries (C77) |
| C128 other clients | the same | projection: the state of a connection is that of a run with its own steps up to the end of the process; a short login ends it for all states |
| C129 rates | the dice of every submit and tick of Model/ServerTicks are those of Model/Random at a rate | origin of every submit response and delivery, then the dice; counting pairs of rolls |
| C130 lookups while reloading | the mutex of the database store, each record and each lookup a step (Model/AuthLock) | invariants over the steps; a reading load keeps everybody waiting; bound by its deadline |
| C131 intervals | tickers with room for one tick and the server's delay (Model/Intervals); heartbeats as in C49 | invariant: the next tick is a multiple of the interval, a tick is there exactly if one lies after the last run; four ticks at one moment |
| C132 short texts | NewSubmit, Encode, Decode of Model/Cmpp, Sgip, Smgp; the handler of Model/Handlers | texts as lists of characters; the first bytes of the two codings by cases on the first characters; round trips of C22, C28, C30 |
| C133 as shipped | the values of the configuration files (Model/Shipped) in the models of the account store, login, start and ports | instances of C52, C94, C113, C88 at these values |
| C134 times in packets | the calendar (days of 2000-2099 to dates), `time.Format` of each kind of time, the constructors with a moment and a zone (Model/Times); a separate reader of the formats (Spec/Times) | the date of a day count read back gives the count; then by the round trips of each packet |
| C135 dated ids | the generator of C04 fed with moments (Model/Times) | two moments show the same minute without year exactly if they are in the same minute, within a year; then C04 |
| C136 recipients | the record of the client, the server's handlers of submits | the record split at commas; the handlers send at most one report, decoded by the round trips |
| C137 mixed parts | parts with the clock they take the reference from (Model/Parts); a handset that looks for parts by reference, total and number (Spec/Parts) | any collection of parts of messages that differ; exchanged parts give the same arrivals; counting references |
| C138 terms read | options, constructors, encoders and decoders together (no new model; Spec/Terms) | C51 through the round trips of C27, C28, C34, C38; a field gives a text back exactly if it fits |
| C139 keeping up | the framing of C41 | a queue served once for each arrival: invariant over the segments, the number served is the least of arrivals and services since |
| C140 many recipients | constructors, encoders and the header check together (no new model) | lengths of the layouts; the header check on a frame that declares its own length |
| C141 from bytes to answers | Model/ServerStream: framing and handlers as one machine over arriving bytes | simulation by histories of packets; then C139 and C76 |
| C142 the client, from bytes to results | Model/ClientStream: framing and handlers of the client as one receiver over reads | induction over the packets read; then C55 and the framing law of C62 |
| C143 a text over the network and back | Model/ServerStream and Model/ClientStream joined by bytes, both cut by a network | composition of C141 and C142 with C106's facts about the packets of a text; the answers' shape from C76 |
| C144 heartbeats answered over a network | Model/ServerLife: framing and ticks in one machine over bytes; the property's counts are of frames written and packets arrived | refinement to Model/ServerTicks with the origin of every step; invariant: an answer's task is waiting or counted; the n-th answer's arrival; run that refutes |
| C145 an idle session is kept | Model/ServerLife with a clock that does not go back and ticks at most `T` apart (Spec/ServerIdle) | at each tick of a logged-in session the last use is at most a minute and `T` ago: induction over the ticks, with the heartbeat as a pending obligation and its answer as a use; for SGIP only accepted submits and logins are uses |
| C146 an idle connection of client and server stays | Model/Link: Model/ServerLife and the client's receiver (Model/ClientTraffic), the client's bytes arriving in any pieces | the server's end of a history is a history of Model/ServerLife; invariant: the client has written one answer for each heartbeat it has read; then C145 |
| C147 an ended session is over at both ends | Model/Link | every frame read was read at some moment with the session open; what the client does with it then (C74), and that nothing follows, by induction over histories; the server's end from C91 |
| C148 answers belong to requests, and all are answered | Model/Link | the client's answers counted against what it has read, and what it wrote against its own requests, by induction over histories; the server's end from C141 and C144, where a quiet end shows that the server is not behind; a history in which a text spells a request |
## Trusted base

* **Lean's kernel** (Lean 4.33.0). Every theorem is accepted by the kernel; there is no `sorry`, `admit`,
  `native_decide`, `bv_decide`, no axiom of ours and no `unsafe` or `implemented_by` code in any proof. `decide` is used
  only for closed facts in examples and for side conditions about literals (constants of the protocol; `decide +kernel`, evaluated
  by the kernel alone, for the finite comparison of the shipped number patterns in C89, whose soundness for all texts is a theorem); no property
  theorem rests on a search over a sample.
* **Lean's library** (core and Std; Mathlib is not imported). Its theorems are checked by the same kernel.
* **Axioms.** Only the three of Lean's logic: `propext` (propositional extensionality), `Classical.choice`,
  `Quot.sound`. The table below gives the axioms of each theorem named in MANIFEST.json, as printed by `#print axioms`.
* **The model.** That the definitions in `Verif/Model` say what the Go code does is not proved: it is checked by reading.
  Each definition cites the lines it models.
* **The specifications** in `Verif/Spec`, and the statements of the theorems.

### What the model takes from Go and from libraries

* Slices are lists of bytes; where capacity matters (re-slicing beyond the length in the decoders), a buffer is a list with a spare part
  behind it that is visible to re-slicing (`Buf`). Slicing and indexing out of range is the value `none` (a panic).
* Integers of fixed width are Lean's `UInt8` ... `UInt64` (wrapping), Go's `int` is `Nat` or `Int`: lengths are assumed not to
  exceed 2^63.
* Strings are byte lists. UTF-8 decoding (with replacement of wrong bytes), UTF-16BE coding, big-endian integers and
  `copy` are defined in `Verif/Go` from the language specification and the documentation of the standard library.
* Maps and `sync.Map` are functions or association lists; map keys of interface type carry their dynamic type.
* Goroutines, channels, callbacks, event loops: transition systems whose steps are the accesses to shared state between which the
  scheduler can switch. A theorem for all schedules quantifies over all lists of steps. Memory is sequentially consistent:
  the races the code contains are modelled as interleavings, not as weak-memory behaviour.
* MD5, the GB18030 coder, the clock, random numbers, the regular expression engine, the network library's buffers
  (gnet) and the rate limiter's arithmetic are parameters of the theorems: the theorems hold for every such function, under
  hypotheses in the statement (for instance: the coder decodes what it encoded).
* `time.Time` with a zone is a count of nanoseconds since 2000 and an offset; its date and time of day are computed in
  `Model/Times` by the rules of the Gregorian calendar, for moments shown as 2000 to 2099 (C134, C135).
* gnet: `Peek`, `Next`, `Discard`, `AsyncWrite` with its callback, the order of writes on one connection and the
  per-connection event loop are modelled from the library's documentation. `Peek(0)` and `Discard(0)` are a parameter (C41).

### What is modelled, file by file

| File | Modelled |
|---|---|
| utils/utils.go | OctetString, TrimStr, Bytes2StringSlice, MsgFmt, Utf8ToUcs2, Ucs2ToUtf8, MsgSlices, ToTPUDHISlices, hex strings, StructCopy (Model/Utils). RandNum, DiceCheck (Model/Random, the draw is a parameter); the one-byte group number of the packets of a submit (Model/Parts). Not: Bool2Int helpers, Pack (writer calculus instead) |
| utils/tlv.go | all operations on objects and lists (Model/Tlv) |
| utils/bcd_sequence.go, cycle_sequence.go, snowflake, snowflake32 | NextVal and constructors; BCD conversions (Model/Sequences); NextVal as single memory accesses under the mutex, for several goroutines (Model/IdLock) |
| codec/*.go, codec/cmpp, codec/sgip, codec/smgp | every header, PDU, constructor, Encode, Decode, ToResponse, Check, options (Model/Codec, Cmpp, Sgip, Smgp). `Log` in Model/Logging, `String` in Model/Printing |
| codec/*/variables.go | command ids and names (Model/Names), versions and statuses as texts (Model/Printing) |
| codec/auth_conf.go, auth/*.go | StructCopy into AuthConf, the stores' load and lookup (Model/Auth), reloading in a running process (Model/Reload), lookups meanwhile (Model/AuthLock), the interval (Model/Intervals). Not: reading YAML, the Mongo driver |
| event_manager/event_manage.go | all (Model/Events; slices, arguments and channels: Model/EventCalls) |
| msc_server/server/on_traffic.go, *_handler, handlers of the three protocols | framing (Model/Traffic), panics in the event loop (Model/Handlers), what is written (Model/ServerTraffic), both together (Model/ServerStream), and with the ticks (Model/ServerLife), and with the client's receiver at the other end (Model/Link). log records of received packets and answers (Model/Logging). which slices share arrays (Model/Buffers). Not: free text of log lines |
| msc_server/server/session.go, on_open.go, on_close.go, on_tick.go, server.go | session state, window, counters, connection accounting, heartbeats, inactivity, simulated texts, terminations (Model/Pools, Sessions, Accept, Counter, Window, Heartbeat, ServerTicks), accesses to connection and pool from several goroutines (Model/Ticker). Not: failing writes except of terminations, log lines |
| msc_server/server/log_utils.go | Model/Logging |
| msc_server/server/on_boot.go, on_shutdown.go, my_errors.go | not modelled (logging, constants, no state) |
| msc_server/bootstrap.go, msc_client/bootstrap.go, msc_server/custom_log.go, auth/client_store.go, database/mongodb | SeqInit, logInit, New, InitDB, setConnect (Model/Startup): configuration as a function of keys. setBasePath. Not: the YAML and logging libraries, the database driver |
| msc_server/destory.go, msc_client/destory.go, cmd | signals and hooks (Model/Shutdown), the connections when the server ends (Model/ServerStop), pid file and sending loop (Model/Command), starting the listeners (Model/Process). Not: flags |
| msc_client/config/config.yaml | the number patterns (Model/Segments); client ids, addresses, numbers of connections, the kind of store (Model/Shipped) |
| msc_server/config/config.yaml, config/yml_store of both | ports, the kind of store, accounts (Model/Shipped) |
| msc_client/api.go, session/*.go | sending, results and caches (Model/Client), login (Model/ClientLogin), receiver (Model/ClientReceive), packets from the carrier (Model/ClientTraffic), both together (Model/ClientStream), closing while in use (Model/ClientConc), heartbeats (Model/ClientHeartbeat), journal (Model/Journal), ownership of connections (Model/ClientConns), the caches with every access a step (Model/ClientRaces) |
| msc_client/session_factory.go | carrier selection, pool, PeekSession, rate limit (Model/ClientPool, ClientSelect, ClientPoolFill, Limiter), the pool during shutdown (Model/ClientStop) and while its configuration changes (Model/LiveConfig) |

### Axioms of each theorem

`p` propext, `c` Classical.choice, `q` Quot.sound.

| Property | Theorems (axioms) |
|---|---|
| C01 | `octetString_exact` (pcq), `trim_octetString` (pcq), `trimStr_exact` (pcq), `bytes2StringSlice_fields` (pcq) |
| C02 | `uint64HexString_value` (pcq), `uint32HexString_value` (pcq), `uint64HexString_injective` (pcq), `uint32HexString_injective` (pcq) |
| C03 | `bcd_lossless` (pq) |
| C04 | `newBcdSequence_worker` (pcq), `bcd_id_format` (pcq), `bcd_ids_unique` (pcq), `neverReturns_of_monotone` (pcq), `bcd_repeats_after_million` (pq) |
| C05 | `cycle_unique` (pcq), `cycle_window_nodup` (pcq) |
| C06 | `cycle_nodes_disjoint_partial` (pcq), `cycle_datacenter_collision_fails` (pcq), `cycle_nodes_collide_iff` (pcq) |
| C07 | `snowflake_ids_increasing` (pcq), `snowflake_progress` (pq), `snowflake_clock_backwards_fails` (pq), `snowflake_range_fails` (pq), `Times.snowflake_valid_years` (pcq), `Times.snowflake_after_2089_fails` (pq) |
| C08 | `snowflake_origin` (pcq), `snowflake_run_origin` (pcq), `snowflake_nodes_disjoint` (pcq), `snowflake_parse` (pcq), `snowflake_node_range_fails` (pq), `Times.snowflake_valid_years` (pcq), `Times.snowflake_time` (pcq) |
| C09 | `snowflake32_ids_increasing` (pcq), `snowflake32_origin` (pcq), `snowflake32_parse` (pcq) |
| C10 | `snowflake32_progress_partial` (pcq), `snowflake32_hangs_fails` (pcq) |
| C11 | `sgip_sequence_unique` (pcq), `sgip_workers_disjoint` (pcq), `sgip_timestamp` (pq), `sgip_worker_0_31_collide_fails` (pq) |
| C12 | `tlv_new_value` (pq), `tlv_roundtrip` (pcq), `tlv_overlong` (pq) |
| C13 | `tlv_list_roundtrip` (pcq), `tlv_write_never_fails` (pcq) |
| C14 | `tlv_truncation_partial` (pcq), `tlv_truncation_fails` (pcq), `tlv_area_split` (pq) |
| C15 | `tlv_list_ops` (pcq) |
| C16 | `msgFmt_ascii_iff` (pcq) |
| C17 | `utf8ToUcs2_error_iff` (pcq), `ucs2_roundtrip` (pcq) |
| C18 | `long_message_reassembly_partial` (pcq), `long_message_reassembled` (pcq), `long_message_reassembly_fails` (pcq), `long_message_exact_multiple_loses_tail` (pcq) |
| C19 | `long_message_slices_wellformed` (pcq) |
| C20 | `short_message_unchanged` (none), `msgSlices_short` (pcq), `msgSlices_fit` (pcq) |
| C21 | `header12_roundtrip` (pcq), `header20_roundtrip` (pcq), `unpackHead_short` (pq), `unpackHead_value` (pq) |
| C22 | `Cmpp.cmpp_newSubmit_length` (pcq), `Cmpp.cmpp_newDelivery_length` (pcq), `Cmpp.cmpp_report_length` (pcq), `Cmpp.cmpp_other_lengths` (pcq), `Cmpp.cmpp_link_packets_roundtrip` (pcq), `Smgp.smgp_newSubmit_length` (pcq), `Smgp.smgp_newDeliver_length` (pcq), `Smgp.smgp_newDeliveryReport` (pcq), `Smgp.smgp_other_lengths` (pcq), `Smgp.smgp_link_packets_roundtrip` (pcq), `Sgip.sgip_newSubmit_length` (pcq), `Sgip.sgip_other_lengths` (pcq), `Sgip.sgip_responses_roundtrip` (pcq), `Sgip.sgip_unbind_roundtrip` (pcq) |
| C23 | `Cmpp.cmpp_connect_roundtrip` (pcq), `Cmpp.cmpp_connect_overlong` (pcq) |
| C24 | `Cmpp.cmpp_login_decision` (pcq), `Cmpp.cmpp_login_secret` (pq) |
| C25 | `Cmpp.cmpp_login_complete` (pcq), `Cmpp.cmpp_login_overlong_id_fails` (pcq) |
| C26 | `Cmpp.cmpp_connect_response` (pcq), `Cmpp.cmpp_login_response_digest` (pcq) |
| C27 | `Cmpp.cmpp3_submit_roundtrip_partial` (pcq), `Cmpp.cmpp_submit_content_exactly` (pcq), `Cmpp.cmpp_submit_unchanged_exactly` (pcq), `Cmpp.cmpp3_submit_long_text` (pcq), `Cmpp.cmpp_submit_empty_content_fails` (pcq), `Cmpp.cmpp3_submit_ascii_slice_fails` (pcq), `Cmpp.cmpp_ascii_part_fails` (pcq), `Cmpp.cmpp_long_ascii_fails` (pcq), `Cmpp.cmpp_newSubmit` (pcq) |
| C28 | `Cmpp.cmpp2_submit_roundtrip_partial` (pcq), `Cmpp.cmpp2_submit_many_recipients_fails` (pcq) |
| C29 | `Cmpp.cmpp_deliver_text_roundtrip_partial` (pcq), `Cmpp.cmpp_deliver_report_roundtrip_partial` (pcq), `Cmpp.cmpp_deliver_destination_fails` (pcq), `Cmpp.cmpp_deliver_ucs2_cut` (pcq), `Cmpp.cmpp_deliver_ucs2_differs` (pcq), `Cmpp.cmpp_deliver_ucs2_fails` (pcq), `Cmpp.cmpp_deliver_160_fails` (pcq) |
| C30 | `Cmpp.cmpp_report_tied` (pcq) |
| C31 | `Cmpp.cmpp_responses_echo` (pq), `Smgp.smgp_responses_echo` (pq), `Sgip.sgip_responses_echo` (pq) |
| C32 | `Cmpp.cmpp_submit_response_roundtrip` (pcq), `Cmpp.cmpp_deliver_response_roundtrip` (pcq), `Cmpp.cmpp_link_packets_roundtrip` (pcq) |
| C33 | `Smgp.smgp_login_roundtrip_partial` (pcq), `Smgp.smgp_login_frame` (pcq), `Smgp.smgp_login_decision` (pcq), `Smgp.smgp_login_secret` (pq), `Smgp.smgp_login_digest` (pcq), `Smgp.smgp_login_complete_partial` (pcq), `Smgp.smgp_login_short_id_fails` (pcq) |
| C34 | `Smgp.smgp_submit_roundtrip_partial` (pcq), `Smgp.smgp_submit_content_exactly` (pcq), `Smgp.smgp_submit_long_text` (pcq), `Smgp.smgp_submit_empty_content_fails` (pcq), `Smgp.smgp_newSubmit` (pcq), `Smgp.smgp_newSubmit_delivered` (pcq), `Smgp.smgp_newSubmit_coder_error` (p), `Smgp.smgp_newSubmit_too_many` (pcq) |
| C35 | `Smgp.smgp_deliver_roundtrip` (pcq), `Smgp.smgp_report_roundtrip` (pcq), `Smgp.smgp_deliver_report_roundtrip` (pcq), `Smgp.smgp_newDeliveryReport` (pcq), `Smgp.smgp_newDeliver_delivered` (pcq), `Smgp.smgp_report_length_byte_fails` (pcq), `Smgp.smgp_newDeliver_wide_text_fails` (pcq) |
| C36 | `Smgp.smgp_login_response` (pcq), `Smgp.smgp_responses_roundtrip` (pcq), `Smgp.smgp_link_packets_roundtrip` (pcq) |
| C37 | `Sgip.sgip_bind_roundtrip` (pcq), `Sgip.sgip_bind_decision` (pq), `Sgip.sgip_bind_client` (pcq), `Sgip.sgip_bind_login_name_fails` (pcq) |
| C38 | `Sgip.sgip_submit_roundtrip_partial` (pcq), `Sgip.sgip_submit_content_exactly` (pcq), `Sgip.sgip_submit_unchanged_exactly` (pcq), `Sgip.sgip_submit_long_text` (pcq), `Sgip.sgip_submit_empty_content_fails` (pcq), `Sgip.sgip_submit_ascii_slice_fails` (pcq), `Sgip.sgip_ascii_part_fails` (pcq), `Sgip.sgip_long_ascii_fails` (pcq), `Sgip.sgip_newSubmit` (pcq) |
| C39 | `Sgip.sgip_deliver_roundtrip` (pcq), `Sgip.sgip_newDeliver_delivered` (pcq), `Sgip.sgip_report_roundtrip` (pcq), `Sgip.sgip_newReport_content` (pcq), `Sgip.sgip_newReport_command_fails` (none), `Sgip.sgip_newReport_crashes_receiver_fails` (pcq) |
| C40 | `Cmpp.cmpp_submit_overlong_isolated` (pcq), `Cmpp.cmpp_deliver_overlong_isolated` (pcq), `Cmpp.cmpp_connect_overlong` (pcq), `Smgp.smgp_submit_overlong_isolated` (pcq), `Smgp.smgp_deliver_overlong_isolated` (pcq), `Smgp.smgp_login_frame` (pcq), `Sgip.sgip_bind_overlong_isolated` (pcq), `Sgip.sgip_report_overlong_isolated` (pcq), `Sgip.sgip_submit_overlong_fails` (pcq), `Sgip.sgip_deliver_overlong_fails` (pcq) |
| C41 | `Traffic.framing_partial` (pcq), `Traffic.framing_segmentation_partial` (pcq), `Traffic.cut_unique` (pq), `Traffic.framing_fails` (pcq) |
| C42 | `Traffic.packet_progress_partial` (pcq), `Traffic.packet_per_arrival_partial` (pcq), `Traffic.second_packet_waits_fails` (pcq) |
| C43 | `Traffic.header_decision` (pcq) |
| C44 | `Handlers.event_loop_crash_partial` (pcq), `Handlers.login_body_crashes_fails` (pcq), `Handlers.empty_message_crashes_fails` (pcq) |
| C45 | `Sessions.login_before_service` (pcq), `Sessions.accepted_login` (pcq), `Sessions.loginAccount_iff` (pcq), `Sessions.accepted_credentials` (pcq), `Sessions.service_before_login_closes` (pcq) |
| C46 | `Sessions.max_conns_partial` (pq), `Sessions.max_conns_fails` (pcq) |
| C47 | `Sessions.active_counter_partial` (pq), `Sessions.refusal_crashes_fails` (pq), `Sessions.one_connection_too_many_fails` (pq), `Counter.counter_exact_partial` (pq), `Counter.cap_exceeded_fails` (pcq), `Counter.counter_drift_fails` (pq), `Counter.empty_server_refuses_fails` (pq) |
| C48 | `Window.window_bound_partial` (pcq), `Window.slot_freed_partial` (pq), `Window.slot_granted_partial` (pq), `Window.relogin_window_fails` (pcq), `Window.close_leaks_fails` (pcq), `Window.zero_window_fails` (pcq), `Window.negative_window_fails` (pq), `Window.handlers_accounted` (pq) |
| C49 | `Heartbeat.terminated_after_three` (pq), `Heartbeat.answering_peer_kept` (pq), `Heartbeat.tick_decision` (pcq), `Heartbeat.task_decision` (pq), `Heartbeat.heartbeat_only_when_silent` (pq), `Heartbeat.sgip_no_heartbeat` (pq), `ServerTicks.session_history` (pcq), `ServerTicks.termination_reason` (pcq), `ServerTicks.heartbeat_reason` (pcq), `ServerTicks.silent_session_terminated` (pcq) |
| C50 | `loadMtOptions_partial` (pcq), `withMtOptions_fails` (pq) |
| C51 | `Cmpp.cmpp_options` (pcq), `Sgip.sgip_options_partial` (pcq), `Sgip.sgip_fee_options_fails` (pcq), `Smgp.smgp_options_partial` (pcq), `Smgp.smgp_options_exact` (pcq), `Smgp.smgp_options_fails` (pcq) |
| C52 | `Auth.yaml_store_lookup_partial` (pcq), `Auth.yaml_store_first_load_partial` (pcq), `Auth.yaml_store_removed_fails` (pcq), `Auth.yaml_store_upper_case_fails` (pcq), `Auth.yaml_store_short_name_crashes` (pcq), `Auth.mongo_store_lookup` (pcq), `Auth.lower_case` (pq) |
| C53 | `Events.event_registry` (pcq), `Events.shutdown_hook` (pcq) |
| C54 | `Events.concurrent_register_partial` (pq), `Events.sequential_register_partial` (pq), `Events.concurrent_register_fails` (pq) |
| C55 | `Client.response_recorded_sgip_partial` (pcq), `Client.sequence2Uint64_inj` (pq), `Client.response_recorded_cmpp_smgp_fails` (pcq), `Client.results_never_updated` (pcq) |
| C56 | `Client.query_results_partial` (pcq), `Client.query_ids` (pcq), `Client.query_unknown` (pq), `Client.query_panics_fails` (pcq), `Client.query_drops_sent_fails` (pq) |
| C57 | `Client.clean_batches` (pq), `Client.clean_exact` (pq), `Client.clean_removes_old` (pcq), `Client.handed_once` (pcq) |
| C58 | `ClientPool.select_first_partial` (pq), `ClientPool.select_empty_segment` (pq), `ClientPool.select_bad_pattern_fails` (pq), `ClientPool.select_bad_pattern_later_fails` (pq) |
| C59 | `ClientPool.prune_exact` (pq), `ClientPool.lru_order_partial` (pq), `ClientPool.peek_healthy` (pq), `ClientPool.lru_overflow_fails` (pq), `ClientPool.sorted_exists` (pq), `ClientPool.period_counts` (pcq) |
| C60 | `ClientLogin.newSession_full` (pcq), `ClientLogin.new_session_partial` (pcq), `ClientLogin.new_session_io_error` (pq), `ClientLogin.new_session_short_read_fails` (pcq), `ClientLogin.new_session_status_fails` (pcq) |
| C61 | `ClientConc.closed_at_most_once` (pcq), `ClientConc.close_never_blocks` (pcq), `ClientConc.close_partial` (pcq), `ClientConc.close_concurrent_fails` (pq) |
| C62 | `ClientReceive.receive_partial` (pcq), `ClientReceive.receive_whole_partial` (pcq), `ClientReceive.receive_exactly` (pcq), `ClientReceive.receive_bad_length` (pcq), `ClientReceive.receive_terminates` (pcq), `ClientReceive.receive_split_fails` (pcq) |
| C63 | `Limiter.throughput_partial` (pq), `Limiter.throughput_default` (none), `Limiter.limiter_upper` (pq), `Limiter.limiter_lower` (pq), `Limiter.limiter_spaced` (pq), `Limiter.client_limiter` (pq), `Limiter.throughput_unlimited_fails` (pq), `Limiter.throughput_no_window_fails` (pq) |
| C64 | `Auth.structCopy_exact` (pq), `Auth.structCopy_guard` (p), `Auth.structCopy_unexported_fails` (pq), `Auth.findAuthConf_exact` (pcq) |
| C65 | `command_names` (pcq), `command_names_distinct` (pcq) |
| C66 | `Cmpp.cmpp_part_numbers` (pcq), `Cmpp.cmpp_newSubmit` (pcq), `Smgp.smgp_part_numbers_fail` (pcq) |
| C67 | `Sessions.login_accepted_partial` (pq), `Sessions.late_callback_lockout_fails` (pcq) |
| C68 | `Heartbeat.tick_decision` (pcq), `ServerTicks.session_history` (pcq), `ServerTicks.termination_reason` (pcq), `ServerTicks.silent_session_terminated` (pcq) |
| C69 | `Client.report_recorded_fails` (pcq), `Client.report_id_is_answer_id` (pcq) |
| C70 | `ClientConc.no_close_no_crash_partial` (pq), `ClientConc.latecomers_leave` (pcq), `ClientConc.healthy_iff` (pcq), `ClientConc.send_while_closing_fails` (pq), `ClientConc.write_while_closing_fails` (pq), `ClientConc.receive_while_closing_fails` (pq), `ClientConc.send_failure_fails` (pq) |
| C71 | `ClientPool.pool_never_exceeds` (pq), `ClientPool.pool_bound` (pq), `ClientPool.pool_filled` (pq), `ClientPool.pool_filled_healthy` (pq), `ClientPool.pool_lowered_fails` (pq) |
| C72 | `ClientPool.peek_limited_partial` (p), `ClientPool.peek_returns_partial` (pcq), `ClientPool.peek_no_connection_fails` (pq), `ClientPool.peek_exactly` (pq), `ClientPool.peek_waits_exactly_fails` (pq) |
| C73 | `ClientTraffic.carrier_packet_panics_exactly_partial` (pcq), `ClientTraffic.carrier_packet_never_panics_fails_login` (pcq), `ClientTraffic.carrier_packet_never_panics_fails_short` (pcq) |
| C74 | `ClientTraffic.carrier_request_answered_partial` (pcq), `ClientTraffic.session_closed_exactly` (pcq), `ClientTraffic.results_changed_as_told` (pcq), `ClientTraffic.carrier_request_answered_fails` (pq) |
| C75 | `ClientTraffic.submit_answer_recorded_sgip_partial` (pcq), `ClientTraffic.submit_answer_recorded_cmpp_smgp_fails` (pcq), `Client.sgip_msg_id_text` (pcq) |
| C76 | `ServerTraffic.response_at_most_once` (pcq), `ServerTraffic.frame_answers` (pcq), `ServerTraffic.server_settles` (pcq), `ServerTraffic.server_can_settle` (pcq), `ServerTraffic.packet_answered_partial` (pcq), `ServerTraffic.packet_answered_once_partial` (pcq), `ServerTraffic.slotless_answered` (pcq), `ServerTraffic.submit_answered_fails` (pcq), `ServerTraffic.zero_window_answers_fails` (pcq), `ServerTraffic.second_login_answers_fails` (pcq), `ServerTraffic.second_login_unanswered_fails` (pcq), `ServerTicks.response_at_most_once` (pcq), `ServerTicks.frame_answers` (pcq), `ServerTicks.server_settles` (pcq), `ServerTicks.packet_answered_partial` (pcq), `ServerTicks.packet_answered_once_partial` (pcq), `ServerTicks.slotless_answered` (pcq) |
| C77 | `ServerTraffic.report_after_response` (pcq), `ServerTraffic.reports_at_most_once` (pcq), `ServerTraffic.reports_only_when_drawn` (pcq), `ServerTraffic.sgip_no_reports` (pcq), `ServerTicks.delivery_origin` (pcq), `ServerTicks.deliveries_per_tick` (pcq) |
| C78 | `ServerTraffic.account_rules_fails` (pcq) |
| C79 | `ServerTraffic.login_before_service` (pcq), `ServerTraffic.service_after_login` (pcq), `ServerTraffic.login_response_honest` (pcq), `ServerTraffic.termination_closes` (pcq), `ServerTicks.login_before_service` (pcq), `ServerTicks.service_after_login` (pcq), `ServerTicks.login_response_honest` (pcq) |
| C80 | `ServerTraffic.counters_exact` (pcq), `ServerTicks.counters_exact` (pcq), `ServerTicks.counters_apart` (pcq) |
| C81 | `Cmpp.cmpp_mo_wire` (pcq), `Cmpp.cmpp_mo_text_partial` (pcq), `Cmpp.cmpp_mo_long_fails` (pcq), `Cmpp.cmpp_mo_astral_fails` (pcq), `Smgp.smgp_mo_text_partial` (pcq), `Sgip.sgip_mo_text` (pcq) |
| C82 | `Random.randNum_range` (pq), `Random.randNum_empty_fails` (pq), `Random.rate_partial` (pcq), `Random.rate_one` (pq), `Random.rate_zero_fails` (pcq) |
| C83 | `Shutdown.hooks_at_most_once` (pq), `Shutdown.exit_after_hooks_partial` (pq), `Shutdown.graceful_partial` (pq), `Shutdown.registered_hooks_run_partial` (pcq), `Shutdown.signal_lost_fails` (pq), `Shutdown.panic_skips_fails` (pq), `Shutdown.early_signal_fails` (p), `Shutdown.second_signal_fails` (pq) |
| C84 | `Command.command_count` (pq), `Command.command_prompt_partial` (pq), `Command.command_last_number_fails` (pq), `Command.command_number_missed_fails` (pq) |
| C85 | `Command.savePid_partial` (p), `Command.savePid_fails` (p) |
| C86 | `Startup.generators_configured_partial` (pcq), `Startup.configured_ids_disjoint` (pcq), `Startup.b32_settings_ignored_fails` (pcq), `Startup.b32_workers_collide_fails` (pcq), `Startup.sgip_workers_collide_fails` (pcq) |
| C87 | `Startup.logger_settings_partial` (pcq), `Startup.logger_level_fails` (pcq), `Startup.server_log_levels` (pcq), `Startup.client_error_level_fails` (pcq), `Startup.default_log_settings` (pcq) |
| C88 | `Startup.store_starts_partial` (pcq), `Startup.mongoUri_filled` (pcq), `Startup.store_panics_fails` (pcq) |
| C89 | `Segments.matchString_iff` (pq), `Segments.shipped_at_most_one` (pcq), `Segments.shipped_numbers` (pcq), `Segments.shipped_selection` (pcq), `Segments.shipped_numbers_exactly` (pcq) |
| C90 | `ServerTicks.delivery_origin` (pcq), `ServerTicks.heartbeat_origin` (pcq), `ServerTicks.heartbeat_reason` (pcq), `ServerTicks.termination_origin` (pcq), `ServerTicks.termination_reason` (pcq), `ServerTicks.termination_written_closes` (pcq), `ServerTicks.heartbeats_per_tick` (pcq), `ServerTicks.terminations_per_tick` (pcq), `ServerTicks.deliveries_per_tick` (pcq), `ServerTicks.silent_session_terminated` (pcq), `ServerTicks.server_settles` (pcq), `ServerTicks.frame_answers` (pcq), `ServerTicks.counters_exact` (pcq), `ServerTicks.sim_run` (pcq) |
| C91 | `ServerTraffic.closing_reason` (pcq), `ServerTicks.closing_reason` (pcq), `ServerTraffic.termination_response_closes_partial` (pcq), `ServerTicks.termination_response_closes_partial` (pcq), `ServerTraffic.zero_window_closing_fails` (pcq), `ServerTraffic.termination_closes` (pcq), `ServerTicks.termination_written_closes` (pcq), `ServerTraffic.login_response_honest` (pcq) |
| C92 | `Ticker.server_survives_partial` (pq), `Ticker.closing_ends_server_fails` (pq), `Ticker.pool_ends_server_fails` (pq), `Ticker.relogin_ends_server_fails` (pq), `Ticker.termination_write_ends_server_fails` (pq), `Ticker.closed_leaves_nothing` (pq), `Ticker.visits_registered` (pq), `Ticker.termination_kept` (pq), `Ticker.renewed_once` (pq) |
| C93 | `ServerTraffic.accepted_submit_reported` (pcq), `ServerTicks.accepted_submit_reported` (pcq), `ServerTraffic.accepted_submit_reported_partial` (pcq), `ServerTicks.accepted_submit_reported_partial` (pcq), `ServerTraffic.smgp_unreported_fails` (pcq), `ServerTraffic.reports_only_when_drawn` (pcq) |
| C94 | `LoginExchange.login_exchange_partial` (pcq), `LoginExchange.login_exchange_any` (pcq), `LoginExchange.login_answered_partial` (pcq), `ServerTraffic.slotless_answered` (pcq), `ServerTicks.slotless_answered` (pcq), `LoginExchange.login_cut_id_fails` (pcq), `ServerTicks.login_exchange_partial` (pcq), `ServerTicks.login_exchange_any` (pcq), `ServerTicks.login_answered_partial` (pcq), `LoginExchange.request_fields` (pcq), `LoginExchange.client_reads` (pcq) |
| C95 | `LoginExchange.login_replay_fails` (pcq), `ServerTicks.login_replay_fails` (pcq), `LoginExchange.login_not_transferable_partial` (pcq) |
| C96 | `LoginExchange.server_unproven_fails` (pcq), `LoginExchange.sgip_unrelated_answer_fails` (pcq), `LoginExchange.server_proof_offered_partial` (pcq) |
| C97 | `Logging.client_log` (pcq), `Logging.login_log` (pcq), `Logging.submit_log` (pcq), `Logging.other_log` (pcq), `Logging.sent_log` (pcq), `Logging.report_log` (pcq), `Logging.report_log_fails` (pcq) |
| C98 | `Logging.sgip_password_partial` (pcq), `Logging.cmpp_secret_partial` (pcq), `Logging.smgp_secret_partial` (pcq), `Logging.sgip_password_debug_fails` (pcq), `Logging.login_pool_full_fails` (pcq), `Logging.login_digest_debug_fails` (pcq), `Logging.login_replay_fails` (pcq), `Startup.database_password_logged_fails` (pcq) |
| C99 | `Logging.text_hidden` (pcq), `Logging.submit_silent_partial` (pcq), `Logging.submit_logged_whole_fails` (pcq) |
| C100 | `Pools.server_bound` (pq), `Pools.taken_or_refused` (pq), `Pools.refused_iff` (pq), `Pools.logins_taken_partial` (pq), `Pools.few_logins_taken` (pq), `Pools.closed_mem` (pq), `Pools.login_crowd_fails` (pq) |
| C101 | `Pools.session_tasks_bounded` (pcq), `Pools.waits_only_when_full` (pcq), `Pools.loop_recovers` (pcq), `Pools.written_once` (pq), `Pools.served_at_once_partial` (pq), `Pools.waiting_stops_all_fails` (pq), `Pools.one_client_stops_all_fails` (pcq), `Pools.termination_stops_all_fails` (pq) |
| C102 | `Pools.tick_taken_partial` (pq), `Pools.refused_iff` (pq), `Pools.closed_mem` (pq), `Pools.tick_crowd_fails` (pq) |
| C103 | `Client.requests_freed` (pcq), `Client.ids_freed_partial` (pcq), `Client.all_freed_partial` (pcq), `Client.ids_freed_fails` (pcq) |
| C104 | `ClientHeartbeat.heartbeat_exact` (pq), `ClientHeartbeat.heartbeat_only_checks` (pq), `ClientHeartbeat.health_exact` (pq), `ClientHeartbeat.dead_connection_noticed_fails` (pq), `ClientHeartbeat.heartbeats_paced_fails` (pq), `ClientHeartbeat.sgip_tested_fails` (pq) |
| C105 | `Journal.journal_at_most_once` (pcq), `Journal.journal_complete_partial` (pcq), `Journal.journal_values` (pcq), `Journal.journal_starts_iff` (pcq), `Journal.failed_insertion_fails` (pcq), `Journal.shutdown_fails` (pcq) |
| C106 | `SubmitExchange.sgip_text_answered_partial` (pcq), `ServerTicks.sgip_text_answered_partial` (pcq), `SubmitExchange.record_stays` (pcq), `ClientTraffic.submit_answer_recorded_cmpp_smgp_fails` (pcq), `Client.sgip_msg_id_text` (pcq) |
| C107 | `ClientSelect.choice_any_schedule` (pq), `ClientSelect.dialed_once` (pq), `ClientSelect.sender_proceeds_partial` (pq), `ClientSelect.carriers_independent_fails` (pq), `ClientSelect.panic_ends_sending_fails` (pq), `ClientSelect.bad_carrier_ends_sending_fails` (pq), `ClientSelect.bad_dial_ends_sending_fails` (pq), `ClientSelect.bad_carrier_blocks_fails` (pq) |
| C108 | `ClientPoolFill.usable_used_when_full_partial` (pcq), `ClientPoolFill.got_usable` (pq), `ClientPoolFill.broken_first_blocks_fails` (pq), `ClientPoolFill.usable_unused_fails` (pq) |
| C109 | `Limiter.client_window_burst_partial` (pq), `Limiter.client_window_fails` (pcq), `Limiter.client_window_ignored_fails` (pq), `Limiter.client_no_window_fails` (pq), `Limiter.client_negative_window_fails` (pq) |
| C110 | `Reload.account_whole` (pcq), `Reload.account_stays` (pcq), `Reload.reload_applied_partial` (pcq), `Reload.survives_partial` (pcq), `Reload.directory_gone_fails` (pcq), `Reload.removed_while_reloading_fails` (pcq), `Reload.short_name_fails` (pcq), `Reload.mongo_account_stays` (pcq), `Reload.mongo_reload_applied` (pcq), `Reload.mongo_no_timeout_fails` (pcq) |
| C111 | `ClientConns.used_or_closed_partial` (pq), `ClientConns.dropped_closed` (pq), `ClientConns.pool_not_collected` (pq), `ClientConns.refused_left_open_fails` (pq), `ClientConns.refused_piles_up_fails` (pq) |
| C112 | `Startup.base_is_working_directory` (pcq), `Startup.test_base_partial` (pcq), `Startup.test_outside_fails` (pcq), `Startup.test_prefix_fails` (pcq) |
| C113 | `Process.serves_at_configured_port` (pq), `Process.all_serve_partial` (pq), `Process.each_protocol_served_partial` (pq), `Process.one_port_ends_all_fails` (pq), `Process.one_server_ends_all_fails` (pq), `Process.no_port_fails` (pq), `Process.fatal_final` (pq) |
| C114 | `Accept.one_loop_exact_partial` (pcq), `Accept.several_loops_partial` (pq), `Accept.arriving_exact_partial` (pq), `Accept.limit_exceeded_fails` (pcq), `Accept.lost_count_fails` (pq), `Accept.lost_close_fails` (p), `Accept.empty_but_full_fails` (pq), `Accept.unbounded_fails` (pq) |
| C115 | `Printing.smgp_header_string` (pcq), `Printing.sgip_header_string` (pcq), `Printing.status_string` (pcq), `Printing.server_statuses` (pcq), `Printing.packets_print_partial` (pcq), `Printing.new_submits_print` (pcq), `Printing.short_part_prints_fails` (pcq), `Printing.submit_text_hidden` (pcq), `Printing.delivery_text_hidden_fails` (pcq), `Printing.snowflake_string` (pcq), `Printing.snowflake32_string` (pcq), `Printing.fresh_snowflake_string_fails` (pcq), `Printing.cycle_string` (pcq) |
| C116 | `ClientStop.pooled_closed_partial` (pq), `ClientStop.dropped_closed` (pq), `ClientStop.forgotten_collected` (pq), `ClientStop.at_rest_all_closed_partial` (pcq), `ClientStop.being_made_left_open_fails` (pq), `ClientStop.told_obeyed_partial` (pq), `ClientStop.told_once_fails` (pq) |
| C117 | `IdLock.ids_own` (pcq), `IdLock.taken_iter` (pcq), `IdLock.returned_nodup` (pcq), `IdLock.order_kept` (pcq), `IdLock.cycle_concurrent` (pcq), `IdLock.bcd_concurrent` (pcq), `IdLock.sgip_concurrent` (pcq), `IdLock.snowflake_concurrent` (pcq), `IdLock.snowflake32_concurrent` (pcq), `IdLock.pending_returns` (pcq), `IdLock.cycle_pending_returns` (pcq), `IdLock.bcd_pending_returns` (pcq), `IdLock.sgip_pending_returns` (pcq), `IdLock.snowflake_pending_returns` (pcq), `IdLock.snowflake32_blocks_everyone_fails` (pcq), `IdLock.sgip_curval_torn_fails` (pcq) |
| C118 | `Buffers.handlers_read_what_arrived` (pcq), `Buffers.frames_leave_as_encoded` (pcq), `Buffers.decoded_packets_keep` (pcq), `Buffers.decoded_packets_share_fails` (pcq), `Buffers.recipients_shared_fails` (pcq) |
| C119 | `Reuse.decode_forgets_partial` (pcq), `Reuse.forgets_iff` (pcq), `Reuse.encode_keeps` (pcq), `Reuse.decode_fresh` (pq), `Reuse.smgp_submit_again_fails` (pcq), `Reuse.cmpp_deliver_again_fails` (pcq), `Reuse.smgp_deliver_again_fails` (pcq), `Reuse.cmpp_connect_resp_again_fails` (pcq), `Reuse.decode_forgets_fails` (pcq) |
| C120 | `Logging.cmpp_answers_join` (pcq), `Logging.smgp_answers_join` (pcq), `Logging.sgip_answers_join` (pcq), `Logging.sgip_seq_12_tells` (pcq), `Logging.sgip_seq_number_fails` (pcq), `Logging.sgip_report_join` (pcq), `Logging.smgp_report_join` (pcq), `Logging.cmpp_report_join_partial` (pcq), `Logging.cmpp_report_join_fails` (pcq), `Logging.cmpp_report_text` (pcq), `Logging.cmpp_login_told` (pcq), `Logging.smgp_login_told` (pcq), `Logging.sgip_login_told` (pcq), `Logging.submit_told` (pcq), `Logging.report_text_both_ends` (pcq), `Logging.levels_shown` (pcq) |
| C121 | `Restart.b64_again_iff` (pcq), `Restart.b64_again_partial` (pcq), `Restart.b64_same_ms_fails` (pcq), `Restart.bcd_again_iff` (pcq), `Restart.bcd_same_minute_fails` (pcq), `Restart.smgp_responses_same_id_fails` (pcq), `Restart.sgip_again_iff` (pcq), `Restart.sgip_same_second_fails` (pcq), `Restart.b32_again_iff` (pcq), `Restart.b32_again_fails` (pcq) |
| C122 | `EventCalls.registered_run_partial` (pcq), `EventCalls.arguments_dropped_fails` (pq), `EventCalls.reused_slice_fails` (pcq), `EventCalls.told_partial` (pcq), `EventCalls.told_slice_partial` (pcq), `EventCalls.second_shutdown_fails` (pcq), `EventCalls.shared_slice_told_fails` (pcq), `EventCalls.refused_registration_fails` (pcq) |
| C123 | `LiveConfig.process_time_partial` (pq), `LiveConfig.process_time_panics_iff` (pq), `LiveConfig.replaced_range_fails` (pq), `LiveConfig.pool_bounded_partial` (pcq), `LiveConfig.raised_reached` (pcq), `LiveConfig.lowered_fails` (pcq), `LiveConfig.lowered_while_filling_fails` (pq) |
| C124 | `ServerStop.at_most_once_partial` (pcq), `ServerStop.frame_answers_partial` (pcq), `ServerStop.at_rest_partial` (pcq), `ServerStop.proc_alone` (pcq), `ServerStop.conn_alone` (pcq), `ServerStop.last_moment` (pcq), `ServerStop.ends_at_once_fails` (pcq), `ServerStop.told_takes_requests_fails` (pcq) |
| C125 | `Window.working_left_fails` (pcq), `Window.others_end_partial` (pcq), `Window.can_rest` (pcq), `Window.any_number_left_fails` (pcq) |
| C126 | `ClientRaces.fast_answer_lost_fails` (pcq), `ClientRaces.kept_until_old` (pcq), `ClientRaces.answer_recorded_partial` (pcq), `ClientRaces.half_answer_seen_fails` (pcq), `ClientRaces.timed_result_whole` (pcq), `ClientRaces.fresh_request_removed_fails` (pcq), `ClientRaces.cleaner_deletes` (pq) |
| C127 | `Farm.message_ids_unique` (pcq), `Farm.report_for_own_message` (pcq) |
| C128 | `Farm.connections_isolated_partial` (pcq), `Farm.one_packet_ends_all_fails` (pcq) |
| C129 | `ServerTicks.response_by_roll` (pcq), `ServerTicks.full_rate_refuses_only_over_limit` (pcq), `ServerTicks.full_rate_reports_all` (pcq), `ServerTicks.negative_rate_accepts_nothing` (pcq), `ServerTicks.zero_rate_accepts_fails` (pcq), `ServerTicks.negative_delivery_rate_no_texts` (pcq), `Random.rate_applied_twice_fails` (pcq) |
| C130 | `AuthLock.lookup_immediate_partial` (pcq), `AuthLock.lookup_waits_fails` (pcq), `AuthLock.wait_bounded` (pcq), `AuthLock.lookups_agree` (pcq), `AuthLock.answers_whole` (pcq), `AuthLock.lock_after_query` (pcq) |
| C131 | `Intervals.job_runs_when_due_partial` (pq), `Intervals.job_not_more_often` (pq), `Intervals.negative_interval_fails` (pq), `Intervals.server_ticks_spaced` (pq), `Intervals.server_ticks_on_time` (pq), `Intervals.missing_tick_duration_fails` (pq), `Intervals.no_pause_cuts_off_fails` (pq) |
| C132 | `Cmpp.cmpp_text_arrives_exactly` (pcq), `Cmpp.cmpp_text_arrives_fails` (pcq), `Cmpp.cmpp_one_packet_exactly` (pcq), `Sgip.sgip_text_arrives_exactly` (pcq), `Sgip.sgip_text_arrives_fails` (pcq), `Smgp.smgp_text_arrives_partial` (pcq), `Smgp.smgp_newSubmit_delivered` (pcq) |
| C133 | `Shipped.shipped_accounts_found` (pcq), `Shipped.shipped_login` (pcq), `Shipped.shipped_ports` (pcq), `Shipped.shipped_debug_served` (pq), `Shipped.shipped_store_fails` (pcq) |
| C134 | `Times.cmpp_validity_exactly` (pcq), `Times.sgip_validity_exactly` (pcq), `Times.smgp_validity_fails` (pcq), `Times.send_at_exactly` (pcq), `Times.cmpp_report_times_exactly` (pcq), `Times.smgp_report_times_exactly` (pcq), `Times.smgp_text_time` (pcq), `Times.civil_real` (pcq) |
| C135 | `Times.bcd_unique_for_a_year_partial` (pcq), `Times.bcd_year_later_fails` (pq), `Times.bcd_clock_put_back_fails` (pq) |
| C136 | `Cmpp.cmpp_recipients_listed` (pcq), `Cmpp.cmpp_first_recipient_only_fails` (pcq), `Smgp.smgp_first_recipient_only_fails` (pcq), `Sgip.sgip_no_recipient_fails` (p) |
| C137 | `Parts.mixed_parts_partial` (pcq), `Parts.whole` (pcq), `Parts.submits_hold_parts` (pcq), `Parts.own_parts_fails` (pcq), `Parts.same_reference_fails` (pcq), `Parts.swapped_other` (pq), `Parts.references_run_out_fails` (pcq), `Parts.groupId_eq_iff` (pq) |
| C138 | `Cmpp.cmpp_terms_read` (pcq), `Cmpp.cmpp_terms_exactly` (pcq), `Cmpp.cmpp_source_fails` (pcq), `Smgp.smgp_terms_read_partial` (pcq), `Smgp.smgp_terms_fails` (pcq), `Sgip.sgip_terms_read_partial` (pcq), `Sgip.sgip_source_fails` (pcq), `slot_eq_iff` (pq) |
| C139 | `Traffic.handed_exactly` (pcq), `Traffic.keeps_up_iff_partial` (pcq), `Traffic.backlog_fails` (pcq), `Traffic.made_up` (pcq), `Traffic.lag_stays_fails` (pcq), `Traffic.heartbeat_swallows_fails` (pcq) |
| C140 | `Cmpp.cmpp_recipients` (pcq), `Cmpp.cmpp_recipient_limits_partial` (pcq), `Cmpp.cmpp_newSubmit_too_many` (pq), `Smgp.smgp_recipients` (pcq), `Smgp.smgp_recipient_limits_partial` (pcq), `Smgp.smgp_newSubmit_too_many` (pcq), `Sgip.sgip_recipients` (pcq), `Sgip.sgip_recipient_limits_partial` (pcq) |
| C141 | `ServerStream.stream_as_packets` (pcq), `ServerStream.stream_at_most_once` (pcq), `ServerStream.stream_answered_partial` (pcq), `ServerStream.cut_anywhere` (pcq), `ServerStream.together_unanswered_fails` (pcq) |
| C142 | `ClientStream.client_stream_partial` (pcq), `ClientStream.torn_stream_fails` (pcq), `ClientStream.stream_terminated` (pcq), `ClientStream.stream_panics_fails` (pcq), `ClientStream.stream_never_recorded_fails` (pcq), `ClientStream.stream_answer_recorded_partial` (pcq) |
| C143 | `TextOverNetwork.text_over_network_partial` (pcq), `ClientStream.stream_never_recorded_fails` (pcq), `ServerStream.together_unanswered_fails` (pcq), `ClientStream.torn_stream_fails` (pcq) |
| C144 | `ServerLife.life_as_packets` (pcq), `ServerLife.life_at_most_once` (pcq), `ServerLife.life_answered_partial` (pcq), `ServerLife.life_answered_alone_partial` (pcq), `ServerLife.termination_reason_partial` (pcq), `ServerLife.answering_client_kept_partial` (pcq), `ServerLife.answering_client_kept_alone_partial` (pcq), `ServerLife.answering_client_cut_off_fails` (pcq), `ServerTicks.answer_counted_partial` (pcq) |
| C145 | `ServerLife.idle_client_kept_partial` (pcq), `ServerLife.idle_client_kept_alone_partial` (pcq), `ServerLife.sgip_idle_kept_fails` (pcq), `ServerTicks.answer_used` (pcq) |
| C146 | `Link.own_client_kept_partial` (pcq), `Link.own_sgip_client_kept_fails` (pcq) |
| C147 | `Link.termination_ends_session` (pcq), `Link.confirmation_ends_session` (pcq), `Link.session_given_up_only` (pcq) |
| C148 | `Link.answers_read_were_asked_for_partial` (pcq), `Link.answers_read_were_asked_for_fails` (pcq), `Link.client_answers_what_it_reads` (pcq), `Link.quiet_all_answered_partial` (pcq) |

## Result per property

| Property | Title | Status | Remark |
|---|---|---|---|
| C01 | Fixed-width octet strings | proved |  |
| C02 | Hexadecimal identifiers are injective | proved |  |
| C03 | BCD conversion is lossless on digit strings | proved |  |
| C04 | BCD message ids are unique | proved |  |
| C05 | 32-bit cyclic sequence numbers do not repeat within a window | proved |  |
| C06 | 32-bit sequence numbers of different nodes do not collide | partial | The code violates the full statement: data centers of the same parity, as 0/2 and 1/3, return identical values (proved for all). Proved for different workers and for data centers of different parity: a value in common exactly when worker and parity are the same. |
| C07 | 64-bit snowflake ids strictly increase | proved |  |
| C08 | Snowflake ids identify their origin | proved | Outside the range of node numbers ids collide (proved for every data center of the range plus eight, at every even millisecond). |
| C09 | 32-bit snowflake ids are unique during a day | proved |  |
| C10 | Snowflake32 always makes progress | partial | The code violates the full statement: NextVal hangs when 512 ids were drawn in second 86399 (proved). |
| C11 | SGIP sequence numbers are unique | proved |  |
| C12 | TLV object round trip | proved |  |
| C13 | TLV list round trip | proved |  |
| C14 | Truncated TLV input is reported | partial | The code violates the full statement: some truncations are accepted silently (proved witness). Proved which truncations are reported. |
| C15 | TLV list operations | proved |  |
| C16 | Message coding decision | proved |  |
| C17 | UCS2 transcoding is lossless | proved |  |
| C18 | Long messages survive splitting | partial | The code violates the full statement: the last slice carries the head of the content instead of the tail (proved). Proved what reassembly yields in every case. |
| C19 | Long message slices are well formed | proved |  |
| C20 | Short messages are sent unchanged | proved |  |
| C21 | Packet headers round trip | proved |  |
| C22 | Encoded packets are as long as they declare | proved |  |
| C23 | CMPP connect round trip | proved |  |
| C24 | CMPP login decision | proved |  |
| C25 | CMPP login completeness | proved |  |
| C26 | CMPP connect response | proved |  |
| C27 | CMPP 3.x submit round trip | partial | The code violates the full statement: empty content makes the decoder panic (proved for every such submit) and the parts of long ASCII texts arrive as different text (proved for every part and every ASCII text of 160 bytes or more). Proved for every content that does not begin like a concatenation header, and for UCS2 slices; cmpp_submit_content_exactly says what becomes of the content in every case, cmpp_submit_unchanged_exactly that it arrives unchanged if and only if it does not begin like a header. |
| C28 | CMPP 2.x submit round trip | partial | The code violates the statement for 13 or more recipients (proved for every such submit); proved for up to 12. |
| C29 | CMPP deliver round trip | partial | The code violates the statement: the destination number is overwritten by the service id, no text with a character outside ASCII and no 160-byte text survives (proved for all such texts). Everything else is proved to survive. |
| C30 | CMPP status report is tied to its message | proved |  |
| C31 | Responses echo the request | proved |  |
| C32 | CMPP responses round trip | proved |  |
| C33 | SMGP login | partial | The code violates the statement for client ids shorter than 8 bytes (proved); everything else is proved. |
| C34 | SMGP submit round trip | partial | The code violates the full statement: empty content makes the decoder panic (proved for every such submit). Proved for content that does not begin like a concatenation header and for slices; smgp_submit_content_exactly covers every content. |
| C35 | SMGP deliver and report round trip | proved | Additional findings: the length byte of a report packet is 115 for 122 bytes; a text whose GB18030 form exceeds 255 bytes is cut. |
| C36 | SMGP responses round trip | proved |  |
| C37 | SGIP bind | proved | Additional finding: NewBind sends the client id, Check compares with the login name, so an account whose login name differs cannot log in with this client. |
| C38 | SGIP submit round trip | partial | The code violates the full statement: empty content makes the decoder panic; the slices of long ASCII texts decode to other text (proved for every part and every ASCII text of 160 bytes or more). sgip_submit_content_exactly says what becomes of the content in every case, sgip_submit_unchanged_exactly that it arrives unchanged if and only if it does not begin like a concatenation header. |
| C39 | SGIP deliver and report round trip | partial | The code violates the last clause: NewReport's command id is always that of a deliver, and a receiver that goes by it panics (proved). |
| C40 | Over-long fields cannot corrupt neighbouring fields | partial | Holds for CMPP and SMGP and for the SGIP bind and report; the code violates it for the SGIP submit and deliver (proved). |
| C41 | Stream framing is independent of segmentation | partial | Proved for every stream, segmentation and handler behaviour when the network library's Peek(0)/Discard(0) mean nothing, or no packet is a bare header. With the library version's reading of 0 (whole buffer) the code violates it for every bare-header packet followed by data in the same buffer (proved). |
| C42 | Every complete packet is processed | partial | One complete packet is processed per arrival. The code violates the rest: of any two packets arriving together the second waits for further data (proved). |
| C43 | Malformed packets close the connection | proved |  |
| C44 | Malformed bodies do not crash the process | partial | The exact condition for a panic in the event loop is proved for every packet and session state. The code violates the property: any short login body, without credentials, ends the process (proved for all of them). |
| C45 | Only logged-in sessions can submit | proved |  |
| C46 | Per-client connection limit | partial | Proved when no login is checked while another checked login is still to be completed. The code violates the property: logins checked at the same time are all accepted, for every limit and any number of connections (proved). |
| C47 | Connection accounting | partial | The counter is exact with one event loop until the maximum is reached. The code violates the rest: refusing a connection ends the process, and with several event loops the maximum can be exceeded and the counter drifts (all proved). |
| C48 | Receive window bounds concurrency | partial | Proved for sessions that log in once. The code violates the property for sessions that log in again (n logins, n*W handlers), and handlers running when the session closes never end (both proved for all sizes). |
| C49 | Heartbeat supervision | proved | The third part assumes that at each tick at most 252 heartbeat tasks of the session still wait for a goroutine. The same for everything written on a connection (ServerTicks). |
| C50 | MT options are sanitised and last one wins | partial | Every attribute ends with the last value given for it. The clause about WithMtOptions is violated by the code: it has no effect (proved). |
| C51 | Per-message options override the account's defaults | partial | CMPP in full; SGIP and SMGP hold for the options named in the theorems, the rest is refuted by the _fails theorems. |
| C52 | Account store lookup | partial | Exact lookup result for every history of loads. The code violates two clauses (proved): removed accounts stay available, client ids with capitals are never found. |
| C53 | Event manager is a keyed registry | proved |  |
| C54 | Concurrent registration has one winner | partial | At least one winner, and a winner's functions are kept, in every interleaving. The code violates uniqueness (proved). |
| C55 | Submit responses are correlated with their request | partial | Proved for SGIP in every history. The code violates the property for CMPP and SMGP in every history (proved): responses are looked up with a 32 bit key in a map with 64 bit keys, so no result is ever updated and every result reads as success. |
| C56 | Query returns the message's results | partial | Proved for calls that got something sent, for the numbers whose packets were all written. The code violates the rest (proved): Query panics for a call that sent nothing, and the packets sent before a write error are missing. |
| C57 | Expired results are handed over exactly once | proved | Age of an entry: that of its first result. |
| C58 | Carrier selection | partial | Proved for every history if all patterns compile. The code violates the property otherwise (proved): a pattern that does not compile makes the first send panic. |
| C59 | Session pool keeps exactly the healthy sessions, least used first | partial | Order proved for at most 10^10 messages per period; beyond that the priority wraps around (proved). |
| C60 | Client sessions are logged in | partial | Decision proved for every complete answer. The code violates the property (proved): an answer of which the first read returns only a part makes a session that is not logged in, without an error, and a CMPP 3 status that is a multiple of 256 counts as success. |
| C61 | Closing a client session is idempotent | partial | At most one close and no deadlock in every interleaving; no panic for calls that do not overlap. The code violates the rest (proved): of any two overlapping calls the second one can call a method of a nil connection. |
| C62 | Client receive framing | partial | Proved exactly when it holds (receive_exactly): all packets of a stream are processed if and only if no head and no body arrives in two reads; otherwise those before the torn one are and the session is closed. So the code violates the property for every packet and split point (receive_split_fails). |
| C63 | Configured throughput | partial | Holds for throughputs up to a million and a window of at least 1; violated outside (proved). |
| C64 | Account fields are copied faithfully | proved |  |
| C65 | Command names | proved |  |
| C66 | Parts of a long message number themselves consistently | partial | Holds for CMPP (exact numbers up to 255 parts); the code violates it for SMGP (proved). |
| C67 | Closed connections do not count against the client's limit | partial | Proved if the network library runs no write callback after a close. Refuted for a library that does (a session stored again after its connection was closed stays for ever). |
| C68 | Inactive sessions are terminated | proved |  |
| C69 | Delivery reports reach the result of the message | partial | The code violates the property in every history (proved): no report is ever recorded in any result, for any protocol. |
| C70 | Sending and receiving while a session closes | partial | Proved while nobody closes the session, and for all who come after the closing has begun. The code violates the property (proved for any goroutines): a session closed between the health check and the use of its fields crashes the sender or the receiver. |
| C71 | The client's pool never exceeds its configured connections | partial | Proved for an unchanged configuration; in general the bound is the largest configured value. If the configuration is lowered at run time the pool keeps its healthy sessions (proved). |
| C72 | Sending without a connection | partial | Proved for the rate limit. The code violates the rest (proved): without a healthy session the call never returns. peek_exactly says which session an admitted call returns and when, peek_waits_exactly_fails when it is still waiting. |
| C73 | Nothing the carrier sends crashes the client | partial | The exact set of crashing packets is proved; the property itself is false: rejected login responses and short submit responses always crash the client. |
| C74 | The client answers each request of the carrier with the matching response, and nothing else | partial | Proved for every packet that does not crash the client; refuted for all SGIP deliveries and reports, which are ignored, and false for SMGP texts that cannot be decoded. |
| C75 | A submit answered by this library's server is recorded by this library's client | partial | Proved for SGIP under the assumptions that the sequence number is unique and the cache entry not expired; refuted for CMPP and SMGP. |
| C76 | Every request is answered, once, with the specified bytes | partial | At most one answer, exact bytes and coming to rest proved for all histories. Logins and submits over the rate limit are always answered (slotless_answered). For the other packets being answered is proved if the account is known, windows have at least one slot, there is no second login and the minimal processing time is below the maximal one; without each of these conditions it is refuted; a request waiting for a slot when a login is completed can be given up from every such state and is then never answered (second_login_unanswered_fails). Also with the server's own frames in between (ServerTicks). |
| C77 | A report follows the response to its submit and carries its message id | proved | For all histories; the id in an SMGP report is that of the response if ids have their 10 bytes (they do: C04). Also with simulated texts in between. |
| C78 | The server enforces the account's rules on submits | partial | Refuted for all accounts, submits and histories that otherwise lead to an answer. |
| C79 | Logins, service and closing, on the wire | proved | Closing means the server has asked for the connection to be closed. Also with the server's own frames: only terminations are sent before a login. |
| C80 | The counters of a connection count what was written | proved | Counters are 64 bit and wrap. Also with simulated texts, which have their own counter. |
| C81 | A text sent by a handset reaches the wire whole, up to the size of one packet | partial | Exact bytes for every text in CMPP; the property is refuted there for all longest texts and all texts with wide characters. SMGP: proved if the coder can write the kept text in 255 bytes. SGIP: proved. |
| C82 | Random choices of the simulator are in range, and rates are what they say | partial | Range proved for non-empty ranges; the code panics for empty ones (proved), which leaves submits unanswered (C76). The number of passing draws is counted exactly; it is one too many (proved). |
| C83 | A termination signal shuts the process down gracefully | partial | At most once in every schedule; exactly once before exit if the signal finds the process waiting, no hook panics and no further signal comes. Each of these conditions is needed (refuted without). |
| C84 | The client command sends to every number given | partial | The property is refuted for every list of different numbers (at most as many as the pool has goroutines); it holds if each task runs before the loop goes on. |
| C85 | The pid file holds the process id | partial | Holds if and only if the file did not hold a longer text. |
| C86 | The id generators follow the configuration | partial | Proved for 64 bit ids, SGIP node and BCD code; refuted for 32 bit ids and SGIP workers. |
| C87 | Loggers follow the configuration | partial | All settings but the level; the level is refuted for every name and configuration. |
| C88 | The account store starts or says why not | partial | Exact conditions for starting; the panics are proved. |
| C89 | With the shipped patterns every number has at most one carrier | proved | The patterns are parsed by the model from the text of the configuration; the fragment of regexp they use is modelled. |
| C90 | What the server sends on its own account | proved | Terminations for unanswered heartbeats are guaranteed if 3 to 255 are unanswered (a byte counts them) and the goroutine pool takes the task. |
| C91 | The server closes a connection only for a reason the client can know | partial | The reasons are proved in full; that a confirmation closes is proved at rest, for windows of at least one slot and no second login. With windows of size 0 it is refuted: no confirmation ever closes. Not counted as requests of the server: the handlers for packets of a session that is not logged in, which return an action (C43). |
| C92 | Closing connections never ends the server | partial | False of the code: from every state with a connected client there is a schedule that ends the process. Proved: it goes on if no connection opens, logs in or closes while the check is at it and the library drops callbacks of failed writes. |
| C93 | Accepted submits are reported unless the configured rate denies it | partial | accepted_submit_reported: for every history, any windows and any number of logins, an accepting response on the connection of a server at rest has its report behind it exactly if the draw allowed it and, in SMGP, the account was still known and the submit named a recipient. So the property holds for CMPP; for SMGP it is refuted in those two cases (the task panics after the response). The _partial theorems add that the response itself is there, for windows of at least one slot and one login. |
| C94 | This library's client logs in to this library's server exactly when it should | partial | Proved for ids that arrive whole (CMPP up to 6 bytes, SMGP exactly 8, SGIP up to 16 with the password), for a response that arrives in one read (C60), with one login on the connection that the server's pool takes (C100); answered at rest whatever the windows. login_exchange_any says what decides for ids of any size; for ids that do not arrive whole the property is refuted (login_cut_id_fails). |
| C95 | A recorded login cannot be used again | partial | False of the code: every accepted login is accepted again, by anyone, at any time, while the account is unchanged and has room. Proved: a digest is good for one account, secret and time only, if the hash does not collide on the two inputs. |
| C96 | The client knows whom it logged in to | partial | False of the code: the client checks neither digest nor sequence number. Proved: the response of this library's server has the digest and the sequence number that could be checked. |
| C97 | Logging never fails | partial | Proved for every packet decoded and everything the server makes. An SGIP report made by an application without the sequence of its message cannot be logged. The log library itself is not modelled. |
| C98 | The log tells no passwords | partial | Proved at the shipped level (info) for SGIP passwords and for refused CMPP and SMGP logins while the goroutine pool takes tasks. False otherwise: debug level and the error record of a full pool show the whole packet; debug level shows the digest that would be accepted; the log of an accepted CMPP or SMGP login is enough to log in again; a start with a database logs its user name and password. |
| C99 | The log does not hold the text of messages | partial | Proved for the packets' own log lines at every level, and that nothing is shown at the shipped level while the goroutine pool takes tasks. False at debug level and, at every level, when the pool is full: the record holds the whole packet. |
| C100 | Simultaneous logins do not hurt each other | partial | Proved while fewer tasks run than there are CPUs. False otherwise: any logins beyond that number are disconnected unanswered. |
| C101 | One client's load does not stop the others | partial | Proved: bounds on what a session occupies, and that the loop can always go on after two steps of the session it waits for. False: while it waits, or sleeps in the callback of a termination, no connection of the loop is served. |
| C102 | Every session is looked after at every tick | partial | Proved while the server has idle workers for all tasks of a tick. False for more sessions than CPUs: if the tasks of a tick end only after its visits, the same sessions can be passed over at every tick. |
| C103 | Nothing that was sent stays in the client's memory for ever | partial | Proved for requests and queries in every history, for message ids if no carrier answers one request under two ids. False otherwise: an SGIP carrier leaves any number of entries that no cleaning removes. |
| C104 | The client tests idle connections with heartbeats | partial | Proved when heartbeats are written and what they are. The code violates the rest (proved for all histories): failed or unanswered heartbeats change nothing, they are repeated at every check, and SGIP sessions are not tested. |
| C105 | Every sent message gets into the journal, once | partial | Proved: never twice in any history, and exactly the results handed over if no insertion fails and the process goes on. The code violates the rest (proved): what a failed insertion should have stored, and what is not yet expired at shutdown, is lost. |
| C106 | A text sent with the client to the server is answered, and the answer is what Query shows | partial | Proved for SGIP, client and server joined by the bytes between them, for a connection that stays open, accounts with a window, one login, a known account and sequence numbers used once. The code violates the property for CMPP and SMGP (proved): no answer is ever recorded. |
| C107 | Sending from many goroutines at once, carriers apart from each other | partial | Proved in every schedule: who gets a carrier gets the right one, each carrier is dialed once, no deadlock if the configuration is right and the dialing ends. The code violates the rest (proved for all states and schedules): the lock is held while dialing and logging in, without a limit of time, and is never released after a panic. |
| C108 | A usable connection is used | partial | Proved from a tick with a full pool on. The code violates the rest (proved for all pools and schedules): broken connections are only removed when the pool is full, and senders look at the first one only. |
| C109 | The client's window bounds what is under way | partial | Proved: the window bounds what is sent at one moment. The code violates the rest (proved): the window is only used as the burst of the rate limiter. |
| C110 | The accounts of a running process follow the store | partial | Proved for all interleavings: lookups see whole accounts, accounts stay, an undisturbed reload is applied. The process survives only an operator who never removes a file, keeps the directory readable and gives no short names; proved for all histories that it ends otherwise. Without a configured time limit the database store never finds an account (proved). |
| C111 | Every connection the client opens is used or closed | partial | Proved as long as no login is refused. The code does not close the connection of a refused login (proved for all histories before and after); such connections pile up. |
| C112 | Configuration and logs are found below the directory of the process | partial | Proved for programs; for tests up to the first occurrence of the project's name in the path. The code violates the rest (proved): a directory above with a name starting like the project's, or a path without it. |
| C113 | Each protocol is served at its configured port | partial | Proved for proper, different and free ports. The code violates the rest (proved): one port that cannot be bound, or one failing server, ends the process; without a configured port the system picks one. |
| C114 | The connection limit with several event loops | partial | Proved for one event loop; with several, if they never change the count at the same time, or if no connection closes, the count is right and the limit exceeded by less than the number of loops. The code violates the rest (proved for every limit): arrivals at the same time exceed it, lost updates leave an empty server full (the next client ends the process) or let the number of sessions grow without bound. |
| C115 | Packets, statuses and ids print as what they are | partial | Proved for headers, statuses, logins, responses, deliveries, submits made by the library, and generators that were used. The code violates the rest (proved): a decoded SMGP part of at most five bytes cannot be printed, the print of a delivery shows its whole text, and a generator not yet used prints a negative number. |
| C116 | A client that ends closes its connections first | partial | Proved: what the pool holds as its closing function begins is closed, and what it dropped before is; a pool at rest ends with nothing open; told, and with no tick left in its channel, the pool opens at most the connection it is dialing. The code violates the rest (proved for every order of the functions): a connection being made during shutdown is left open, and the signal to open no more is good for one time, so that a tick left in the channel fills the whole pool again. |
| C117 | Ids can be drawn from many goroutines at once | partial | Proved for all five generators: one after the other, nothing twice, order kept; every call returns for four of them. The code violates the rest (proved): a 32-bit snowflake generator out of numbers at 23:59:59 keeps its mutex for ever, so that no goroutine gets an id from it again; CurVal of the SGIP sequencer does not take the mutex and can return a number that is never handed out. |
| C118 | Packets do not change while they are handled | partial | Proved for the server, in a model with arrays and slices in which the event loop's memory is overwritten at any time. The code violates the rest (proved): decoded CMPP and SGIP submits and CMPP and SMGP logins show what is later written into the buffer they were decoded from, and SMGP and SGIP packets are encoded for the numbers the caller's slice holds at that time. |
| C119 | Packet objects can be used again | partial | Proved for eighteen of the 22 packets with a body, and for Encode of all. The code violates the rest (proved, for all such pairs of bodies): an SMGP submit decoded into an object that holds one gets the recipients of both, the earlier first, and cannot be encoded; a CMPP or SMGP text decoded into an object that holds a report keeps the report; a CMPP connect response is read in the layout of the version the response before it carried. In the server and the client each packet is decoded into a new object, so only users of the codec packages meet this. Packets that are a header only assign all their fields and are left out. Check, which stores the secret in a login, is not among the uses. |
| C120 | A message can be followed through the logs | partial | Answers join their requests by seq (CMPP, SMGP) and seq_12 (SGIP) for all packets; SMGP and SGIP reports join their submits; what the server logs of an answer is what the peer reads from it; both ends log a report with the same text; levels filter exactly. The code violates the rest (proved): a CMPP report's text prints the id without leading zeros while the response's record has sixteen digits, so that they agree exactly for ids from 2^60 on (cmpp_report_join_partial) and for no id drawn before September 2028 with a datacenter below 8 (cmpp_report_join_fails); the number SGIP logs under seq leaves out the node, so that records of different nodes agree in it (sgip_seq_number_fails). |
| C121 | Ids stay unique when a process is started again | partial | Exactly when it holds is proved for each of the four generators, over any number of lives: 64 bit ids are unique if no two lives draw in the same millisecond, BCD ids if no two in the same minute, SGIP numbers if no two lives draw their i-th number in the same second of the year. The code violates the rest (proved for all configurations): a server started again within the minute gives SMGP message ids again, from the first on; 32 bit sequence numbers are the same in every life. A life that ends between drawing an id and writing it is a life with one id more; nothing depends on it. |
| C122 | An event runs the functions it was registered with, with the arguments of the call | partial | Proved for functions given one by one, over all later histories: they are run by each call, and the signal follows them. The code violates the rest (proved for all keys, slices and arguments): no function ever gets an argument; a slice given with dots is kept, not copied, so that what the caller writes to it is run; with room behind the slice, of two who ask to be told one never is and the shutdown hangs, and a refused registration makes the shutdown panic; a second shutdown hangs if the signal of the first was not received. Functions that use the event manager themselves and calls at the same time are not modelled. |
| C123 | A configuration replaced while the process runs takes effect and breaks nothing | partial | Proved: a number of connections raised is reached by the run of the ticker that reads it, whatever is configured before and after; there are never more connections than the largest number configured so far; the processing time is in the range if the maximum read is above the minimum read. The code violates the rest (proved for all values): the two ends of the range are read one after the other, so that a range replaced by one below it in between panics, although both are valid; a number lowered closes no connection that works, at any later tick, and is not noticed by a run that is making connections. That each read gives the value at that moment is assumed of the configuration library. What the processes read only once (addresses, patterns, windows, rates, the client's tick) does not change at all and is no part of the claim. |
| C124 | A server that is told to end finishes what it has begun | partial | Proved for every history of all connections and every moment of the end: what is written is exact answers, none twice, and a connection at rest has all its answers (under the conditions of C76). The code violates the rest (proved for all states): nothing is registered for the shutdown in the server process, so that the process ends five steps after the signal, with every request under way unanswered for ever and no termination sent on any connection; until then packets are handled as ever. OnShutdown, which would wait until the clients have closed their connections, is not reached, because nothing stops the engine. |
| C125 | The handlers of a connection that is closed end | partial | Refuted: a handler at work when the connection is closed is left for ever, for it gives back its place by receiving from a channel that is nil by then; exactly the handlers at work at the closing are left, any number of them. Proved: those waiting for a place or already giving it back end (by a panic or the closed channel), whatever the schedule, and rest can be reached from every state. The worker pool's own limit on handlers is not modelled. |
| C126 | Answers are recorded however the client's goroutines take turns | partial | Refuted: the packet is written before its result is stored, and an answer that comes in between is lost for ever; Query shows the code of an answer before its message id; the cleaner deletes by key, and a new request stored under the key since the cleaner looked is deleted with it. Proved for every interleaving: a request with a number of its own is kept until it is old, an answer looked up after the store is recorded once its receiver has taken its four steps, and a result that shows a response time is whole. Assumes sequentially consistent memory: Go promises nothing for these unsynchronised assignments. |
| C127 | A message id belongs to one message of one client | proved | For any number of connections, any packets and any schedule; the ids of accepted submits are values returned by the generators of Model/IdLock.lean to calls of their own (Drawn), the clocks as in C07 and C04. A delivery that is no report is one of the configured simulated texts. SGIP has no message ids and no reports. Over restarts see C121. |
| C128 | One client's connection is none of another client's business | partial | Proved: up to the end of the process each connection is exactly as if alone, and the process ends only with a panic on a connection. The code violates the rest (proved for all states): a login packet with a short body on any open connection, also one never logged in, ends the process: nothing is written on any connection any more. What connections share through the rate limiter, the accounts, the session counts and the ids enters as what steps draw (C46, C52, C110, C127). |
| C129 | What the configured success rate and delivery rate do to a connection | partial | Proved for every history: a response accepts exactly if the submit is within the limit and its roll is not above the rate; a rate of at least 0.9999 refuses nothing at random and reports every accepted CMPP submit; a negative rate accepts and reports nothing and sends no texts. The code violates the rest (proved): at rate 0 a submit that rolls 0 is accepted, and the rate counts twice: (k+1)^2 of 10000^2 submits are accepted and reported at the rate k/10000. Floating point enters as an order with growing k/10000. |
| C130 | Looking an account up never waits for the database | partial | Proved for every history: while no reload is reading records a lookup is answered at its next step; lookups between two readings see the same accounts; what is answered is a whole record of the database. The code violates the rest (proved for all histories that get there): while a reload reads, nobody who asks is answered, until its end or its time limit (wait_bounded). The driver is assumed to end Next when the time of its context is over. |
| C131 | Periodic work is done at its configured interval | partial | Proved for every history: a job runs exactly if its interval was over since it last ran, with the configured or default interval, so never more often; server ticks are apart by at least the configured delay and begin when it is over. The code violates the rest (proved for all): a negative interval ends the process; without a configured tick interval there is no pause, and four ticks at one moment cut off a silent client. Assumed: the documentation of time.Ticker and of the network library's OnTick. |
| C132 | A short text arrives as it was sent, in one packet | partial | Proved for every text below the size of a packet: it arrives exactly if it is not like a concatenation header, and which texts are is stated in characters (CMPP, SGIP). The code violates the rest (proved for all such texts): what happens to each of them, and that a text filling one packet is sent as two. For SMGP the characters are those of GB18030, an assumed coder, so that the condition is stated on the bytes. |
| C133 | Client and server work together as they are shipped | partial | Proved with the accounts as files: each account is found after every load, each login is answered and accepted exactly while fewer other sessions than the client opens are there, and each protocol is served at the client's address if the ports are free. As shipped the store is a database, so that neither process starts without credentials and a reachable database (proved). What the YAML library makes of the files is assumed. |
| C134 | The times in packets are right | partial | Proved with the calendar from 2000 to 2099: exactly in which time zone validity and sending time are read right (UTC+8), what minutes a report tells, and that a text tells the right second. The property fails in the code: the zone is fixed in the text of the time, SMGP submits are valid up to the moment of sending, reports tell the time of their own making. |
| C135 | Message ids that carry a date stay unique over years and clock changes | partial | Proved for runs of less than a year on a clock that is not put back. The property fails in the code over longer times and when the clock is put back, for every first draw. |
| C136 | Everybody a message is sent to is accounted for | partial | The record lists all recipients. The second half fails in the code for every submit with two or more recipients: only the first is reported on (CMPP, SMGP), or none (SGIP). |
| C137 | Parts of long messages that arrive mixed are put together right | partial | Proved for any number of messages of at most 255 parts that differ in reference or number of parts, whatever order, repetitions and losses: a message is put together exactly when all its parts are there, from its own parts. The property fails in the code: references agree for all times a multiple of 256 ns apart, and then no receiver can tell the messages (proved for all pairs of texts of the same length and more than two parts); the last part holds the beginning of the text. |
| C138 | The gateway reads in every packet who sends and on which terms | partial | Proved for every packet of every text on the wire: CMPP exactly (if and only if each term fits its field), SGIP for all terms that fit, SMGP for number, service and send time. The property fails in the code: CMPP sends the display number as the company, SGIP drops five characters of longer client ids and all billing, SMGP sends 15 for report wish and priority that were not asked for and is valid until the moment of sending (all refuted for every text and option list). |
| C139 | The server keeps up with what has arrived | partial | Proved exactly for every sequence of packets and every segmentation: how many packets have been handed over and which bytes are held back, and when the server keeps up. The property fails in the code: two packets in each segment leave a backlog of one packet for each segment, without bound (backlog_fails). With the library's reading of 0 as everything, packets without body are excluded (C41); a heartbeat that arrives while the server is behind swallows the packet after it (heartbeat_swallows_fails). |
| C140 | A text can be sent to as many recipients as the packets can name | partial | Proved exactly: the length of every packet of every text, and that the server takes it if it has at most 5120 bytes and otherwise closes the connection. So the property fails in the code from 155 recipients (CMPP 3) or 238 (the others) on, and with more than 255 the constructor panics (CMPP) or nothing is encoded (SMGP). |
| C141 | Every packet sent is answered, however the network delivers its bytes | partial | Framing and answering composed into one machine over bytes (Model/ServerStream). For every stream, every cutting and every schedule: it does what some history of packets does, no request is answered more often than it was sent, and cuts inside packets make no difference. Answered exactly once is proved under the conditions of C76 and if the server is not behind with reading (C139); refuted without that: of two packets that come together the second is not answered, in no schedule, until more data comes. |
| C142 | Everything a carrier sends is acted on, however the network delivers its bytes | partial | The client's framing and its handlers composed into one receiver over bytes (Model/ClientStream), with other goroutines' steps between packets. Proved: all packets acted on in order if no read tears a header or body; after a termination nothing. Refuted: every other cutting loses packets and closes the session; short bodies end the process; whatever a CMPP or SMGP carrier sends, no result changes. For SGIP an answer in the stream is recorded. |
| C143 | A text gets through the network, and the server's verdict gets back to the caller | partial | C106 over both networks: C141 and C142 composed. Proved for SGIP, every text and every packet of it, every stream it is part of, every schedule, every segmentation that lets the server keep up (C139) and, on the way back, tears no header or body (C62), under the conditions of C76 and C106. Without these conditions it fails (C141, C142), and for CMPP and SMGP always. |
| C144 | A client that answers every heartbeat is not cut off for missing answers | partial | Framing, answering and the ticks composed (Model/ServerLife). Proved: the connection over bytes does what a history of packets and ticks does, so C76 to C93 carry over; requests answered at most once, and once at rest, with the server's own frames in between; a termination has the reason the property gives, if at the tick the server is at rest and not behind with reading (windows of at least one slot, no second login). With the library's reading of 0 as everything, packets without body (SMGP answers) must come alone (the _alone theorems). Without keeping up refuted by a run: four submits sent together, then three heartbeats answered within a second each, and the server terminates. |
| C145 | A session that is merely idle is not ended | partial | Proved for CMPP and SMGP over bytes, for every history with a clock that does not go back: a termination is sent only to a client that was not logged in and was idle, if the client answers heartbeats, at ticks the server is at rest and not behind with reading, and the pool takes the tasks (conditions of C144: windows of at least one slot, no second login; packets without body come alone). For SGIP refuted for every idle client: whatever it sends short of accepted texts and logins, the termination is written. |
| C146 | An idle connection between this library's client and server stays | partial | Client and server joined by a network (Model/Link): the client's answers to heartbeats are what its receiver writes, not an assumption; they arrive in pieces of any length. Proved for CMPP and SMGP for every history, under the conditions of C145 on times, pool and windows, if at every tick with the server's end open all that was written has been read at both ends; the client reads whole packets (torn reads end the session: C142). For SGIP refuted for every idle connection. |
| C147 | A session that is ended is over at both ends | proved | Model/Link: client and server joined by a network; the client reads whole packets (torn reads end the session too: C142), so that a packet cut by the network on its way back is not covered. |
| C148 | Between client and server answers belong to requests, and all are answered | partial | Client to server: proved if packets without body (heartbeats of the client, terminations) arrive alone, or the network library reads a length of 0 as nothing; refuted otherwise: after such a packet the server goes on reading in the midst of the next and answers requests that a text spells. The direction from server to client holds without that. That all is answered when all is quiet is proved for windows of at least one slot and one login, for submits whose account is still known and whose report delay is a range. |

`partial` means: part of the English property is proved for all inputs, states and executions, and the rest is either refuted by a
theorem whose name contains `_fails` (the code does not have the property) or needs the hypothesis named in the remark. No property is
left without a theorem.

## Disagreements between code and properties

Each of these is a theorem (`..._fails`), most of them universally quantified.

* Node ids: data centers 0/2 and 1/3 produce the same 32 bit sequence numbers (C06). `snowflake32` hangs at the end of a day when its 512 ids of the last
  second are used up (C10).
* Splitting: the last part of a long message carries the head of the text instead of its tail (C18); parts decode as UCS2 whatever
  their coding (C27, C38); an empty text crashes the decoders (C27, C34, C38).
* CMPP: 13 or more recipients in a 2.x submit cannot be decoded (C28); a delivery's destination is overwritten by the service id (C29);
  the longest texts from handsets are sent as the first part of a message without the other parts, emoji cut the text (C81).
* SMGP: client ids shorter than 8 bytes cannot log in (C33); part numbers differ between header and TLV (C66); report packets declare 115 bytes for 122 (C35).
* SGIP: over-long fields run into their neighbours (C40); reports carry the command id of deliveries (C39); fees are ignored (C51).
* Framing: only one packet is taken per arrival (C42); bare headers swallow what follows them, with the library's reading of `Peek(0)` (C41).
* Server: a short login body ends the process (C44); refusing a connection ends the process (C47); logins at the same time exceed the limit (C46);
  logging in again multiplies the window (C48); the account's rules are checked and ignored (C78); a submit can stay unanswered (C76);
  recorded logins are accepted again (C95); a connection that closes while the periodic check is at it ends the process (C92).
* Stores and registries: removed accounts stay usable, capital letters are never found (C52); two registrations can both win (C54); `WithMtOptions` has no effect (C50).
* Client: CMPP and SMGP responses are never recorded (C55), reports never (C69); Query crashes after a failed send (C56); a bad pattern crashes the first send
  (C58); overlapping closes crash (C61), closing while in use crashes (C70); split reads end the session (C62); without connections sending never
  returns (C72); it takes any server for its own (C96); the command can send everything to the last number (C84); refused logins and short submit responses crash the client (C73); SGIP deliveries are not answered (C74);
  message ids given by a second response to the same request are never freed (C103); dead connections are not noticed by heartbeats (C104); results
  not yet expired at shutdown, and those of failed insertions, are lost (C105); a carrier that does not answer, or a wrong pattern, stops the messages
  to all carriers (C107); a broken first connection hides usable ones (C108); the window is not one (C109); connections of refused logins
  stay open (C111).
* Load: logins beyond the number of CPUs at once are disconnected (C100); one busy client, or one termination, stops all connections of an event loop (C101);
  a tick may reach no more sessions than there are CPUs (C102).
* Process: 32 bit ids ignore their configuration and collide between workers (C86); the configured level of a logger has no effect (C87); an unknown kind of
  store panics (C88); signals are lost before the process waits, panicking hooks stop the others (C83); the pid file keeps the end of a longer text (C85);
  the log of an accepted login is enough to log in again, at debug level or with a full goroutine pool it holds passwords and texts (C98, C99);
  a database start logs its password (C98); an account file removed during a reload, an unreadable directory or a short name ends a running process, and
  the database store needs a configured time limit to find anything (C110); a port that cannot be bound ends all servers (C113); with several event loops the count of sessions is changed without a lock and can stay
  too high or too low for ever (C114); a received part of at most five bytes cannot be printed (C115); a connection made during shutdown is left open, and the pool obeys the signal to stop once only (C116); a 32-bit snowflake generator out of numbers at 23:59:59 blocks all its callers for ever and CurVal can show a number never handed out (C117); decoded packets share memory with the buffer they came from, and SMGP and SGIP packets with the caller's numbers (C118); decoding into an object used before gives an SMGP submit the earlier recipients too, a text an earlier report, a connect response an earlier layout (C119); the text of a CMPP report shows its id without the leading zeros that the response's record has, and the number SGIP logs as seq leaves out the node (C120); a process started again within a minute hands out the same SMGP message ids again, and always the same 32-bit sequence numbers (C121); events never get the arguments of a call, and functions registered as a slice can be replaced by the caller's later writes (C122); a range of processing times replaced by a lower one between its two reads panics, and a number of connections lowered closes none (C123); a server told to end answers nothing that is under way and sends no termination (C124); a handler at work when its connection is closed never ends (C125); an answer that comes before the client has stored the result of the packet is lost, and the cleaner can delete a new request (C126); a short login packet of anybody ends the service of all clients (C128); a rate of zero passes one draw in 10000 and an empty range of processing times panics (C82); the success rate counts twice, for the response and for the report (C129); while accounts are read from the database every login waits (C130); a negative interval ends the process, a missing tick interval makes ticks without pause, which cut silent clients off (C131); an empty text, or one that begins with U+0500 and a Greek letter, ends the server or loses its first characters, and a text that fills a packet is split (C132); as shipped neither process starts without a database (C133); times are right only if the process runs on UTC+8 time, SMGP submits expire at once, reports tell the time of their own making (C134); SMGP ids return after years and when the clock is put back (C135); of several recipients only the first is reported on, by SGIP none (C136); long messages split a multiple of 256 ns apart cannot be told apart by their receiver (C137); gateways read a wrong company in CMPP packets, and in SGIP packets if the client id has more than five characters (C138); packets that arrive together pile up unread without bound (C139); a text to more than about 150 (CMPP 3) or 230 recipients costs its sender the connection (C140); the second of two packets that arrive together is not answered until more data comes (C141); whatever a CMPP or SMGP carrier sends, no result of a message changes (C142).

## Tests against wrong programs

`seeded/LOG.jsonl` has one line for each wrong program tried: the definition of the model that was changed, the change, the claim it breaks, the
theorems that no longer check, and, if none failed, the theorems that were added or strengthened afterwards. The edits are made in a copy of
the project; each is followed by a full build.
