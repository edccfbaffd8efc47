{"id": "C01", "title": "Fixed-width octet strings", "statement": "OctetString(s, n) always returns exactly n bytes: s followed by NULs when s is shorter, the last n bytes of s when it is longer. TrimStr/TrimOctetString applied to it gives s back whenever s has at most n bytes and contains no NUL. TrimStr never returns a byte that was not in its input prefix and is idempotent.", "quantifier": "every byte string s and every width n", "why_tests_cant": "the width and the content are unbounded; a sample cannot cover every length relation or every NUL position", "anchors": ["utils/utils.go: OctetString, TrimOctetString, TrimStr"]}
{"id": "C02", "title": "Hexadecimal identifiers are injective", "statement": "Uint64HexString(v) is 16 and Uint32HexString(v) 8 lower-case hex digits, most significant first, whose value is v; two different ids never render to the same string, so a map keyed by the string never confuses two messages.", "quantifier": "every 64-bit / 32-bit value, every pair of values", "why_tests_cant": "2^64 inputs (2^128 pairs)", "anchors": ["utils/utils.go: NumTable, Uint64HexString, Uint32HexString"]}
{"id": "C03", "title": "BCD conversion is lossless on digit strings", "statement": "For every string of an even number of decimal digits, StoBcd yields half as many bytes and BcdToString gives the string back; the high nibble carries the first digit of each pair.", "quantifier": "every even-length digit string, of any length", "why_tests_cant": "unbounded length; nibble/offset mistakes only show for some positions", "anchors": ["utils/bcd_sequence.go: StoBcd, BcdToString, IntToFixStr"]}
{"id": "C04", "title": "BCD message ids are unique", "statement": "BcdSequence.NextVal always returns 10 BCD bytes: 3 bytes of node id, 4 bytes MMDDHHMM, 3 bytes of counter. In every history in which the minute stamp never returns to an earlier value, and fewer than 10^6+1 ids are drawn in any one minute, no id is ever returned twice.", "quantifier": "every history of calls (any length, any schedule of callers) and every clock", "why_tests_cant": "uniqueness is about all pairs in histories of up to 10^6 calls per minute", "anchors": ["utils/bcd_sequence.go: NewBcdSequence, NextVal"]}
{"id": "C05", "title": "32-bit cyclic sequence numbers do not repeat within a window", "statement": "Any 2^26 consecutive values of CycleSequence.NextVal from one generator are pairwise different, and the value repeats after exactly 2^26 calls, so a sequence number is never reused while fewer than 2^26 requests are outstanding.", "quantifier": "every generator (data center, worker), every starting point, every pair of call positions", "why_tests_cant": "67 million calls per period and all pairs of them", "anchors": ["utils/cycle_sequence.go: NewCycleSequence, NextVal"]}
{"id": "C06", "title": "32-bit sequence numbers of different nodes do not collide", "statement": "Two CycleSequence generators configured with different (data center 0-3, worker 0-7) never return the same value.", "quantifier": "every pair of node configurations in the documented ranges and every pair of call positions", "why_tests_cant": "quantifies over all pairs of positions of two generators", "anchors": ["utils/cycle_sequence.go: NewCycleSequence, NextVal"]}
{"id": "C07", "title": "64-bit snowflake ids strictly increase", "statement": "In every history of Snowflake.NextVal calls whose clock readings never go backwards (and stay inside the 41-bit range), successive ids are strictly increasing, hence unique, including when more than 4096 ids are requested in one millisecond.", "quantifier": "every history of calls, every non-decreasing clock", "why_tests_cant": "concurrency and clock schedule: collisions need particular interleavings of >4096 calls/ms", "anchors": ["utils/snowflake/snowflake.go: NextVal"]}
{"id": "C08", "title": "Snowflake ids identify their origin", "statement": "Parse(id) of an id produced by a generator with data center < 8 and worker < 128 returns exactly the timestamp, data center, worker and sequence it was built from; two generators with different node ids never produce the same id at any time.", "quantifier": "every generator pair, every time, every sequence value", "why_tests_cant": "the value space is 2^63", "anchors": ["utils/snowflake/snowflake.go: NextVal, Parse"]}
{"id": "C09", "title": "32-bit snowflake ids are unique during a day", "statement": "In every history of Snowflake32.NextVal calls during one day whose second readings do not go backwards, the returned ids are strictly increasing; Parse recovers seconds, data center, worker and sequence.", "quantifier": "every history of calls within a day and every clock", "why_tests_cant": "needs >512 calls per second schedules and all pairs", "anchors": ["utils/snowflake32/snowflake32.go: NextVal, Parse"]}
{"id": "C10", "title": "Snowflake32 always makes progress", "statement": "Every call of Snowflake32.NextVal eventually returns as long as the wall clock keeps running.", "quantifier": "every generator state reachable by a history of calls, every run of the clock through the day", "why_tests_cant": "a non-termination claim about all later clock readings; a test can only time out", "anchors": ["utils/snowflake32/snowflake32.go: NextVal"]}
{"id": "C11", "title": "SGIP sequence numbers are unique", "statement": "The third word of successive SGIP sequence numbers from one node takes 2^32 different values before it repeats, and two workers whose numbers differ modulo 31 never produce the same word before either wraps.", "quantifier": "every starting worker number and every pair of call positions", "why_tests_cant": "period 2^32", "anchors": ["codec/sgip/sequence.go: NewSequencer, NextVal"]}
{"id": "C12", "title": "TLV object round trip", "statement": "For every type and every value of at most 65535 bytes, FromBytes(ToBytes(tlv)) yields a TLV with the same type and value, and the encoding is type(2) length(2) value big-endian; longer values are cut to their length modulo 65536, consistently with the length field.", "quantifier": "every tag, every value of every length", "why_tests_cant": "unbounded values; boundary at 65536", "anchors": ["utils/tlv.go: New, ToBytes, FromBytes, ReadObject, WriteObject"]}
{"id": "C13", "title": "TLV list round trip", "statement": "Writing a TLV list and reading the bytes back yields the same list of (type, value) in the same order with no error, for any number of TLVs.", "quantifier": "every list of TLVs, of any length", "why_tests_cant": "unbounded list length", "anchors": ["utils/tlv.go: TlvList.Write, Read"]}
{"id": "C14", "title": "Truncated TLV input is reported", "statement": "Reading a TLV area that ends inside a TLV (in its type, its length, or its value) returns an error rather than silently dropping the damaged TLV.", "quantifier": "every byte string and every cut position", "why_tests_cant": "all cut positions of all encodings", "anchors": ["utils/tlv.go: ReadObject, Read"]}
{"id": "C15", "title": "TLV list operations", "statement": "A TlvList behaves as an ordered multimap: Add appends, Get returns the first TLV with a type, GetAll all of them in order, Remove deletes exactly those with the type and returns how many, RemoveObject deletes exactly the equal ones; Length counts them.", "quantifier": "every sequence of operations on a list, every type", "why_tests_cant": "operation histories are unbounded", "anchors": ["utils/tlv.go: TlvList.Length, Get, GetAll, Remove, RemoveObject, Add, AddObject, Contains"]}
{"id": "C16", "title": "Message coding decision", "statement": "For every valid UTF-8 text, MsgFmt is 0 (7-bit) exactly when every character is ASCII, and 8 (UCS2) otherwise.", "quantifier": "every UTF-8 text", "why_tests_cant": "all texts of all lengths", "anchors": ["utils/utils.go: MsgFmt"]}
{"id": "C17", "title": "UCS2 transcoding is lossless", "statement": "For every valid UTF-8 text (including characters outside the BMP), Ucs2ToUtf8(Utf8ToUcs2(text)) is the text; the encoded length is 2 bytes per BMP character and 4 per supplementary character.", "quantifier": "every text", "why_tests_cant": "all texts of all lengths, surrogate boundaries", "anchors": ["utils/utils.go: Utf8ToUcs2, Ucs2ToUtf8"]}
{"id": "C18", "title": "Long messages survive splitting", "statement": "Concatenating, in order, the bodies (the part after the 6-byte user data header) of the slices produced by ToTPUDHISlices gives back the original content.", "quantifier": "every content of at least pkgLen bytes and every package length > 6", "why_tests_cant": "all lengths: errors show only in the last slice and at exact multiples", "anchors": ["utils/utils.go: ToTPUDHISlices, MsgSlices"]}
{"id": "C19", "title": "Long message slices are well formed", "statement": "Every slice of a long message is at most pkgLen bytes and starts with 05 00 03 <ref> <total> <k>, with the same reference in all slices, k running 1,2,...,total, and total equal to the number of slices when there are at most 255.", "quantifier": "every content and package length, every reference", "why_tests_cant": "all content lengths", "anchors": ["utils/utils.go: ToTPUDHISlices"]}
{"id": "C20", "title": "Short messages are sent unchanged", "statement": "Content shorter than the package length (140 for UCS2, 160 otherwise) is one slice equal to the content, without a user data header; MsgSlices uses the UCS2 transcoding exactly for format 8.", "quantifier": "every content and format", "why_tests_cant": "all lengths including the boundary", "anchors": ["utils/utils.go: MsgSlices, ToTPUDHISlices"]}
{"id": "C21", "title": "Packet headers round trip", "statement": "For the CMPP, SMGP and SGIP headers: Encode writes big-endian length, command and sequence; decoding the first bytes gives the same three values; the produced frame is at least one header long and, when the declared length is at least a header, exactly as long as declared.", "quantifier": "every header value (all 32-bit lengths, commands, sequences)", "why_tests_cant": "2^96 values", "anchors": ["codec/cmpp/header.go: MessageHeader", "codec/smgp/header.go: MessageHeader", "codec/sgip/header.go: MessageHeader", "codec/packer.go: UnpackHead"]}
{"id": "C22", "title": "Encoded packets are as long as they declare", "statement": "Every request and response built by the package constructors encodes to a frame whose length equals the total-length field in its header, so that a receiver that frames by that field stays in step.", "quantifier": "every constructor argument (texts, phone lists up to 255 numbers, accounts, versions)", "why_tests_cant": "all field lengths; an off-by-one desynchronises the stream only later", "anchors": ["codec/cmpp", "codec/smgp", "codec/sgip: Encode, New*"]}
{"id": "C23", "title": "CMPP connect round trip", "statement": "A CMPP connect packet built by NewConnect, encoded, and decoded by the server yields the same source address, authenticator, version and timestamp, for client ids of at most 6 bytes without NUL.", "quantifier": "every account, time and sequence number", "why_tests_cant": "all field values", "anchors": ["codec/cmpp/connect.go: NewConnect, Encode, Decode"]}
{"id": "C24", "title": "CMPP login decision", "statement": "The server answers a connect with OK exactly when the account exists, the major version matches the account's, and the authenticator equals MD5(clientId, 9 NULs, shared secret, 10-digit timestamp); otherwise the code says which test failed first.", "quantifier": "every packet, every account, every digest function", "why_tests_cant": "all byte strings; acceptance of a wrong secret cannot be excluded by sampling", "anchors": ["codec/cmpp/connect.go: Check"]}
{"id": "C25", "title": "CMPP login completeness", "statement": "A client that uses the account the server has (same id, secret and version) is always accepted: NewConnect, Encode, Decode, Check yields OK at every time.", "quantifier": "every account and every instant", "why_tests_cant": "all accounts, all timestamps (zero padding of the timestamp matters)", "anchors": ["codec/cmpp/connect.go: NewConnect, Encode, Decode, Check", "utils/utils.go: Now, TimeStamp2Str"]}
{"id": "C26", "title": "CMPP connect response", "statement": "The connect response carries the request's sequence number, the response command, status equal to the check result and, when OK, the ISMG authenticator MD5(status, source address, secret) and 16 NULs otherwise; encode/decode preserves version, status and authenticator in both the 2.x and 3.x layout.", "quantifier": "every request, code below 256, account and version", "why_tests_cant": "all values, two layouts", "anchors": ["codec/cmpp/connect.go: ToResponse, ConnectResp.Encode, Decode"]}
{"id": "C27", "title": "CMPP 3.x submit round trip", "statement": "Encoding a CMPP 3.x submit and decoding it on the server yields the same segment counters, report flag, level, service id, fee fields, coding, source, times, source number, recipient list prefix and content.", "quantifier": "every submit whose string fields fit their widths and contain no NUL, any number of recipients up to 255, any content up to 255 bytes", "why_tests_cant": "all field values and lengths", "anchors": ["codec/cmpp/submit.go: Encode, Decode"]}
{"id": "C28", "title": "CMPP 2.x submit round trip", "statement": "The same for the 2.x layout, for every number of recipients from 1 to 255.", "quantifier": "every 2.x submit, every recipient count", "why_tests_cant": "only particular recipient counts misbehave", "anchors": ["codec/cmpp/submit.go: Encode, Decode"]}
{"id": "C29", "title": "CMPP deliver round trip", "statement": "Encoding a CMPP deliver (MO text or status report) and decoding it yields the same message id, destination number, service id, coding, source number, report flag and content.", "quantifier": "every deliver whose fields fit", "why_tests_cant": "all field values", "anchors": ["codec/cmpp/delivery.go: Encode, Decode"]}
{"id": "C30", "title": "CMPP status report is tied to its message", "statement": "The report produced for an accepted submit carries the message id returned in the submit response, the recipient's number and the submit's source number; after encoding and decoding the id renders to the same hex string the client stored.", "quantifier": "every accepted submit, every id", "why_tests_cant": "end-to-end over all ids and fields", "anchors": ["codec/cmpp/submit.go: ToResponse, ToDeliveryReport", "codec/cmpp/report.go", "codec/cmpp/delivery.go"]}
{"id": "C31", "title": "Responses echo the request", "statement": "In all three protocols, every response built with ToResponse carries the request's sequence number and the request's command id with the top bit set, and the status given (its low byte where the protocol's status field has one byte: SGIP and the CMPP connect response).", "quantifier": "every request and every code", "why_tests_cant": "all requests", "anchors": ["codec/cmpp, codec/smgp, codec/sgip: ToResponse"]}
{"id": "C32", "title": "CMPP responses round trip", "statement": "Submit, deliver, active-test and terminate responses decode to the message id and result that were encoded, in the 2.x and 3.x layouts.", "quantifier": "every id, result that fits the field, and version", "why_tests_cant": "all values, two layouts", "anchors": ["codec/cmpp/submit.go: SubmitRsp", "codec/cmpp/delivery.go: DeliveryRsp", "codec/cmpp/active.go", "codec/cmpp/terminate.go"]}
{"id": "C33", "title": "SMGP login", "statement": "SMGP login: the packet round-trips; the server accepts exactly when the account exists, the major version matches and the digest is MD5(clientId, 7 NULs, secret, timestamp); a client using the server's account is always accepted.", "quantifier": "every account, packet and instant", "why_tests_cant": "all values", "anchors": ["codec/smgp/login.go: NewLogin, Encode, Decode, Check, ToResponse"]}
{"id": "C34", "title": "SMGP submit round trip", "statement": "Encoding an SMGP submit and decoding it yields the same fields, recipients, content and optional TLVs.", "quantifier": "every submit whose fields fit, any number of recipients up to 255", "why_tests_cant": "all values and lengths", "anchors": ["codec/smgp/submit.go: Encode, Decode"]}
{"id": "C35", "title": "SMGP deliver and report round trip", "statement": "An SMGP deliver decodes to what was encoded; a status report's id, submit/done times, state and error survive encoding.", "quantifier": "every deliver and report whose fields have their fixed widths", "why_tests_cant": "all values", "anchors": ["codec/smgp/deliver.go: Encode, Decode", "codec/smgp/report.go: Encode, Decode"]}
{"id": "C36", "title": "SMGP responses round trip", "statement": "SMGP login, submit, deliver and active responses decode to what was encoded.", "quantifier": "every id of 10 bytes and every status", "why_tests_cant": "all values", "anchors": ["codec/smgp/login.go", "codec/smgp/submit.go", "codec/smgp/deliver.go"]}
{"id": "C37", "title": "SGIP bind", "statement": "An SGIP bind round-trips for names and passwords of at most 16 bytes without NUL; it is accepted exactly when the account exists and both login name and password are equal to the account's.", "quantifier": "every bind and account", "why_tests_cant": "all values", "anchors": ["codec/sgip/bind.go: NewBind, Encode, Decode, Check"]}
{"id": "C38", "title": "SGIP submit round trip", "statement": "Encoding an SGIP submit and decoding it yields the same fields, recipients and content.", "quantifier": "every submit whose fields fit, any number of recipients up to 255", "why_tests_cant": "all values and lengths", "anchors": ["codec/sgip/submit.go: Encode, Decode"]}
{"id": "C39", "title": "SGIP deliver and report round trip", "statement": "SGIP deliver and report packets decode to what was encoded, and the packet built by NewReport is identified as a report by its command id.", "quantifier": "every deliver/report whose fields fit", "why_tests_cant": "all values", "anchors": ["codec/sgip/deliver.go", "codec/sgip/report.go: NewReport, Encode, Decode"]}
{"id": "C40", "title": "Over-long fields cannot corrupt neighbouring fields", "statement": "When a string field is longer than its slot on the wire, only that field is cut; every other field of the packet is still decoded unchanged.", "quantifier": "every packet, every field, every length", "why_tests_cant": "which neighbour is damaged depends on lengths and on emptiness of the next field", "anchors": ["codec/cmpp/submit.go: Encode", "codec/smgp/submit.go: Encode", "codec/sgip/submit.go: Encode", "utils/utils.go: CopyStr"]}
{"id": "C41", "title": "Stream framing is independent of segmentation", "statement": "However the byte stream of a connection is cut into TCP segments, the packets the server hands to its handlers are a prefix of the packets obtained by cutting the whole stream at the declared lengths; no byte is lost, duplicated or handed out early, and every packet has between 12 and 5120 bytes.", "quantifier": "every byte stream and every segmentation of it", "why_tests_cant": "2^(n-1) segmentations of n bytes", "anchors": ["msc_server/server/on_traffic.go: OnTraffic, DecodeAndCheckHeader"]}
{"id": "C42", "title": "Every complete packet is processed", "statement": "Once a complete packet is in the connection's buffer, it is processed without waiting for further data from the peer.", "quantifier": "every stream and segmentation", "why_tests_cant": "depends on how packets coalesce in segments", "anchors": ["msc_server/server/on_traffic.go: OnTraffic"]}
{"id": "C43", "title": "Malformed packets close the connection", "statement": "A packet whose declared length is below 12 or above 5120, or whose command is unknown, makes the server close that connection without consuming it or running any handler; incomplete packets never do.", "quantifier": "every buffer content", "why_tests_cant": "all header values", "anchors": ["msc_server/server/on_traffic.go: DecodeAndCheckHeader", "codec/*/variables.go: CommandId.String"]}
{"id": "C44", "title": "Malformed bodies do not crash the process", "statement": "No packet body, however short or inconsistent, makes a decoder panic in the server's event loop.", "quantifier": "every body of every length for every request type", "why_tests_cant": "all byte strings", "anchors": ["codec/cmpp: Decode", "codec/smgp: Decode", "codec/sgip: Decode", "msc_server/server: handlers"]}
{"id": "C45", "title": "Only logged-in sessions can submit", "statement": "No submit, deliver response, report or heartbeat is served on a connection before a login on that same connection was accepted by the account check; a packet of a kind the server serves (submit, delivery response, heartbeat and its response, termination and its response) sent before that closes the connection.", "quantifier": "every history of packets, connections and logins", "why_tests_cant": "a safety property of all event histories", "anchors": ["msc_server/server/on_traffic.go: sessionCheck", "msc_server/server/cmpp_connect.go", "msc_server/server/session.go: completeLogin"]}
{"id": "C46", "title": "Per-client connection limit", "statement": "The number of simultaneously logged-in sessions of one client never exceeds the account's MaxConns.", "quantifier": "every interleaving of connects, logins and closes", "why_tests_cant": "check and completion of a login are separate steps; only interleavings expose it", "anchors": ["msc_server/server/cmpp_connect.go", "msc_server/server/smgp_login.go", "msc_server/server/sgip_bind.go", "msc_server/server/server.go: CountSessionByClientId"]}
{"id": "C47", "title": "Connection accounting", "statement": "The active-connection counter equals the number of open sessions after every event, never exceeds the configured maximum, and refusing a connection neither changes it nor crashes the server.", "quantifier": "every history of opens and closes", "why_tests_cant": "a counter invariant over all histories", "anchors": ["msc_server/server/on_open.go: OnOpen", "msc_server/server/on_close.go: OnClose", "msc_server/server/server.go: CreateSession"]}
{"id": "C48", "title": "Receive window bounds concurrency", "statement": "At most MtWindowSize handlers of one session run at the same time, whatever the schedule; every handler that finishes frees exactly one slot.", "quantifier": "every schedule of handler starts and ends", "why_tests_cant": "schedules", "anchors": ["msc_server/server/session.go: completeLogin", "msc_server/server/cmpp_submit.go: handleCmppSubmit"]}
{"id": "C49", "title": "Heartbeat supervision", "statement": "A session is terminated for missing heartbeats only after three heartbeats in a row went unanswered; a peer that answers every heartbeat before the next one is never terminated for that reason, and one that never answers is terminated at the latest on the tick after the third.", "quantifier": "every history of ticks, traffic and heartbeat responses", "why_tests_cant": "unbounded histories", "anchors": ["msc_server/server/on_tick.go: OnTick", "msc_server/server/cmpp_active.go"]}
{"id": "C50", "title": "MT options are sanitised and last one wins", "statement": "LoadMtOptions applies the options in order, the last value given for an attribute wins, out-of-range values are treated as not given, and attributes not mentioned keep the not-given marker; WithMtOptions(o) makes the message use o.", "quantifier": "every list of options with every argument", "why_tests_cant": "unbounded option lists", "anchors": ["codec/options_mt.go"]}
{"id": "C51", "title": "Per-message options override the account's defaults", "statement": "For every protocol, the submit carries the option value when the caller gave one and otherwise the account's default.", "quantifier": "every combination of options and account settings", "why_tests_cant": "all combinations of all values", "anchors": ["codec/cmpp/submit.go: setOptions", "codec/smgp/submit.go: SetOptions", "codec/sgip/submit.go: SetOptions"]}
{"id": "C52", "title": "Account store lookup", "statement": "After a (re)load of the YAML store, a lookup by carrier and client id returns the configuration in the file named after them, whatever the letter case of file name and carrier; accounts not mentioned in the directory are not found.", "quantifier": "every directory content, every history of loads", "why_tests_cant": "all directories and reload histories", "anchors": ["auth/yaml_store.go: Load, FindByCid, unmarshal", "auth/client_store.go"]}
{"id": "C53", "title": "Event manager is a keyed registry", "statement": "Register stores a handler sequence under a key if the key is free and says whether it did; Get/Call see exactly the registered and not deleted keys; Call runs the registered functions once each, in order; FuzzyCall runs exactly the entries whose key has the prefix.", "quantifier": "every history of operations", "why_tests_cant": "unbounded histories", "anchors": ["event_manager/event_manage.go"]}
{"id": "C54", "title": "Concurrent registration has one winner", "statement": "When several goroutines register the same key concurrently, exactly one gets true and its functions are the ones kept.", "quantifier": "every interleaving", "why_tests_cant": "interleavings", "anchors": ["event_manager/event_manage.go: Register"]}
{"id": "C55", "title": "Submit responses are correlated with their request", "statement": "When the carrier answers a submit with the request's sequence number, the client records message id and result in the result it returned for that request, for all three protocols.", "quantifier": "every history of sends and responses", "why_tests_cant": "histories; depends on dynamic key types", "anchors": ["msc_client/api.go", "msc_client/session/on_traffic_cmpp.go", "msc_client/session/on_traffic_smgp.go", "msc_client/session/on_traffic_sgip.go"]}
{"id": "C56", "title": "Query returns the message's results", "statement": "Query(id) after SendN returns the results of all segments for all numbers, until they expire, and returns nil for an unknown id; it never panics.", "quantifier": "every send and history", "why_tests_cant": "histories", "anchors": ["msc_client/api.go: SendN, Query, saveQueryCache"]}
{"id": "C57", "title": "Expired results are handed over exactly once", "statement": "The cleaner removes exactly the query entries older than the limit and hands each of their results to the handler exactly once, whatever the number of entries and the batch size.", "quantifier": "every cache content and clock", "why_tests_cant": "batch boundaries for every size", "anchors": ["msc_client/session_factory.go: cleanQueryCacheMap"]}
{"id": "C58", "title": "Carrier selection", "statement": "A number is sent through the first carrier, in the order CMPP, SGIP, SMGP, whose number pattern matches; no session is used for a number that matches none.", "quantifier": "every number and every pattern set", "why_tests_cant": "all numbers and patterns", "anchors": ["msc_client/session_factory.go: SelectSession"]}
{"id": "C59", "title": "Session pool keeps exactly the healthy sessions, least used first", "statement": "Sorting the client's session pool drops exactly the unhealthy sessions and orders the rest by number of messages sent in the period, ascending; PeekSession only returns a healthy session.", "quantifier": "every pool and every counter value", "why_tests_cant": "all pools; sort is unspecified on ties", "anchors": ["msc_client/session_factory.go: lruSort, Less, PeekSession", "msc_client/session/session.go: LruPriority, HealthCheck"]}
{"id": "C60", "title": "Client sessions are logged in", "statement": "NewSession returns a session only if the carrier accepted the login.", "quantifier": "every byte sequence returned by the peer and every segmentation", "why_tests_cant": "peer behaviour", "anchors": ["msc_client/session/session.go: NewSession, login"]}
{"id": "C61", "title": "Closing a client session is idempotent", "statement": "Close may be called any number of times from any goroutines; the connection is closed once and nothing panics.", "quantifier": "every interleaving of Close calls", "why_tests_cant": "interleavings", "anchors": ["msc_client/session/session.go: Close"]}
{"id": "C62", "title": "Client receive framing", "statement": "The client processes the same packets however the server's byte stream is segmented, and closes the session on a length outside 12..5120.", "quantifier": "every stream and segmentation", "why_tests_cant": "segmentations", "anchors": ["msc_client/session/session.go: startReceiver"]}
{"id": "C63", "title": "Configured throughput", "statement": "The submit limiter of a session admits messages at least at the configured throughput and at no more than that rate rounded to whole microseconds; an unset throughput means 100 per second.", "quantifier": "every configured value", "why_tests_cant": "integer division effects for all values", "anchors": ["msc_server/server/session.go: setupLimiter"]}
{"id": "C64", "title": "Account fields are copied faithfully", "statement": "FindAuthConf returns an AuthConf in which every field has the value of the same-named field of the stored client; StructCopy copies exactly the fields with equal name and type.", "quantifier": "every struct shape and value", "why_tests_cant": "all struct shapes", "anchors": ["utils/utils.go: StructCopy", "msc_server/utils.go: FindAuthConf"]}
{"id": "C65", "title": "Command names", "statement": "For every 32-bit command id the name lookup returns a name without failing; exactly the implemented commands get a name that does not end in UNKNOWN.", "quantifier": "all 2^32 command ids, three protocols", "why_tests_cant": "2^32 inputs with a table index", "anchors": ["codec/cmpp/variables.go", "codec/smgp/variables.go", "codec/sgip/variables.go: CommandId.String"]}
{"id": "C66", "title": "Parts of a long message number themselves consistently", "statement": "When NewSubmit splits a text into n packets, the part number each packet declares in its own fields is the one in the concatenation header of its content: 1, 2, ..., n, with n declared as total.", "quantifier": "every text and account, CMPP and SMGP", "why_tests_cant": "all texts and lengths", "anchors": ["codec/cmpp/submit.go: NewSubmit", "codec/smgp/submit.go: NewSubmit"]}
{"id": "C67", "title": "Closed connections do not count against the client's limit", "statement": "A login with valid credentials on an open connection is accepted whenever fewer open connections than MaxConns are logged in as that client, whatever happened before; connections that were closed, at any moment of their login, play no role.", "quantifier": "every history of opens, packets, logins and closes", "why_tests_cant": "all interleavings of a login with the closing of its connection", "anchors": ["msc_server/server/server.go: CountSessionByClientId", "msc_server/server/cmpp_connect.go: handleCmppConnect", "msc_server/server/on_close.go: OnClose"]}
{"id": "C68", "title": "Inactive sessions are terminated", "statement": "At every tick a session is terminated for inactivity exactly if its peer's last activity (login, submit accepted, heartbeat, heartbeat answer, delivery response) is longer ago than ForceCloseConnTime; heartbeats sent by the server do not count as activity.", "quantifier": "every history of ticks and traffic, all times", "why_tests_cant": "unbounded histories", "anchors": ["msc_server/server/on_tick.go: closeCheck"]}
{"id": "C69", "title": "Delivery reports reach the result of the message", "statement": "When the carrier reports the final status of a message it accepted, the client records it in the result that Query returns for the message.", "quantifier": "every history of sends, responses and reports, all protocols", "why_tests_cant": "unbounded histories and all ids", "anchors": ["msc_client/session/on_traffic_cmpp.go: onTrafficCmpp", "msc_client/session/on_traffic_smgp.go: onTrafficSmgp", "msc_client/session/send_sms.go: MsgIdResultCacheMap"]}
{"id": "C70", "title": "Sending and receiving while a session closes", "statement": "A client session that is closed (by the application, by a failed write or by the pool) while other goroutines send or receive on it makes those calls end without crashing the process.", "quantifier": "every interleaving of any number of senders, receivers and closers", "why_tests_cant": "interleavings", "anchors": ["msc_client/session/session.go: Close, startReceiver, HealthCheck", "msc_client/session/on_traffic_cmpp.go: sendByCmpp"]}
{"id": "C71", "title": "The client's pool never exceeds its configured connections", "statement": "For every history of pool ticks, connection attempts and sessions that break, the client never holds more than max-conns sessions (two if not configured) in a carrier's pool, and after a tick whose connection attempts all succeed it holds exactly that many.", "quantifier": "every history of ticks, health changes and connection results", "why_tests_cant": "unbounded histories", "anchors": ["msc_client/session_factory.go: lruSort, newConnect, CreateSessionFactory"]}
{"id": "C72", "title": "Sending without a connection", "statement": "If the carrier of a number has no usable session, or the rate limit is exceeded, the message to this number is dropped and the call returns.", "quantifier": "every behaviour of the pool and its sessions over time", "why_tests_cant": "unbounded waiting", "anchors": ["msc_client/session_factory.go: PeekSession, SelectSession", "msc_client/api.go: SendN"]}
{"id": "C73", "title": "Nothing the carrier sends crashes the client", "statement": "Whatever bytes the carrier puts into a well-framed packet after login, the client handles it without panicking (its receiver goroutine has no recover, so a panic ends the whole process). The code violates this: a login response with a non-zero status and every submit response or delivery that is shorter than its fields panic; the exact set of crashing packets is proved.", "quantifier": "all three protocols, all commands, sequence numbers, packet bodies and states of the client", "why_tests_cant": "A test picks some packets; the set of bodies is unbounded and the crashing ones are exactly those a well-behaved peer never sends.", "anchors": ["msc_client/session/session.go: startReceiver, onTraffic", "msc_client/session/on_traffic_cmpp.go: onTrafficCmpp", "msc_client/session/on_traffic_smgp.go: onTrafficSmgp", "msc_client/session/on_traffic_sgip.go: onTrafficSgip"]}
{"id": "C74", "title": "The client answers each request of the carrier with the matching response, and nothing else", "statement": "For every packet the carrier sends after login: heartbeat, terminate and delivery requests are answered by exactly one packet carrying the response command and the request's sequence number (and for CMPP deliveries the request's message id), other packets by nothing; the session is closed exactly on terminate, terminate response, failed write or undecodable text; the client's results change only as a submit response or report says. SGIP deliveries and reports are never answered: the code has no case for them.", "quantifier": "all three protocols, all packets, all client states, writes that succeed and that fail", "why_tests_cant": "Answers must match for every body and sequence number; a test checks one.", "anchors": ["msc_client/session/on_traffic_cmpp.go: onTrafficCmpp", "msc_client/session/on_traffic_smgp.go: onTrafficSmgp", "msc_client/session/on_traffic_sgip.go: onTrafficSgip", "codec/cmpp/delivery.go: Delivery.ToResponse", "codec/smgp/deliver.go: Delivery.ToResponse"]}
{"id": "C75", "title": "A submit answered by this library's server is recorded by this library's client", "statement": "If the client sends a message and the carrier, using this library's response to it, answers, then the frame passes the client's receiver and sets verdict, message id and response time of exactly that message's result. True for SGIP; for CMPP and SMGP no submit response ever changes anything.", "quantifier": "all histories of the client, all messages, verdicts and sequence numbers", "why_tests_cant": "It is a statement about two programs and an unbounded history between sending and answer.", "anchors": ["codec/sgip/submit.go: Submit.ToResponse, SubmitRsp.Encode", "msc_client/session/session.go: startReceiver", "msc_client/session/on_traffic_sgip.go: onTrafficSgip", "msc_client/session/on_traffic_cmpp.go: onTrafficCmpp, SendRequest"]}
{"id": "C76", "title": "Every request is answered, once, with the specified bytes", "statement": "On one server connection, whatever the packets and however handler tasks, write callbacks and the event loop interleave: everything the server writes is the specified answer to a packet or a report; no request is answered more often than it was sent; the server comes to rest; and once it is at rest every submit, login, heartbeat and termination has its answer. The last part is false when the sender's account is gone, the account's window size is 0, or a second login arrives.", "quantifier": "all three protocols, all packet histories and all interleavings, no bound on tasks or steps", "why_tests_cant": "Interleavings of handler goroutines, write callbacks and packets are unbounded; a test sees one schedule.", "anchors": ["msc_server/server/on_traffic.go: OnTraffic, ExecuteChain, submitFlowControl, sendSubmitResponse", "msc_server/server/cmpp_submit.go: handleCmppSubmit", "msc_server/server/smgp_submit.go: handleSmgpSubmit", "msc_server/server/sgip_submit.go: handleSgipSubmit", "msc_server/server/cmpp_active.go", "msc_server/server/cmpp_terminate.go", "msc_server/server/session.go: completeLogin"]}
{"id": "C77", "title": "A report follows the response to its submit and carries its message id", "statement": "Every delivery the server writes for a submit comes after the accepting response to that submit on the same connection and carries the message id of that response; there is at most one per accepted submit; SGIP submits are never reported.", "quantifier": "all packet histories and interleavings of a connection", "why_tests_cant": "Order between two asynchronous writes under all schedules.", "anchors": ["msc_server/server/cmpp_submit.go: mockSendCmppReport", "msc_server/server/smgp_submit.go: mockSendSmgpReport", "codec/cmpp/submit.go: ToDeliveryReport", "codec/smgp/deliver.go: NewDeliveryReport"]}
{"id": "C78", "title": "The server enforces the account's rules on submits", "statement": "A submit whose source number does not begin with the account's number, or whose level is out of range, is refused. The code checks this and ignores the outcome: such submits are accepted in every history.", "quantifier": "all accounts, submits and histories", "why_tests_cant": "A universally quantified refutation.", "anchors": ["msc_server/server/cmpp_submit.go: cmppSubmitPacketCheck", "msc_server/server/smgp_submit.go: smgpSubmitPacketCheck", "msc_server/server/sgip_submit.go: sgipSubmitPacketCheck"]}
{"id": "C79", "title": "Logins, service and closing, on the wire", "statement": "Every frame other than a login response is preceded on the connection by the accepting response to a login whose account, version, credentials and session count were right; a refusing login response carries the code of its reason and is followed by the server closing the connection, an accepting one answers a login with nothing wrong; a confirmed termination is followed by closing.", "quantifier": "all packet histories and interleavings of a connection", "why_tests_cant": "Order of asynchronous writes and arrivals under all schedules.", "anchors": ["msc_server/server/cmpp_connect.go: handleCmppConnect", "msc_server/server/smgp_login.go: handleSmgpLogin", "msc_server/server/sgip_bind.go: handleSgipBind", "msc_server/server/cmpp_terminate.go", "msc_server/server/on_traffic.go: sessionCheck"]}
{"id": "C80", "title": "The counters of a connection count what was written", "statement": "The message counter of a server session is the number of accepting submit responses written on the connection, the report counter the number of reports written (modulo 2^64), at every moment.", "quantifier": "all packet histories and interleavings of a connection", "why_tests_cant": "An invariant over all schedules.", "anchors": ["msc_server/server/session.go: CounterAddMt, CounterAddRpt", "msc_server/server/on_traffic.go: sendSubmitResponse"]}
{"id": "C81", "title": "A text sent by a handset reaches the wire whole, up to the size of one packet", "statement": "The delivery made for a text carries the text in the coding it announces, in a content field whose length byte is right, with the handset's number as source, the account's number followed by the sub-number as destination and the service id asked for (or the account's). Texts longer than one packet are cut to 160 ASCII or 70 other characters. In CMPP this fails for the longest texts (sent as the first part of a concatenated message without the other parts) and for texts with characters outside the basic plane (cut).", "quantifier": "all texts (lists of characters), numbers, accounts, protocol versions", "why_tests_cant": "Texts are unbounded and the errors are at the boundaries of two codings.", "anchors": ["codec/cmpp/delivery.go: NewDelivery, setMsgContent, Delivery.Encode", "codec/smgp/deliver.go: NewDeliver", "codec/sgip/deliver.go: NewDeliver", "msc_server/server/on_tick.go: mockDelivery"]}
{"id": "C82", "title": "Random choices of the simulator are in range, and rates are what they say", "statement": "A processing time drawn between a minimum and a maximum lies in that range; a check with a success rate passes exactly the stated fraction of equally likely draws. The code panics when the range is empty, and a rate of zero still lets one draw in ten thousand pass.", "quantifier": "all bounds, rates and random draws", "why_tests_cant": "A test sees some draws; the boundary draw has probability 1/10000.", "anchors": ["utils/utils.go: RandNum, DiceCheck", "msc_server/server/on_traffic.go: mockRandPrecessTime"]}
{"id": "C83", "title": "A termination signal shuts the process down gracefully", "statement": "After a termination signal each registered shutdown hook runs exactly once, all before the process exits with status 0. Hooks never run twice. The code violates the rest: a signal before the process waits for it is lost or kills it, a panicking hook keeps the later ones from running, a second signal while leaving makes it panic.", "quantifier": "every set of hooks, every interleaving of signals, the signal goroutine and the main goroutine", "why_tests_cant": "Interleavings of signals with two goroutines.", "anchors": ["msc_server/destory.go: init", "msc_client/destory.go: init", "msc_server/cmd/gosmc.go: main", "event_manager/event_manage.go: GracefullyShutdown"]}
{"id": "C84", "title": "The client command sends to every number given", "statement": "The command sends the message to each given number, as often as asked. Under every schedule the number of messages is right and they go to given numbers only, but there is a schedule in which all of them go to the last number (the loop variable is shared by the tasks).", "quantifier": "all lists of numbers, repetitions and schedules of the pool's goroutines", "why_tests_cant": "A race: whether a test sees it depends on the scheduler.", "anchors": ["msc_client/cmd/client.go: main"]}
{"id": "C85", "title": "The pid file holds the process id", "statement": "After the server has started the file .gosms.pid holds its process id and nothing else. The code violates this exactly when the file held a longer text before: its end is kept.", "quantifier": "all previous contents of the file and process ids", "why_tests_cant": "Depends on what an earlier process left.", "anchors": ["msc_server/cmd/gosmc.go: savePid"]}
{"id": "C86", "title": "The id generators follow the configuration", "statement": "Each generator uses the data center, worker and node configured for it, so that differently configured processes give out different ids. True for 64 bit ids, the SGIP node and the BCD code. The settings for 32 bit ids are ignored (those for 64 bits are used), so workers that differ by a multiple of 16 give out the same 32 bit numbers, and different data centers and workers the same SGIP numbers.", "quantifier": "all configurations, clock readings and numbers of ids", "why_tests_cant": "Needs all pairs of configurations and all histories of two processes.", "anchors": ["msc_server/bootstrap.go: SeqInit", "msc_client/bootstrap.go: SeqInit"]}
{"id": "C87", "title": "Loggers follow the configuration", "statement": "A logger has the file, format, precision, rotation and level configured under its name, or the documented defaults. The level of a named logger is never the configured one, nor is that of the client's error log.", "quantifier": "all configurations and logger names", "why_tests_cant": "The refutation holds for every name, level and other setting.", "anchors": ["msc_server/custom_log.go: New", "msc_server/bootstrap.go: logInit", "msc_client/bootstrap.go: logInit"]}
{"id": "C88", "title": "The account store starts or says why not", "statement": "With a directory, or a database with address and credentials that answers, the store starts; placeholders in the address are replaced by the credentials. Other configurations end the process with a message. The code panics on a nil store for unknown kinds and for a database without address.", "quantifier": "all configurations, environments and addresses", "why_tests_cant": "All configurations.", "anchors": ["auth/client_store.go: New", "database/mongodb/mongo.go: InitDB, setConnect"]}
{"id": "C89", "title": "With the shipped patterns every number has at most one carrier", "statement": "No number matches the shipped patterns of two carriers, only numbers of eleven digits beginning with 1 match any, and so with the shipped configuration the carrier chosen is the one whose pattern matches, whatever was sent before.", "quantifier": "all numbers (all byte strings), all histories", "why_tests_cant": "10^11 numbers and every other string.", "anchors": ["msc_client/config/config.yaml", "msc_client/session_factory.go: SelectSession"]}
{"id": "C90", "title": "What the server sends on its own account", "statement": "Besides answers and reports the server writes only heartbeats, simulated texts from handsets and terminations. Heartbeats go to logged-in sessions unused for more than a minute (never in SGIP), simulated texts are one of the configured texts for the session's account, terminations follow inactivity or three unanswered heartbeats and close the connection; each at most once per tick. Answers, logins and counters are as if there were none of these.", "quantifier": "all histories of packets, ticks, tasks and the event loop, in every interleaving; all configured texts", "why_tests_cant": "All interleavings.", "anchors": ["msc_server/server/on_tick.go: OnTick, activeTest, mockDelivery, sendTerminate", "msc_server/server/session.go: CounterAddDly, LastUseTime"]}
{"id": "C91", "title": "The server closes a connection only for a reason the client can know", "statement": "Whenever the server asks for a connection to be closed it has, on that connection, written a login response that refuses, written or confirmed a termination, or received the confirmation of a termination in a logged-in session. And when a logged-in session confirms a termination the server does close the connection.", "quantifier": "all histories of packets, ticks and task schedules of a connection, all protocols and accounts", "why_tests_cant": "The request to close comes from six call sites in callbacks and pool tasks; which of them ran depends on the schedule.", "anchors": ["msc_server/server/cmpp_terminate_resp.go:handleCmppTerminateResp", "msc_server/server/cmpp_terminate.go:handleCmppTerminate", "msc_server/server/cmpp_connect.go:handleCmppConnect", "msc_server/server/on_tick.go:sendTerminate", "msc_server/server/smgp_exit_resp.go", "msc_server/server/sgip_unbind_resp.go"]}
{"id": "C92", "title": "Closing connections never ends the server", "statement": "Whatever connections open, log in, fail and close, and whenever they do so relative to the periodic check, the server process goes on.", "quantifier": "all histories and interleavings of the periodic check, the event loops and the tasks, for any number of connections", "why_tests_cant": "The check reads fields the event loops unset; the harmful order is a window of nanoseconds.", "anchors": ["msc_server/server/on_tick.go: OnTick, sendTerminate", "msc_server/server/on_close.go: deferFunc", "msc_server/server/session.go: LogSession, LogCounter, completeLogin"]}
{"id": "C93", "title": "Accepted submits are reported unless the configured rate denies it", "statement": "In CMPP and SMGP, once the server has nothing left to do on a connection, every submit it accepted has its status report on the connection unless the draw against the configured rate denied one; and no report is sent where the draw denied it.", "quantifier": "all packet histories and interleavings of a connection, with and without ticks", "why_tests_cant": "All schedules; the draw is random.", "anchors": ["msc_server/server/cmpp_submit.go: mockSendCmppReport", "msc_server/server/smgp_submit.go: mockSendSmgpReport"]}
{"id": "C94", "title": "This library's client logs in to this library's server exactly when it should", "statement": "A client of this library that logs in to a server of this library gets a logged-in session exactly if the server has an account of that id, of the same major version, whose secret the client proves to know, and the account has room for another session; otherwise it gets no session and the server closes the connection. The server's session is logged in exactly if the client's is, and a server at rest has answered.", "quantifier": "all accounts on either side, all times, all packet histories and interleavings of the connection with one login", "why_tests_cant": "All accounts, times and schedules; unit tests log in once with one account.", "anchors": ["msc_client/session/session.go: login, NewSession", "msc_server/server/cmpp_connect.go: handleCmppConnect", "msc_server/server/smgp_login.go: handleSmgpLogin", "msc_server/server/sgip_bind.go: handleSgipBind", "codec/cmpp/connect.go: NewConnect", "codec/smgp/login.go: NewLogin", "codec/sgip/bind.go: NewBind"]}
{"id": "C95", "title": "A recorded login cannot be used again", "statement": "Someone who has recorded the login of a client cannot log in with it: the same login is not accepted a second time, and what was recorded is not accepted for another account, secret or time.", "quantifier": "all logins, accounts, servers and later histories", "why_tests_cant": "A statement about all later connections and all digests.", "anchors": ["codec/cmpp/connect.go: Check", "codec/smgp/login.go: Check", "codec/sgip/bind.go: Check"]}
{"id": "C96", "title": "The client knows whom it logged in to", "statement": "A client's session is logged in only if the response answers the client's own request (its sequence number) and, in CMPP and SMGP, the server proves with its digest to know the shared secret.", "quantifier": "all login responses", "why_tests_cant": "All responses, including those of a server that knows nothing.", "anchors": ["msc_client/session/session.go: login", "codec/cmpp/connect.go: ToResponse", "codec/smgp/login.go: ToResponse"]}
{"id": "C97", "title": "Logging never fails", "statement": "Whatever packet is received and whatever is sent in answer or on the server's own account, writing it to the log does not panic: a packet that can be decoded can be logged, by server and client, with every kind of answer, also over the rate and when the server is out of workers.", "quantifier": "all packets of all kinds and versions, all accounts, verdicts and answers", "why_tests_cant": "All packets; most log calls are only made at debug level or in callbacks of the event loop, where a panic ends the server.", "anchors": ["codec/cmpp/delivery.go: Log", "codec/cmpp/submit.go: Log", "codec/smgp/deliver.go: Log", "codec/smgp/submit.go: Log", "codec/sgip/report.go: Log", "msc_server/server/log_utils.go", "msc_server/server/on_traffic.go", "msc_client/session/on_traffic_cmpp.go", "msc_client/session/on_traffic_smgp.go", "msc_client/session/on_traffic_sgip.go"]}
{"id": "C98", "title": "The log tells no passwords", "statement": "Whoever reads the server's log learns nothing that lets them log in: two logins alike but for the password (SGIP), and two accounts alike but for the secret (CMPP, SMGP), leave the same log if the verdict is the same.", "quantifier": "all logins, accounts and log levels", "why_tests_cant": "A statement about two executions for all pairs of passwords.", "anchors": ["codec/sgip/bind.go: Log", "codec/cmpp/connect.go: Check, Log", "codec/smgp/login.go: Check, Log", "msc_server/server/on_traffic.go", "msc_server/server/cmpp_connect.go", "msc_server/server/sgip_bind.go", "msc_server/server/log_utils.go: Packet2HexLogStr"]}
{"id": "C99", "title": "The log does not hold the text of messages", "statement": "Of the text of a message the log shows at most the first six bytes; at the shipped level nothing of a submit is logged but a warning when it is over the rate.", "quantifier": "all submits and deliveries of the three protocols, all log levels", "why_tests_cant": "A statement about two executions for all pairs of texts.", "anchors": ["codec/cmpp/submit.go: Log", "codec/cmpp/delivery.go: Log", "codec/smgp/submit.go: Log", "codec/smgp/deliver.go: Log", "codec/sgip/submit.go: Log", "codec/sgip/deliver.go: Log", "msc_server/server/on_traffic.go", "msc_server/server/cmpp_submit.go"]}
{"id": "C100", "title": "Simultaneous logins do not hurt each other", "statement": "Every client that connects and logs in gets an answer, however many others log in at the same moment.", "quantifier": "all numbers of clients and CPUs, all orders of logins and ends of tasks", "why_tests_cant": "All interleavings of arrivals and workers; a crowd needs more clients than a test opens.", "anchors": ["msc_server/server/server.go: New", "msc_server/server/cmpp_connect.go", "msc_server/server/sgip_bind.go", "msc_server/server/smgp_login.go"]}
{"id": "C101", "title": "One client's load does not stop the others", "statement": "Connections are independent: a client that sends faster than its window is served, or a session the server ends, does not keep the server from reading and answering other clients' packets; what one client can occupy is bounded.", "quantifier": "all numbers of sessions and windows, all packets and all schedules of tasks", "why_tests_cant": "All schedules of the event loop and the tasks of all sessions.", "anchors": ["msc_server/server/session.go: createSessionPool", "msc_server/server/on_traffic.go", "msc_server/server/on_tick.go: sendTerminate"]}
{"id": "C102", "title": "Every session is looked after at every tick", "statement": "At every tick each session gets what is due: its heartbeat, or its termination.", "quantifier": "all numbers of sessions and CPUs, all schedules of tasks", "why_tests_cant": "All numbers of sessions and all schedules; refusals are not reported anywhere.", "anchors": ["msc_server/server/on_tick.go: activeTest, sendTerminate", "msc_server/server/server.go: New"]}
{"id": "C103", "title": "Nothing that was sent stays in the client's memory for ever", "statement": "Once a message is older than the configured limit, the next run of the cleaner removes it from everything the client keeps for matching responses, reports and queries, and it removes nothing younger.", "quantifier": "all histories of sends, responses, reports and cleanings, all limits", "why_tests_cant": "All histories; a leak shows only after long running.", "anchors": ["msc_client/session_factory.go: StartCacheExpireTicker, cleanQueryCacheMap, cleanRequestIdCacheMap, cleanMsgIdCacheMap", "msc_client/session/on_traffic_sgip.go"]}
{"id": "C104", "title": "The client tests idle connections with heartbeats", "statement": "A session without traffic for a minute is sent the protocol's heartbeat at the next check, once; a session whose heartbeat cannot be written or is not answered is no longer used.", "quantifier": "all protocols, all histories of traffic and checks, all outcomes of writes", "why_tests_cant": "All histories and times; a dead peer needs a network that fails silently.", "anchors": ["msc_client/session/session.go: HealthCheck, ActiveTest, AddCounterN", "msc_client/session_factory.go: lruSort, PeekSession"]}
{"id": "C105", "title": "Every sent message gets into the journal, once", "statement": "With the journal running, the result of each message sent is stored in the database exactly once, after it expired, with its number, sequence number and time.", "quantifier": "all histories of sends, responses and cleanings, all orders of database tasks, failures and shutdowns", "why_tests_cant": "All histories and schedules; failures of the database at any point.", "anchors": ["msc_client/api.go: PersistenceSmsJournal", "msc_client/session_factory.go: cleanQueryCacheMap", "msc_client/bootstrap.go: poolInit", "database/mongodb/mongo.go: Collection"]}
{"id": "C106", "title": "A text sent with the client to the server is answered, and the answer is what Query shows", "statement": "Each packet of a text sent over SGIP to this library's server gets exactly one response; when the client has read it, the packet's result has the server's verdict, the message id and the time, no other result is touched, and it stays so.", "quantifier": "all texts, options, accounts and sequence numbers, all schedules of the server, all client histories before, between and after", "why_tests_cant": "Client, network and server together, over all schedules.", "anchors": ["msc_client/session/on_traffic_sgip.go: sendBySgip, onTrafficSgip", "msc_server/server/sgip_submit.go: handleSgipSubmit", "codec/sgip/submit.go: NewSubmit, ToResponse"]}
{"id": "C107", "title": "Sending from many goroutines at once, carriers apart from each other", "statement": "Whatever number of goroutines send at the same time, each gets the carrier of its number, each carrier is connected once, and a carrier that does not answer, or whose configuration is wrong, does not keep messages from the other carriers.", "quantifier": "all configurations, all numbers of goroutines, all schedules of their steps and of the answers of carriers", "why_tests_cant": "All interleavings of goroutines around one lock, and carriers that stay silent for ever.", "anchors": ["msc_client/session_factory.go: SelectSession, CreateSessionFactory", "msc_client/session/session.go: login"]}
{"id": "C108", "title": "A usable connection is used", "statement": "As long as a carrier's pool has a usable connection, a message for this carrier is sent, whatever other connections broke.", "quantifier": "all numbers of connections wanted, all schedules of ticks, connection attempts, breaking connections and sending goroutines", "why_tests_cant": "All interleavings; the failure needs a connection that breaks while others cannot be made.", "anchors": ["msc_client/session_factory.go: lruSort, newConnect, PeekSession"]}
{"id": "C109", "title": "The client's window bounds what is under way", "statement": "With a window of W configured for a carrier, at most W messages are under way (sent and not yet answered) at any time.", "quantifier": "all configurations of connections, windows and throughputs, all numbers of messages and times of sending", "why_tests_cant": "All histories of sending without answers.", "anchors": ["msc_client/session_factory.go: CreateSessionFactory, PeekSession", "msc_client/config/config.yaml: mt-window-size"]}
{"id": "C110", "title": "The accounts of a running process follow the store", "statement": "While the store is reloaded, every lookup gives nothing or one whole account as its file described it at one moment; an account once found stays found; an undisturbed reload makes every account be what its file says; no state of the store ends the process.", "quantifier": "all histories of changes by the operator, reloads and lookups in any interleaving, all file contents; all answers of the database", "why_tests_cant": "All interleavings of an operator's changes with the steps of a reload.", "anchors": ["auth/client_store.go: startTicker", "auth/yaml_store.go: Load, FindByCid, unmarshal", "auth/mongo_store.go: Load, FindByCid"]}
{"id": "C111", "title": "Every connection the client opens is used or closed", "statement": "Each connection the client opened to a carrier is, at any time, closed or in the pool of usable sessions; the ticker closes what it drops.", "quantifier": "all histories of connection attempts, answers of carriers, losses and ticks, all protocols and versions", "why_tests_cant": "All histories; leaks of connections show only after long running against a carrier that refuses.", "anchors": ["msc_client/session_factory.go: newConnect, lruSort, CreateSessionFactory", "msc_client/session/session.go: NewSession, Close"]}
{"id": "C112", "title": "Configuration and logs are found below the directory of the process", "statement": "Started as a program the process uses the working directory; started by the test tool anywhere below the project's directory it uses the project's directory.", "quantifier": "all working directories and command lines", "why_tests_cant": "All paths, also those with the project's name in other directories' names.", "anchors": ["msc_server/bootstrap.go: setBasePath", "msc_client/bootstrap.go: setBasePath"]}
{"id": "C113", "title": "Each protocol is served at its configured port", "statement": "Each server listens at its configured port, once; a port that cannot be bound, or a server that fails, does not end the service of the others.", "quantifier": "all configurations, all ports in use, all schedules of the starting goroutines", "why_tests_cant": "All schedules and environments.", "anchors": ["msc_server/cmd/gosmc.go: main, pprofDebug", "msc_server/server/server.go: Start, New"]}
{"id": "C114", "title": "The connection limit with several event loops", "statement": "When the server handles connections on several event loops (Multicore), the number of connected clients never exceeds MaxSessions, and a client is only refused when MaxSessions clients are connected.", "quantifier": "every number of event loops, every limit, every interleaving of arriving and closing connections down to single reads and writes of the shared count", "why_tests_cant": "The count is changed without a common lock; the loss of an update depends on the interleaving of two loops.", "anchors": ["msc_server/server/on_open.go: OnOpen", "msc_server/server/server.go: CreateSession, ActiveSessions", "msc_server/server/on_close.go: deferFunc"]}
{"id": "C115", "title": "Packets, statuses and ids print as what they are", "statement": "String of every packet decoded or made by the library returns; the printed header tells the packet's length, command and sequence number; a status prints with its number, and each status the server answers with an explanation; a generator prints the id it handed out last; of a message's text six bytes at most are printed.", "quantifier": "all packets, all received bodies, all statuses, all generators and clock readings", "why_tests_cant": "All packets and bodies; the failure needs a last part of a certain length.", "anchors": ["codec/smgp/submit.go: String", "codec/smgp/deliver.go: String", "codec/smgp/header.go: String", "codec/sgip/header.go: String", "codec/smgp/login.go: String", "codec/smgp/variables.go: Status.String", "utils/snowflake/snowflake.go: String"]}
{"id": "C116", "title": "A client that ends closes its connections first", "statement": "When the client process ends after a signal, every connection it opened to a carrier has been closed; once shutdown has told a carrier's pool so, the pool opens no further connection.", "quantifier": "every order of the shutdown functions, every interleaving of them with ticks, reconnections, logins and losses of connections, every configured number of connections", "why_tests_cant": "All interleavings of shutdown with the pool's own goroutine.", "anchors": ["msc_client/session_factory.go: startLruSortTicker, lruSort, newConnect, RegCloseSessionsHooker", "event_manager/event_manage.go: RegisterShutdownHookerAddChan, GracefullyShutdown", "msc_client/session/session.go: Close", "msc_client/destory.go: init"]}
{"id": "C117", "title": "Ids can be drawn from many goroutines at once", "statement": "Each id generator may be used by any number of goroutines at the same time without further care: the ids handed out are those of the same number of calls made one after the other, every call gets exactly one of them, no two calls get the same (within the limits C04-C11 give for one caller), a call that begins after another has returned gets a later id, and every call returns. The current value can be asked for at any time and is the last number handed out.", "quantifier": "every number of goroutines, every interleaving of their single memory accesses and clock readings, every number of calls", "why_tests_cant": "Interleavings of single memory accesses cannot be enumerated or provoked; the failures need the last second of the day or a reading between two writes.", "anchors": ["utils/bcd_sequence.go: NextVal", "utils/cycle_sequence.go: NextVal", "utils/snowflake/snowflake.go: NextVal", "utils/snowflake32/snowflake32.go: NextVal", "codec/sgip/sequence.go: NextVal, CurVal"]}
{"id": "C118", "title": "Packets do not change while they are handled", "statement": "A packet the server is working on stays the packet that arrived, whatever arrives afterwards on its connection or another, and a frame handed over for writing leaves as it was encoded. A packet decoded or built by a caller of the library stays the same when the caller uses the buffer it was decoded from, or the slice of numbers it was built from, for something else.", "quantifier": "every sequence of arrivals on any connections, every moment a handler looks at its packet, every reuse of the event loop's memory, every delay of writing; every body, every index and every value written there", "why_tests_cant": "Reuse of memory between goroutines shows only under load and unlucky timing.", "anchors": ["msc_server/server/on_traffic.go: DecodeAndCheckHeader, sendSubmitResponse", "codec/cmpp/submit.go: Decode, NewSubmit", "codec/sgip/submit.go: Decode, NewSubmit", "codec/smgp/submit.go: Decode, NewSubmit", "codec/cmpp/connect.go: Decode", "codec/smgp/login.go: Decode"]}
{"id": "C119", "title": "Packet objects can be used again", "statement": "A packet object forgets its past: after any history of encoding it and decoding into it, decoding a body into it gives what decoding that body into a new object of the same version gives, the same panic or error included; and encoding a packet changes nothing that a later encoding or decoding of it shows, so that a packet can be sent again.", "quantifier": "every packet with a body of the three protocols, every version, every history of Encode and Decode calls on the object, every body (of any length and capacity) and sequence number", "why_tests_cant": "Tests decode each body into a new object; what an object kept of an earlier body shows only for particular pairs of bodies.", "anchors": ["codec/cmpp/*.go: Encode, Decode", "codec/smgp/*.go: Encode, Decode", "codec/sgip/*.go: Encode, Decode", "codec/smgp/submit.go: Decode (destTermID)", "codec/cmpp/delivery.go: Decode", "codec/smgp/deliver.go: Decode", "codec/cmpp/connect.go: ConnectResp.Decode"]}
{"id": "C120", "title": "A message can be followed through the logs", "statement": "The log record of an answer shows the sequence number its request's record shows; the record of a report shows the id that the record of the submit's response shows; the record the server writes of an answer shows the status, id and sequence number that the peer reads from the frame; the records of logins and submits name the connection and the account it is logged in with; both ends log a report with the same text; a logger shows exactly the records at or above its level.", "quantifier": "all packets, all bodies that decode, all ids, results and versions, all generators and clock readings, all levels", "why_tests_cant": "All ids: the records of a report and of its response agree for large ids and disagree for all ids drawn before a date; a test looks at one id and does not compare texts of different records.", "anchors": ["codec/cmpp/*.go: Log", "codec/smgp/*.go: Log", "codec/sgip/*.go: Log", "codec/cmpp/report.go: Report.String", "codec/smgp/report.go: Report.String", "codec/sgip/header.go: MessageHeader.Log", "utils/utils.go: Uint64HexString", "msc_server/server/on_traffic.go: sendSubmitResponse"]}
{"id": "C121", "title": "Ids stay unique when a process is started again", "statement": "A process that ends, in whatever way and after any number of ids, and is started again with the same configuration hands out no id it handed out in an earlier life.", "quantifier": "every configuration, every number of lives, every number of ids per life (every crash point), all clock readings, before and after", "why_tests_cant": "The counters live in memory only; what is repeated depends on when the process ended and when it was started again.", "anchors": ["msc_server/bootstrap.go: init, SeqInit", "msc_client/bootstrap.go: init, SeqInit", "utils/snowflake/snowflake.go: NextVal", "utils/bcd_sequence.go: NextVal", "utils/cycle_sequence.go: NextVal", "codec/sgip/sequence.go: NextVal"]}
{"id": "C122", "title": "An event runs the functions it was registered with, with the arguments of the call", "statement": "Each call of a key runs the functions given when the key was registered, each once and in order, whatever the program does with its own variables afterwards, and gives them the arguments of the call. Who asks to be told of the shutdown is told, after the functions given with the request have run. Shutting down returns.", "quantifier": "all keys, functions and arguments, given one by one or as a slice, and all histories of registrations, deletions, calls, shutdowns and changes to the caller's slices", "why_tests_cant": "Whether a function is replaced depends on the room behind a slice and on what the caller writes later; the history is unbounded.", "anchors": ["event_manager/event_manage.go: Register, Call, RegisterShutdownHookerAddChan, GracefullyShutdown, FuzzyCall"]}
{"id": "C123", "title": "A configuration replaced while the process runs takes effect and breaks nothing", "statement": "Replacing a valid configuration by a valid one makes no request fail: the simulated processing time lies within the range configured. A carrier has as many connections as configured after the next run of its ticker, whether the number was raised or lowered.", "quantifier": "all old and new configurations, all moments of the change, all random numbers, all histories of changes, ticks, new and broken connections", "why_tests_cant": "A change can fall between any two reads; there are unboundedly many histories of changes and ticks.", "anchors": ["msc_server/server/on_traffic.go: mockRandPrecessTime", "msc_client/session_factory.go: lruSort, newConnect", "msc_server/bootstrap.go: init", "msc_client/bootstrap.go: init"]}
{"id": "C124", "title": "A server that is told to end finishes what it has begun", "statement": "After a termination signal the server takes no new requests, answers those it has taken, tells its clients that it closes the connection, and then ends. Whenever it ends, what it has written on a connection is right: exact answers to requests received there, none twice.", "quantifier": "all histories of all connections of the three servers, any number of requests under way, all interleavings with the signal and the end of the process", "why_tests_cant": "Which requests are cut off depends on where the signal falls among the steps of all connections.", "anchors": ["msc_server/destory.go: init", "msc_server/cmd/gosmc.go: main", "msc_server/server/on_shutdown.go: OnShutdown", "event_manager/event_manage.go: GracefullyShutdown", "msc_server/server/on_traffic.go: OnTraffic"]}
{"id": "C125", "title": "The handlers of a connection that is closed end", "statement": "When a connection is closed, the handlers of its requests end: those waiting for a place in the window, those at work and those giving back their place. Nothing of a closed connection is left in the server.", "quantifier": "all histories of a connection with any number of logins and requests, every moment of the closing, all schedules of its handlers", "why_tests_cant": "A handler left blocked shows nowhere but in the number of goroutines, and only if the connection is closed while it is at work.", "anchors": ["msc_server/server/session.go: completeLogin, closeResource", "msc_server/server/on_close.go: OnClose", "msc_server/server/cmpp_submit.go: handleCmppSubmit", "msc_server/server/sgip_submit.go", "msc_server/server/smgp_submit.go"]}
{"id": "C126", "title": "Answers are recorded however the client's goroutines take turns", "statement": "The carrier's answer to a packet is recorded in the result of that packet, however soon it comes and whatever the goroutines of the client that send, receive and clean do in the meantime. A request is not thrown away before it is old. What Query shows of an answer is the whole answer.", "quantifier": "all histories of any number of sending goroutines, receivers and cleanings, with every access to the caches and every assignment to a result a step of its own, in any order", "why_tests_cant": "The time between writing a packet and storing its result is microseconds; a test with a real carrier does not hit it, and there are unboundedly many interleavings.", "anchors": ["msc_client/session/on_traffic_cmpp.go: sendByCmpp, onTrafficCmpp", "msc_client/session/on_traffic_sgip.go: sendBySgip, onTrafficSgip", "msc_client/session/on_traffic_smgp.go: sendBySmgp, onTrafficSmgp", "msc_client/session_factory.go: cleanRequestIdCacheMap, cleanMsgIdCacheMap"]}
{"id": "C127", "title": "A message id belongs to one message of one client", "statement": "Over all connections of a server, no message id is given in two accepting responses, neither to one client nor to two. A status report is sent only on the connection on which its message was accepted, after the response, with the id of that response, which no other client has been given.", "quantifier": "all numbers of connections of any protocol, all packets on them, all interleavings of event loops, handler tasks, ticks and goroutines drawing ids, all readings of the clocks that do not go back (BCD: a minute does not come back and has at most 10^6 ids)", "why_tests_cant": "The ids of all connections come from one generator; which connection draws which depends on the schedule, and a report is built long after its submit was handled.", "anchors": ["codec/cmpp/submit.go: ToResponse, ToDeliveryReport", "codec/smgp/submit.go: ToResponse", "codec/smgp/deliver.go: NewDeliveryReport", "codec/sequence.go: B64Seq, BcdSeq", "msc_server/server/cmpp_submit.go: handleCmppSubmit, mockSendCmppReport", "msc_server/server/smgp_submit.go: handleSmgpSubmit, mockSendSmgpReport"]}
{"id": "C128", "title": "One client's connection is none of another client's business", "statement": "What is written on a connection is determined by what happens on that connection: whatever other clients send, it is served as if it were alone.", "quantifier": "all numbers of connections of any protocol, all packets on them and all interleavings", "why_tests_cant": "It speaks about every history of every other client, including malformed packets.", "anchors": ["msc_server/server/on_traffic.go: OnTraffic, ExecuteChain", "msc_server/server/session.go: NewSession", "msc_server/server/cmpp_connect.go", "msc_server/server/sgip_bind.go", "msc_server/server/smgp_login.go"]}
{"id": "C129", "title": "What the configured success rate and delivery rate do to a connection", "statement": "Whatever the packets and the schedule, a submit response accepts exactly if the submit is within the client's throughput limit and its random number is not above the configured success rate. With the rate 1 no submit is refused except by that limit, and every accepted CMPP submit is reported; with the rate 0 no submit is accepted and nothing is reported, and with the delivery rate 0 no simulated text is sent; a rate of r makes the fraction r of the submits succeed. The code applies the success rate twice, to the response and again to the report, so the fraction that is accepted and reported is about r squared; and at the rate 0 a submit that rolls 0 is accepted.", "quantifier": "all histories of a connection, all rates and all changes of the rates on the way, all random numbers", "why_tests_cant": "A test at some rate sees a sample of the rolls; the roll that matters at rate 0 comes once in ten thousand, and 'nothing is refused' is a statement about every history.", "anchors": ["utils/utils.go: DiceCheck", "msc_server/server/cmpp_submit.go: handleCmppSubmit, mockSendCmppReport", "msc_server/server/smgp_submit.go: handleSmgpSubmit", "msc_server/server/sgip_submit.go: handleSgipSubmit", "msc_server/server/on_tick.go: mockDelivery", "msc_server/config/config.yaml: Server.Mock"]}
{"id": "C130", "title": "Looking an account up never waits for the database", "statement": "With accounts in a database, a login finds its account in what was loaded last, without waiting: the reload goes on beside it, and no lookup sees an account that is half read. In the code a reload holds the store's lock from its first record to its last, so every login that looks an account up in the meantime waits for the database, at most until the configured time limit of the reload and the return of the driver's call.", "quantifier": "all histories of reloads, records, failures and lookups by any number of goroutines, and all times they take", "why_tests_cant": "How long a database takes over the records is no input of a test, and the order of lookups and records is the scheduler's.", "anchors": ["auth/mongo_store.go: Load, FindByCid", "auth/client_store.go: startTicker", "msc_server/server/on_traffic.go"]}
{"id": "C131", "title": "Periodic work is done at its configured interval", "statement": "Reloading accounts, throwing old results away and tending connections are done once in every configured interval (the default if none is configured), whenever the work is free to run, and never more often; the server looks after its connections again after the configured delay, not before. In the code an interval below zero ends the process, and a server whose tick interval is not configured looks after its connections without any pause: a client that was silent for a minute is then cut off before it could answer a heartbeat.", "quantifier": "all configured intervals, all start times, all histories of passing time and of the work taking any time", "why_tests_cant": "The count of runs against elapsed time holds for every schedule or not at all; a test observes one schedule, and waits for intervals of minutes.", "anchors": ["auth/client_store.go: startTicker", "msc_client/session_factory.go: StartCacheExpireTicker, startLruSortTicker", "msc_server/server/on_tick.go: OnTick, activeTest, activeTestNoneResponseCheck"]}
{"id": "C132", "title": "A short text arrives as it was sent, in one packet", "statement": "A text that fits into one packet is sent as one packet, and the server reads the same text, coding, recipients and sequence number from it. In the code a text that fills a packet exactly is sent as two, and a text whose bytes begin like a concatenation header does not arrive: an empty text, or U+0500 alone or followed by a single Greek letter, ends the server process; a longer one beginning so arrives without its first three characters and in another coding.", "quantifier": "all texts in Unicode, all accounts, recipients, options and sequence numbers", "why_tests_cant": "Texts are unboundedly many, and which of them look like a header to the receiver depends on every combination of first characters in two codings.", "anchors": ["codec/cmpp/submit.go: NewSubmit, Encode, Decode", "codec/sgip/submit.go: NewSubmit, Encode, Decode", "codec/smgp/submit.go: NewSubmit, Encode, Decode", "utils/utils.go: MsgFmt, MsgSlices"]}
{"id": "C133", "title": "Client and server work together as they are shipped", "statement": "Started with the configuration files in the repository, the server serves each protocol at the address the client calls, and each of the client's configured connections is logged in, with the account both find under the client's id. In the code neither process starts: the shipped store is a database with placeholders for its credentials, although the accounts are there as files.", "quantifier": "all clocks, sequence numbers, hash functions, histories of a connection and of earlier loads of the accounts, and all schedules of the start", "why_tests_cant": "The two configurations are read by different processes; that each login with them succeeds is a statement about every moment and every history.", "anchors": ["msc_server/config/config.yaml", "msc_client/config/config.yaml", "msc_server/config/yml_store", "msc_client/config/yml_store", "auth/yaml_store.go: Load", "auth/client_store.go: New"]}
{"id": "C134", "title": "The times in packets are right", "statement": "The carrier reads from a submit the moment up to which it is valid (the time of the call and the account's duration) and, if the caller asked for it, the moment at which to send it; a status report tells the minute in which the message was submitted and the minute in which it was delivered; a text tells the second at which it was made. In the code all moments are written as if the process ran on UTC+8 time, so they are right exactly then; the validity of an SMGP submit is over at the moment of sending, whatever the account says; a report gives the time at which the report is made for the time of submission, and ten seconds (CMPP) or a minute (SMGP) after it for the time of delivery.", "quantifier": "all moments of this century and time zones, all accounts, texts, options, submits and sequence numbers", "why_tests_cant": "The calendar has leap years and every time zone shifts the date; a test runs at one moment in one zone, usually the author's.", "anchors": ["utils/utils.go: FormatTime", "codec/cmpp/submit.go: SetOptions", "codec/sgip/submit.go: SetOptions", "codec/smgp/submit.go: SetOptions", "codec/cmpp/report.go: NewReport", "codec/smgp/report.go: NewReport", "codec/smgp/deliver.go: NewDeliver, NewDeliveryReport"]}
{"id": "C135", "title": "Message ids that carry a date stay unique over years and clock changes", "statement": "No SMGP message id is given out twice by one server, however long it runs. In the code an id carries month, day, hour and minute of the local clock but no year: ids are unique for a year less a minute on a clock that is never put back, with at most a million in a minute; a draw four years after another one (in half of the years also one year after it), or at the same minute after the clock was put back at the end of summer time, gives the same id again.", "quantifier": "all moments of draws over any number of years, all time zones and changes of the zone, all numbers of draws", "why_tests_cant": "A test would have to run for years, or over the night in which the clocks are put back.", "anchors": ["utils/bcd_sequence.go: NextVal, NewBcdSequence", "codec/smgp/submit.go: ToResponse", "msc_server/bootstrap.go"]}
{"id": "C136", "title": "Everybody a message is sent to is accounted for", "statement": "A submit may name many recipients: the sender's record of it lists them all, and a status report comes for each. In the code the record does; but whatever the packets, only the first recipient of a CMPP or SMGP submit is ever reported on, by at most one report for each packet, and no recipient of an SGIP submit.", "quantifier": "all lists of recipients, texts, accounts and options, all random draws of the server", "why_tests_cant": "The number of recipients goes up to 255 and which of them are reported on depends on what the server reads from the packet; tests send to one number.", "anchors": ["codec/cmpp/submit.go: NewSubmit, Decode, ToDeliveryReport", "codec/smgp/submit.go: NewSubmit", "codec/smgp/deliver.go: NewDeliveryReport", "msc_server/server/cmpp_submit.go: mockSendCmppReport", "msc_server/server/smgp_submit.go: mockSendSmgpReport", "msc_server/server/sgip_submit.go: handleSgipSubmit"]}
{"id": "C137", "title": "Parts of long messages that arrive mixed are put together right", "statement": "A handset that gets the parts of several long messages of one sender, in any order, some of them repeated, shows a message when all its parts are there, and shows its text. In the code the reference that tells the messages apart is the last byte of the clock in nanoseconds: messages of the same number of parts split at times a multiple of 256 ns apart cannot be told apart by any receiver, among any 257 messages two have the same reference (among any 33 on a clock that counts microseconds), and the last part holds the beginning of the text instead of its end.", "quantifier": "all numbers of long messages, contents, moments of sending, orders of arrival, repeated and missing parts", "why_tests_cant": "The orders in which parts arrive are unboundedly many, and whether two references agree depends on the nanosecond.", "anchors": ["utils/utils.go: ToTPUDHISlices, MsgSlices", "codec/cmpp/submit.go: NewSubmit", "codec/smgp/submit.go: NewSubmit", "codec/sgip/submit.go: NewSubmit"]}
{"id": "C138", "title": "The gateway reads in every packet who sends and on which terms", "statement": "In each packet of a text the gateway reads the number to be shown, the service, the wish for a report, the priority, the validity, the send time and the billing that the caller asked for or else the account says, and the client id as the sending company. In the code CMPP packets carry the terms and the billing exactly if each fits into its field (what does not fit is cut), but the beginning of the display number in place of the client id; SGIP packets carry terms that fit, no billing, and of a client id of more than five characters only what comes after the fifth; SMGP packets carry 15 as report wish and priority when none is asked for, the moment of sending as validity, and the account's billing whatever is asked for.", "quantifier": "all accounts, option lists, texts of any number of parts, recipients, moments, and bytes following in the buffer", "why_tests_cant": "The options pass through defaulting, fixed-width encoding and decoding; a cut or a swapped field shows only for particular lengths and combinations.", "anchors": ["codec/options_mt.go", "codec/cmpp/submit.go: NewSubmit, SetOptions, Encode, Decode", "codec/sgip/submit.go: NewSubmit, SetOptions, Encode, Decode", "codec/smgp/submit.go: NewSubmit, SetOptions, Encode, Decode"]}
{"id": "C139", "title": "The server keeps up with what has arrived", "statement": "Whatever has arrived completely on a connection has been given to the handlers when the connection falls silent, and the server holds back at most an incomplete packet. In the code each arrival of data makes the server handle one packet: it keeps up exactly as long as of any number of last segments no more packets were completed than there were segments; otherwise the number handed over is the least, over all moments, of the packets that had arrived by then and one for each segment since, each later segment makes up for one packet, and the bytes held back have no bound.", "quantifier": "all sequences of packets, all segmentations, both readings of a length of 0 by the network library", "why_tests_cant": "How far the server is behind depends on the whole history of how packets coalesced in segments.", "anchors": ["msc_server/server/on_traffic.go: OnTraffic, DecodeAndCheckHeader"]}
{"id": "C140", "title": "A text can be sent to as many recipients as the packets can name", "statement": "A submit names its recipients, up to 255 of them, and the server takes every packet of it. In the code the server cuts off the sender of a packet of more than 5120 bytes: every packet is taken up to 149 recipients in CMPP 3 (229 in CMPP 2 and SGIP, 230 in SMGP) and none from 155 (238) on, in between it depends on the length of the part; with more than 255 recipients the CMPP constructor ends the process and SMGP packets encode to nothing.", "quantifier": "all lists of recipients, texts, accounts, options and moments, both readings of a length of 0 by the network library", "why_tests_cant": "Whether a packet is taken depends on the number of recipients, the version and the length of each part together; tests name one or two recipients.", "anchors": ["codec/cmpp/submit.go: NewSubmit, Encode", "codec/smgp/submit.go: NewSubmit, Encode", "codec/sgip/submit.go: NewSubmit, Encode", "msc_server/server/on_traffic.go: DecodeAndCheckHeader", "codec/packer.go: PacketMax"]}
{"id": "C141", "title": "Every packet sent is answered, however the network delivers its bytes", "statement": "A client that sends a stream of packets gets the specified answer to each of them, once, wherever the network cuts or joins the bytes. In the code: no request is answered more often than it was sent; a cut inside a packet makes no difference; every packet that has arrived is answered once the server is at rest, under the conditions of C76 and if no run of segments brought more packets than segments; but of two packets that arrive together the second is not answered, however long the server is given, until more data arrives.", "quantifier": "all three protocols, all streams of packets, all segmentations, all interleavings of arrivals, handler tasks and event loop, both readings of a length of 0 by the network library", "why_tests_cant": "Unit tests hand whole packets to handlers; how the bytes of real streams are cut and how handlers interleave with arrivals cannot be enumerated.", "anchors": ["msc_server/server/on_traffic.go: OnTraffic, DecodeAndCheckHeader, ExecuteChain", "msc_server/server/cmpp_submit.go: handleCmppSubmit", "msc_server/server/on_close.go: OnClose"]}
{"id": "C142", "title": "Everything a carrier sends is acted on, however the network delivers its bytes", "statement": "The client answers each packet of a carrier's stream that asks for an answer, and records each answer and each report in the result of the message it is about, wherever the network cuts the bytes. In the code: if no read cuts a header or a body, all packets are acted on in order, until one closes the session, and an SGIP answer in the stream is recorded; a read that tears a header or a body apart loses that packet and all later ones and closes the session; a packet with too short a body ends the process; and no bytes a CMPP or SMGP carrier can send ever change a result.", "quantifier": "all three protocols, all streams of packets, all ways of cutting them into reads, all moments, and all interleavings with other goroutines that send and clean up", "why_tests_cant": "Unit tests give whole packets to handlers; where reads cut a real stream and what other goroutines do between two packets cannot be enumerated.", "anchors": ["msc_client/session/session.go: startReceiver, onTraffic", "msc_client/session/on_traffic_cmpp.go", "msc_client/session/on_traffic_sgip.go", "msc_client/session/on_traffic_smgp.go"]}
{"id": "C143", "title": "A text gets through the network, and the server's verdict gets back to the caller", "statement": "A text is sent with this library's client to its server over a network that cuts the bytes as it likes in both directions. When the server is at rest and the client has read what was written, the result of each packet of the text has the verdict the server came to about it, the message id and a time, whatever else is sent on the connection and goes on meanwhile. In the code this holds for SGIP, if on the way there no run of segments brings more packets than segments and on the way back no read tears a header or a body; for CMPP and SMGP no verdict ever gets back.", "quantifier": "all texts, accounts, options, sequence numbers, streams the text is part of, segmentations in both directions, schedules of the server, and histories of the client before, during and after", "why_tests_cant": "It joins two programs and two networks: no test can run through the cuts, schedules and histories of both sides.", "anchors": ["msc_client/session/send_sms.go", "msc_client/session/session.go: startReceiver, onTraffic", "msc_client/session/on_traffic_sgip.go", "msc_server/server/on_traffic.go: OnTraffic, DecodeAndCheckHeader", "msc_server/server/sgip_submit.go: handleSgipSubmit", "codec/sgip/submit.go: NewSubmit, Encode, Decode, ToResponse"]}
{"id": "C144", "title": "A client that answers every heartbeat is not cut off for missing answers", "statement": "The server ends a session for missing answers only if three of its heartbeats were left unanswered. A client that answers each heartbeat before the next tick is not cut off for that, wherever the network cuts or joins its bytes and whatever else it sends; and its requests are answered as if there were no heartbeats, once each. In the code this holds if at each tick the server is at rest and has read all that has arrived; but since each arrival makes it read one packet only, a client that has once sent several packets together and then answers every heartbeat within a second is cut off.", "quantifier": "all protocols, streams of packets, segmentations, ticks and their times, schedules of handlers, tasks and event loop", "why_tests_cant": "It joins framing, handling, and the server's timers over minutes: no test can run through the cuts, ticks and schedules.", "anchors": ["msc_server/server/on_tick.go: OnTick, activeTestNoneResponseCheck, activeTest, closeCheck", "msc_server/server/on_traffic.go: OnTraffic, DecodeAndCheckHeader", "msc_server/server/cmpp_active_resp.go", "msc_server/server/smgp_active_resp.go"]}
{"id": "C145", "title": "A session that is merely idle is not ended", "statement": "As long as a client answers the server's heartbeats, the server ends its session neither for inactivity nor for missing answers, however long the client has nothing to send, if the time of inactivity allowed is at least a minute and the time between two ticks (shipped: five minutes and ten seconds). In the code this holds for CMPP and SMGP sessions that are logged in, if at each tick the server is at rest and has read all that has arrived and its pool takes the tick's tasks; not for SGIP: there are no heartbeats, and whatever an SGIP client sends, short of texts and logins that are accepted, its session is ended at the first tick after the time of inactivity.", "quantifier": "all streams of packets, segmentations, ticks and their times, configurations, schedules of handlers, tasks and event loop", "why_tests_cant": "It is about unbounded stretches of time, in which ticks, heartbeats, answers and reads interleave in any way.", "anchors": ["msc_server/server/on_tick.go: OnTick, closeCheck, activeTest, activeTestNoneResponseCheck", "msc_server/server/cmpp_active_resp.go", "msc_server/server/smgp_active_resp.go", "msc_server/config/config.yaml"]}
{"id": "C146", "title": "An idle connection between this library's client and server stays", "statement": "A session between this library's client and this library's server that is logged in and has nothing to send is not ended by the server, neither for inactivity nor for missing heartbeat answers, however long it lasts and however the network cuts the client's bytes: the client's receiver answers each heartbeat. In the code this holds for CMPP and SMGP if, at each tick, what was written has been read at both ends and the server has nothing left to do (conditions of C145 on times and pool); not for SGIP, where such a session is ended at the first tick after the time of inactivity allowed.", "quantifier": "all histories of the two programs and the network between them: what the client sends on its own account, arrivals in pieces of any length, ticks and their times, schedules of handlers, tasks and event loop", "why_tests_cant": "It is about two programs and a network over unbounded time; a test observes one schedule for some seconds.", "anchors": ["msc_client/session/session.go: startReceiver, onTraffic", "msc_client/session/on_traffic_cmpp.go", "msc_client/session/on_traffic_smgp.go", "msc_server/server/on_tick.go: OnTick, closeCheck, activeTest, activeTestNoneResponseCheck", "msc_server/server/on_traffic.go: OnTraffic, DecodeAndCheckHeader", "msc_server/server/cmpp_active_resp.go", "msc_server/server/smgp_active_resp.go"]}
{"id": "C147", "title": "A session that is ended is over at both ends", "statement": "Between this library's client and server: once the server has written a termination, or the confirmation of one, it has asked for the connection to be closed. Once the client has read it, the client's session is over: it reads nothing and sends nothing more, and the last thing it has written in answer to a termination is the confirmation, the same packet with the response's command. And the client gives up a session for no other reason than having read one of these, being unable to write an answer, a text it cannot decode, or the end of its process (refused login, packet too short).", "quantifier": "all three protocols, all histories of the two programs and the network between them, with whatever the client sends on its own account", "why_tests_cant": "Both programs must have acted, whatever came before, between and after; tests look at one program and one order of events.", "anchors": ["msc_client/session/session.go: startReceiver, onTraffic", "msc_client/session/on_traffic_cmpp.go", "msc_client/session/on_traffic_sgip.go", "msc_client/session/on_traffic_smgp.go", "msc_server/server/on_tick.go: closeCheck", "msc_server/server/cmpp_terminate.go", "msc_server/server/smgp_exit.go", "msc_server/server/sgip_unbind.go"]}
{"id": "C148", "title": "Between client and server answers belong to requests, and all are answered", "statement": "On a connection between this library's client and server, in both directions: nobody reads more answers to a command with a sequence number than requests with that command and number have been sent, so that no answer is invented or doubled; as long as its session is open the client has answered every heartbeat and every delivery it has read; and when all is quiet again (nothing under way, nothing unread, nothing left to do) every request the client sent has been answered and the client has read the answer, exactly one if the number was used once.", "quantifier": "all histories of the two programs and the network between them: what the client sends on its own account, arrivals in pieces of any length, schedules of handlers, tasks, ticks and event loop", "why_tests_cant": "It is about two programs, a network that cuts the bytes anywhere, and every order of events; tests look at one program, one cut and one order.", "anchors": ["msc_client/session/session.go: startReceiver, onTraffic", "msc_client/session/on_traffic_cmpp.go", "msc_client/session/on_traffic_smgp.go", "msc_client/session/on_traffic_sgip.go", "msc_server/server/on_traffic.go: OnTraffic, DecodeAndCheckHeader", "msc_server/server/cmpp_submit.go", "msc_server/server/smgp_submit.go", "msc_server/server/sgip_submit.go"]}
