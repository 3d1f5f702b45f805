{"id": "C01", "title": "Message header round trip and layout", "statement": "Header.WriteTo emits exactly 8 bytes: version (1), type (1), length (2), transaction (4), all big-endian; Header.ReadFrom on a stream starting with those bytes restores every field, consumes exactly 8 bytes, and reports n = 8.", "quantifier": "every header value (2^64 of them), every tail following it on the stream, every fragmentation of the stream", "why_tests_cant": "2^64 header values times unboundedly many fragmentations; tests use one or two literals with a bytes.Buffer.", "anchors": ["header.go: Header, WriteTo, ReadFrom", "internal/encoding/encoding.go: WriteTo, ReadFrom"]}
{"id": "C02", "title": "Request.WriteTo framing and size limit", "statement": "For a request whose body serialises to b: if 8+len(b) <= 65535, Request.WriteTo writes exactly one chunk consisting of the header followed by b, with the header length field equal to the number of bytes written, and returns that number; otherwise it returns ErrBodyTooLong and writes nothing. If the body fails to serialise, it returns that error and writes nothing.", "quantifier": "every header, every body (any length, including lengths around 65527), body absent or present, body serialisers that fail", "why_tests_cant": "The boundary and the no-partial-output guarantee must hold for all lengths; tests never build a body near 64 KiB nor a failing serialiser.", "anchors": ["request.go: Request.WriteTo, ErrBodyTooLong, headerlen", "header.go: Header.Length"]}
{"id": "C03", "title": "Send/Receive stream framing", "statement": "If a list of requests is serialised one after another onto a stream, then repeatedly calling Conn.Receive on the other end yields the same headers and bodies, in order, and afterwards the stream's own error; this does not depend on how the transport splits or coalesces the bytes.", "quantifier": "every finite list of requests, every fragmentation of the byte stream into reads (through the 4096 byte read buffer)", "why_tests_cant": "Fragmentation schedules are unbounded; the unit tests use one in-memory buffer that always returns everything.", "anchors": ["net.go: conn.Receive, conn.Send, newConn", "request.go: Request.ReadFrom, Request.WriteTo"]}
{"id": "C04", "title": "Malformed or truncated frames are never delivered as requests", "statement": "Conn.Receive on a stream whose next header declares a length below 8 returns ErrCorruptedHeader; on a stream that ends before the declared length it returns the transport error; in both cases no request is handed to the caller. A request is delivered only if all of its declared bytes were present.", "quantifier": "every byte stream, every truncation point, every fragmentation, every terminal transport error", "why_tests_cant": "The claim quantifies over all byte strings and all truncation points.", "anchors": ["request.go: Request.ReadFrom, ErrCorruptedHeader", "net.go: conn.Receive"]}
{"id": "C05", "title": "A complete message is delivered even if the transport reports end-of-stream together with its last bytes", "statement": "If every byte declared by the header has arrived, Receive returns the request without error, also when the transport's Read returned the final bytes together with io.EOF (as io.Reader permits and crypto/tls does).", "quantifier": "every message, every transport behaviour allowed by the io.Reader contract", "why_tests_cant": "Test transports always return EOF in a separate call.", "anchors": ["request.go: Request.ReadFrom (body loop)", "net.go: conn.Receive, DialTLS, ListenTLS"]}
{"id": "C06", "title": "Sending a request again produces the same bytes", "statement": "Calling Request.WriteTo (or Conn.Send) k times on one request produces k identical messages.", "quantifier": "every request made by NewRequest or received from a connection, every k", "why_tests_cant": "Depends on hidden consumption state of the body; tests send each request once.", "anchors": ["request.go: NewRequest, copyReader.WriteTo, Request.WriteTo"]}
{"id": "C07", "title": "Reading a request body reports serialisation failures", "statement": "If the message passed to NewRequest fails to serialise, draining Request.Body with Read reports that error instead of a clean end of data.", "quantifier": "every failing serialiser (any partial output, any error), every sequence of read sizes", "why_tests_cant": "Needs all combinations of partial output, error and read sizes; no test uses a failing serialiser.", "anchors": ["request.go: copyReader.Read, copyReader.init"]}
{"id": "C08", "title": "Composite encoding is all-or-nothing", "statement": "When a message made of several parts is written, either all parts are written in order and the returned count is the sum of their sizes, or an error is returned with count 0 and nothing reaches the destination.", "quantifier": "every list of parts, any position of a failing part", "why_tests_cant": "Quantifies over all part lists and failure positions.", "anchors": ["internal/encoding/encoding.go: WriteTo"]}
{"id": "C09", "title": "Concurrent writers never interleave message bytes", "statement": "When any number of goroutines call Conn.Send, Conn.Flush and ResponseWriter.Write on one connection at the same time, the byte stream handed to the transport is a concatenation of whole messages (plus at most a prefix of one message in progress), each goroutine's messages in its own program order.", "quantifier": "every number of goroutines, every program, every interleaving at byte-copy granularity", "why_tests_cant": "Interleavings are unbounded and the race window is never exercised deterministically by a test.", "anchors": ["net.go: conn.Write, conn.Flush, conn.forceWrite, conn.mu", "server.go: response.Write"]}
{"id": "C10", "title": "Buffered connection output is a prefix of what was sent; Flush completes it; write errors are sticky", "statement": "At any time the bytes given to the transport are a prefix of the concatenation of the messages accepted so far; after a Flush that returns nil they are equal to it; once the transport fails, every later write or flush that has something to transmit returns an error and no byte is ever transmitted again.", "quantifier": "every sequence of sends, response writes and flushes, every pattern of short writes and transport failures, every message size relative to the 4096 byte buffer", "why_tests_cant": "Failure patterns and buffer boundary crossings are unbounded; tests use an in-memory sink that never fails.", "anchors": ["net.go: conn.Send, conn.Flush, conn.Write, conn.forceWrite"]}
{"id": "C11", "title": "Batch Send is all-or-nothing", "statement": "openflow.Send(c, r1..rk) writes no data when any of the requests fails to be sent, and otherwise transmits all of them in order and flushes.", "quantifier": "every list of requests with any failing position, every prior buffer state", "why_tests_cant": "The documentation promises it for every list; no unit test covers a failing element.", "anchors": ["net.go: Send"]}
{"id": "C12", "title": "ResponseWriter.Write framing", "statement": "ResponseWriter.Write transmits one message whose header has the caller's type and transaction, the request's version if the caller left it 0, a length field equal to the message size, followed by the serialised body; a body that does not fit into 65535 bytes or fails to serialise yields an error and nothing is transmitted.", "quantifier": "every header, every body size, every serialiser outcome, every version of the request", "why_tests_cant": "Sizes around 64 KiB and failing serialisers are not tested.", "anchors": ["server.go: response.Write"]}
{"id": "C13", "title": "Mux dispatch correctness", "statement": "ServeMux.Handler(r) returns either a handler registered under a matcher that matches r, or the default handler when no registered matcher matches r; it never returns a handler whose matcher rejects r. After Handle(m,h), a request matched by m and by no other matcher is always given to h.", "quantifier": "every registration history, every request, every map iteration order", "why_tests_cant": "Map iteration order is randomised and registration histories are unbounded.", "anchors": ["mux.go: ServeMux.Handle, ServeMux.Handler, ServeMux.Serve"]}
{"id": "C14", "title": "HandleOnce handlers run at most once", "statement": "A handler registered by HandleOnce is selected for at most one request, and a handler registered later is not lost, whatever the interleaving of concurrent dispatches and registrations.", "quantifier": "every number of goroutines dispatching concurrently, every interleaving of the read-locked and write-locked phases, every registration history", "why_tests_cant": "The window between the two lock acquisitions cannot be hit reliably by a test.", "anchors": ["mux.go: ServeMux.HandleOnce, ServeMux.Handler"]}
{"id": "C15", "title": "Registration is guarded", "statement": "Registering a nil matcher, a nil handler or an already registered matcher panics and leaves the set of registered handlers unchanged; every other registration succeeds and adds exactly that entry.", "quantifier": "every registration history", "why_tests_cant": "Must hold after every history of registrations and once-removals.", "anchors": ["mux.go: ServeMux.handle, ServeMux.Handle, ServeMux.HandleFunc, ServeMux.HandleOnce"]}
{"id": "C16", "title": "TypeMux routes by message type deterministically", "statement": "With TypeMux a request of type t is served by exactly the handler registered for t (or the default handler when there is none), independent of registration order and map iteration order.", "quantifier": "every set of registrations, every request, every iteration order", "why_tests_cant": "Iteration order is random; the property is about all orders.", "anchors": ["mux.go: TypeMux, TypeMatcher"]}
{"id": "C17", "title": "Matcher combinators decide exactly what they document", "statement": "MultiMatcher matches iff all its matchers match (and evaluates none after the first rejection); TypeMatcher matches iff the type is equal; TransactionMatcher leaves the header with the id it matches on, keeps a non-zero id, and matches exactly the messages carrying that id.", "quantifier": "every list of matchers, every request, every random number drawn", "why_tests_cant": "Quantifies over all matcher lists, ids and random draws.", "anchors": ["mux.go: MultiMatcher, TypeMatcher", "header.go: TransactionMatcher"]}
{"id": "C18", "title": "Cookie matcher decision", "statement": "NewCookieMatcher(jar) stores one fresh cookie both in the jar and in the matcher; Match(r) is true iff the body of r decodes as the jar's message type and carries exactly that cookie, for every message type with a cookie.", "quantifier": "every pair of random words, every request body, every cookie-carrying message type", "why_tests_cant": "All 2^64 cookies and all bodies, including malformed ones.", "anchors": ["cookie.go: NewCookieMatcher, CookieMatcher.Match, CookieReaderOf", "ofp/flow.go, ofp/packet.go, ofp/aggregate.go: Cookies/SetCookies"]}
{"id": "C19", "title": "Cookie matching does not consume the request body", "statement": "After CookieMatcher.Match the handler (and any matcher evaluated later) reads the same body bytes as before, so routing does not depend on the order in which matchers are tried.", "quantifier": "every request (received from a connection or built locally), every number of cookie matchers, every evaluation order", "why_tests_cant": "Depends on the dynamic type of the body and on random map order; the test only checks the returned booleans.", "anchors": ["cookie.go: CookieMatcher.Match", "mux.go: ServeMux.Handler"]}
{"id": "C20", "title": "Connection limit", "statement": "With MaxConns = m > 0 at most m connections are being served at any time; a connection arriving at the limit is reported as New then Closed and closed without being served; with MaxConns = 0 none is rejected; capacity is released when a connection ends.", "quantifier": "every sequence and interleaving of arrivals, terminations, and one or more Serve loops; every integer value of MaxConns", "why_tests_cant": "Unbounded histories and races between accept loops.", "anchors": ["server.go: Server.Serve, Server.accept, Server.serve, Server.MaxConns"]}
{"id": "C21", "title": "Connection state callback protocol", "statement": "For every connection the ConnState callback observes New first and exactly once, Closed exactly once and last (it is documented as terminal), and between them only Handshake/Active each followed by Idle.", "quantifier": "every number of requests per connection, every goroutine interleaving, every handler runner", "why_tests_cant": "Interleavings of handler goroutines with connection shutdown are not controllable in a test.", "anchors": ["server.go: Server.accept, Server.serve, Server.serveReq, Server.setState", "net.go: ConnState"]}
{"id": "C22", "title": "Requests of a connection are dispatched exactly once, in arrival order", "statement": "Every request received on a connection before its first receive error is handed to the handler runner exactly once and in arrival order; nothing is dispatched after the receive error; with SequentialRunner handlers also complete in that order.", "quantifier": "every request sequence, every interleaving of the receiver goroutine with the serve loop", "why_tests_cant": "Unbounded sequences and schedules of the two goroutines around an unbuffered channel.", "anchors": ["server.go: receiver, Server.serve, Server.serveReq", "runner.go: SequentialRunner"]}
{"id": "C23", "title": "MultiRoutineRunner", "statement": "MultiRoutineRunner(n) runs every submitted function exactly once, starts them in submission order, never runs more than n at a time, and never gets stuck while functions are pending provided the functions themselves terminate and do not submit to the same runner.", "quantifier": "every n > 0, every sequence of submissions, every schedule", "why_tests_cant": "Schedules are unbounded.", "anchors": ["runner.go: MultiRoutineRunner, Run"]}
{"id": "C24", "title": "Extensible match field (XM) round trip", "statement": "An XM with type below 128, whose mask is empty or as long as its value and whose payload fits in 255 bytes, is encoded as class, type/mask flag, payload length, value, mask and decoded back to an equal XM consuming exactly those bytes; outside these bounds the encoding is not decodable to the same field.", "quantifier": "every class, type, value and mask", "why_tests_cant": "All value/mask byte strings; tests have three literals.", "anchors": ["ofp/match.go: XM.WriteTo, XM.ReadFrom, XM.readFrom"]}
{"id": "C25", "title": "Match round trip and alignment", "statement": "A Match over well-formed fields of total size below 65532 is encoded with a length field that excludes padding, zero padding to a multiple of 8, and decodes to an equal Match consuming exactly the padded size, irrespective of following bytes.", "quantifier": "every list of well-formed fields, every tail, every fragmentation, every previous content of the target", "why_tests_cant": "Unbounded field lists.", "anchors": ["ofp/match.go: Match.WriteTo, Match.ReadFrom, readAllXM", "ofp/pad.go: makePad, padLen"]}
{"id": "C26", "title": "Action encoding and round trip", "statement": "Each action encodes to its OpenFlow 1.3 type code, a length field equal to its size, a size that is a multiple of 8, zero padding, and decodes back to an equal action; a list of actions decodes to the same list in the same order.", "quantifier": "every action of every type with every field value; every finite list of actions; every fragmentation", "why_tests_cant": "Unbounded lists, all field values.", "anchors": ["ofp/action.go: Action*, Actions.WriteTo, Actions.ReadFrom", "internal/encoding/encoding.go: ScanFrom"]}
{"id": "C27", "title": "Instruction encoding and round trip", "statement": "Each instruction encodes to its type code, a length field equal to its size (a multiple of 8) and decodes back to an equal instruction; nested action lists are confined to the instruction's declared length; a list of instructions decodes to the same list in the same order.", "quantifier": "every instruction with every action list that fits 65535 bytes; every finite list; every fragmentation", "why_tests_cant": "Unbounded nested lists.", "anchors": ["ofp/instruction.go: Instruction*, Instructions.WriteTo, Instructions.ReadFrom, readAllActions, writeIntructionActions"]}
{"id": "C28", "title": "Flow messages round trip", "statement": "FlowMod, FlowRemoved, FlowStatsRequest, FlowStats, AggregateStatsRequest and AggregateStats decode to equal values from their own encodings, with the field offsets of OpenFlow 1.3; FlowStats consumes only its own declared length so several records can be read from one multipart body.", "quantifier": "every field value, every well-formed match and instruction list, every previous content of the target, every fragmentation", "why_tests_cant": "Unbounded nested content.", "anchors": ["ofp/flow.go", "ofp/aggregate.go"]}
{"id": "C29", "title": "Packet-in / packet-out round trip", "statement": "PacketIn and PacketOut decode to equal values from their own encodings; the packet data is returned verbatim and the packet-out actions are confined to the declared actions length so that no data byte is interpreted as an action.", "quantifier": "every field value, match/actions and packet payload, every fragmentation", "why_tests_cant": "All payloads, including payloads that look like actions.", "anchors": ["ofp/packet.go: PacketIn, PacketOut"]}
{"id": "C30", "title": "Fixed-size messages round trip, size and truncation", "statement": "Every fixed-size message (role, async config, experimenter, switch features/config, table mod/stats, port stats, queue stats, group/meter features, statistics requests, counters ...) encodes to its constant size, decodes to an equal value consuming exactly that size, and decoding any strictly shorter input returns an error having consumed all of it.", "quantifier": "every field value of each fixed-size message, every strict prefix, every fragmentation", "why_tests_cant": "All field values and all truncation points.", "anchors": ["ofp/handshake.go", "ofp/switch.go", "ofp/table.go", "ofp/port.go", "ofp/queue.go", "ofp/group.go", "ofp/meter.go", "ofp/aggregate.go", "ofp/multipart.go"]}
{"id": "C31", "title": "Group messages round trip", "statement": "Bucket, GroupMod, GroupStats and GroupDescStats decode to equal values from their own encodings; in particular all buckets and counters survive decoding.", "quantifier": "every list of buckets/counters", "why_tests_cant": "The tests decode into the value they encoded, which hides lost lists.", "anchors": ["ofp/group.go", "internal/encoding/encoding.go: ReadSliceFrom"]}
{"id": "C32", "title": "Meter messages round trip", "statement": "Meter bands, MeterMod, MeterConfig and MeterStats decode to equal values from their own encodings; in particular all bands and band statistics survive decoding.", "quantifier": "every list of bands/statistics", "why_tests_cant": "The tests decode into the value they encoded, which hides lost lists.", "anchors": ["ofp/meter.go", "internal/encoding/encoding.go: ScanFrom, ReadSliceFrom"]}
{"id": "C33", "title": "Queue messages round trip", "statement": "Queue properties, PacketQueue and QueueGetConfigReply decode to equal values from their own encodings; in particular all properties and queues survive decoding.", "quantifier": "every list of queues and properties", "why_tests_cant": "The tests decode into the value they encoded, which hides lost lists.", "anchors": ["ofp/queue.go", "internal/encoding/encoding.go: ScanFrom, ReadSliceFrom"]}
{"id": "C34", "title": "Hello round trip", "statement": "A Hello decodes to the elements it was encoded from, so that the peer's supported versions are visible.", "quantifier": "every list of hello elements", "why_tests_cant": "The tests decode into the value they encoded, which hides the lost list.", "anchors": ["ofp/handshake.go: Hello, HelloElems"]}
{"id": "C35", "title": "Hello version bitmap element round trip", "statement": "A version bitmap element decodes to exactly the bitmaps it was encoded from and its encoding is 8-byte aligned.", "quantifier": "every list of 32-bit bitmaps", "why_tests_cant": "Alignment interacts with parity of the list length; the literal test decodes into the value encoded.", "anchors": ["ofp/handshake.go: HelloElemVersionBitmap"]}
{"id": "C36", "title": "Table feature properties round trip", "statement": "Every table feature property and TableFeatures decode to equal values from their encodings: type codes carry the miss flag, lengths exclude padding, properties are 8-byte aligned and confined to their declared length; decoding a property received from a switch and encoding it again yields a property that decodes the same.", "quantifier": "every property type, miss flag and content; every list of properties", "why_tests_cant": "Unbounded lists and contents.", "anchors": ["ofp/table.go: TableProp*, TableFeatures, writeTablePropXM, readAllTableXM"]}
{"id": "C37", "title": "Port messages round trip", "statement": "Port, PortStatus, PortMod and PortStats decode to equal values from their own encodings into a freshly created target; the encoding of a port is 64 bytes; Ports decodes any number of consecutive ports.", "quantifier": "every field value, 6 byte hardware address and 16 byte name; every list of ports; every previous content of the target", "why_tests_cant": "The tests reuse a target that already has the address allocated.", "anchors": ["ofp/port.go"]}
{"id": "C38", "title": "Fixed-width text fields", "statement": "Text longer than its field is truncated, shorter text is NUL padded, the encoding of a description is always 1056 bytes, and decoding yields text whose first bytes are the original text; decode-encode is stable.", "quantifier": "every string of every length in each field", "why_tests_cant": "All strings and lengths.", "anchors": ["ofp/description.go: Description", "ofp/port.go: Port.Name", "ofp/table.go: TableFeatures.Name"]}
{"id": "C39", "title": "Decoding untrusted bytes never panics; unknown kinds are rejected", "statement": "Decoding any byte string as actions, instructions, hello elements, meter bands, queue or table properties either succeeds or returns an error, it never panics; an element of an unregistered type is rejected with an error naming no element of that type as decoded.", "quantifier": "every byte string", "why_tests_cant": "All byte strings; fuzzing can only sample.", "anchors": ["ofp/action.go: actionMap, ActionPopPBB", "ofp/instruction.go: instructionMap", "ofp/handshake.go: helloElemMap", "ofp/meter.go: meterBandMap", "ofp/queue.go: queuePropMap", "ofp/table.go: tablePropMap", "internal/encoding/encoding.go: ReaderMakerOf, ScanFrom"]}
{"id": "C40", "title": "Truncated variable-size messages are rejected", "statement": "Decoding a strict prefix of an encoding that ends inside an element (action, instruction, bucket, ...) returns an error.", "quantifier": "every message, every truncation point inside an element", "why_tests_cant": "All truncation points; end-of-file at a field boundary is special.", "anchors": ["internal/encoding/encoding.go: SkipEOF, ScanFrom, ReadFunc"]}
{"id": "C41", "title": "Decoders terminate and report what they consumed", "statement": "Every decoder terminates on every finite input, reports n at most the number of bytes available, and (except for list decoders that read ahead) leaves exactly the bytes after the first n unread.", "quantifier": "every byte string, every decoder, every fragmentation", "why_tests_cant": "All byte strings; termination is not testable.", "anchors": ["internal/encoding/encoding.go: ReadFrom, ReadFunc, ScanFrom", "ofp/*.go: ReadFrom methods"]}
{"id": "C42", "title": "Decoding overwrites the target", "statement": "The result of decoding into a value does not depend on what the value contained before, so values can be reused.", "quantifier": "every previous content, every input, every decoder", "why_tests_cant": "All previous contents; tests decode into equal or zero values.", "anchors": ["ofp/match.go: Match.ReadFrom", "ofp/action.go: Actions.ReadFrom", "ofp/instruction.go: Instructions.ReadFrom", "ofp/flow.go", "ofp/port.go: Ports.ReadFrom, PortMod.ReadFrom"]}
{"id": "C43", "title": "A declared length too small for its own header is rejected", "statement": "An element whose length field is smaller than its fixed part is rejected and does not consume the elements following it.", "quantifier": "every element kind, every undersized length, every following bytes", "why_tests_cant": "16-bit wrap-around on every undersized value and every tail.", "anchors": ["ofp/instruction.go: readAllActions", "ofp/action.go: ActionSetField.ReadFrom", "ofp/group.go: Bucket.ReadFrom", "ofp/handshake.go: HelloElemVersionBitmap.ReadFrom", "ofp/meter.go, ofp/queue.go, ofp/table.go"]}
{"id": "C44", "title": "Bitmap helpers", "statement": "PacketInReasonBitmap, PortReasonBitmap, FlowReasonBitmap, GroupBitmap and ActionBitmap set bit i iff a value i < 32 is among the arguments; the result is independent of order and repetition and values of 32 and above contribute nothing.", "quantifier": "every argument list and every bit position", "why_tests_cant": "All lists.", "anchors": ["ofputil/bitmap.go"]}
{"id": "C45", "title": "Echo handler", "statement": "EchoHandler answers every received echo request with exactly one message of type EchoReply with the same version, transaction and payload, correctly framed.", "quantifier": "every received request header and payload", "why_tests_cant": "All payloads up to the maximum frame size.", "anchors": ["ofputil/handler.go: EchoHandler", "server.go: response.Write", "ofp/echo.go"]}
{"id": "C46", "title": "Hello handler", "statement": "HelloHandler(v) answers a hello with exactly one empty-bodied message of the same type and transaction and version v (the request's version if v is 0).", "quantifier": "every request header and v", "why_tests_cant": "All headers.", "anchors": ["ofputil/handler.go: HelloHandler", "server.go: response.Write"]}
{"id": "C47", "title": "End-to-end delivery of any modelled message", "statement": "If a request built from a well-formed message is sent without error, the peer's Receive followed by decoding of the body yields an equal message with the same header type, version and transaction, over any fragmentation; a successful send implies that no inner length field overflowed.", "quantifier": "every well-formed FlowMod/PacketOut/PacketIn/... of any size, every fragmentation", "why_tests_cant": "Composition of unbounded encoders, framing and transports.", "anchors": ["request.go", "net.go", "ofp/*.go"]}
{"id": "C48", "title": "Flow helper constructors", "statement": "NewFlowMod sets send-flow-removed exactly for non-deleting commands, copies buffer and match of the packet-in or uses no-buffer, and any-port/any-group; TableFlush, FlowFlush and FlowDrop produce the documented command, table, priority and match on the wire.", "quantifier": "every command, packet-in, table, match", "why_tests_cant": "All argument values.", "anchors": ["ofp/flow.go: NewFlowMod", "ofputil/flow.go: TableFlush, FlowFlush, FlowDrop"]}
{"id": "C49", "title": "Multipart envelope", "statement": "A multipart request decodes to the type, flags and body bytes that were encoded; a multipart reply decoder consumes exactly its 8 byte header and leaves the records for the caller.", "quantifier": "every type, flags and body", "why_tests_cant": "All bodies.", "anchors": ["ofp/multipart.go: MultipartRequest, MultipartReply, NewMultipartRequest"]}
{"id": "C50", "title": "Raw-payload messages round trip", "statement": "EchoRequest, EchoReply, Error and ErrorExperimenter return their payload verbatim to the end of the input, for any payload including the empty one.", "quantifier": "every payload and field value, every fragmentation", "why_tests_cant": "All payloads.", "anchors": ["ofp/echo.go", "ofp/error.go"]}
{"id": "C51", "title": "Decoders report a missing record", "statement": "Decoding a meter or group statistics record from an exhausted input reports end of input, so a loop reading records until an error terminates.", "quantifier": "every truncated header, including the empty input", "why_tests_cant": "Tests only decode complete records.", "anchors": ["ofp/meter.go: MeterStats.ReadFrom", "ofp/group.go: GroupDescStats.ReadFrom, GroupStats.ReadFrom"]}
{"id": "C52", "title": "Receive may be called from several goroutines", "statement": "The documentation of Conn says multiple goroutines may invoke methods simultaneously: concurrent Receive calls each return a whole message that was sent, no message being lost, duplicated or mixed.", "quantifier": "every interleaving of the reads of concurrent Receive calls", "why_tests_cant": "Interleavings at read-call granularity.", "anchors": ["net.go: Conn, conn.Receive, conn.Read", "request.go: Request.ReadFrom"]}
{"id": "C53", "title": "Match lookup and value accessors", "statement": "Match.Field(t) returns the first field of type t and nil iff there is none; XMValue accessors return the big-endian number of the leading bytes; the match helpers of ofputil produce fields whose accessor returns the given value and that survive a wire round trip.", "quantifier": "every match, type, value", "why_tests_cant": "All matches and values.", "anchors": ["ofp/match.go: Match.Field, XMValue", "ofputil/match.go"]}
{"id": "C54", "title": "Response recorder", "statement": "The test ResponseRecorder returns, for every sequence of writes, the written headers and bodies in order; First and Last are the first and last of them.", "quantifier": "every write sequence, aliasing of the header by the caller after the write", "why_tests_cant": "All sequences.", "anchors": ["ofptest/recorder.go"]}
{"id": "C55", "title": "Every accepted connection is eventually closed exactly once by the server", "statement": "Once a served connection's Receive fails (or the server stops), the server reports Closed and closes the connection exactly once; a rejected connection is closed exactly once too; no request is dispatched on a closed connection by the serve loop.", "quantifier": "every history of requests, failures and stops; every interleaving", "why_tests_cant": "Unbounded histories.", "anchors": ["server.go: Server.serve, Server.accept, receiver"]}
{"id": "C56", "title": "Protocol version of requests", "statement": "NewRequest makes requests of OpenFlow 1.3, that is wire version 4; a request received with wire version v reports protocol 1.(v-1) for v >= 1; ProtoAtLeast(major, minor) is true exactly when the reported version is not smaller in lexicographic order; a header copy has all the fields of the original.", "quantifier": "every type, payload, wire version, pair of numbers", "why_tests_cant": "All versions and pairs of numbers.", "anchors": ["request.go: NewRequest, Request.ProtoAtLeast, Request.ReadFrom", "header.go: Header.Copy"]}
{"id": "C57", "title": "Closing the test server", "statement": "When ofptest Server.Close returns, the listener is closed, every connection that the server had accepted is closed, and further calls of Close change nothing.", "quantifier": "every interleaving of Close calls, accepted connections, state callbacks, closing goroutines and the five second timer", "why_tests_cant": "A race between the state callback and Close; all interleavings.", "anchors": ["ofptest/server.go: Server.Close, Server.CloseClientConnections, Server.wrap"]}
{"id": "C58", "title": "A broken stream is reported", "statement": "When the stream a message is decoded from breaks (its error is not io.EOF), a decoder returns that very error unless the whole message has already been read; in particular a message whose payload extends to the end of the stream (echo, error, multipart request, list of ports) is never accepted with the part of the payload that arrived before the failure.", "quantifier": "every error, every content, every chunking, every previous value of the receiver", "why_tests_cant": "All positions of the failure and all chunkings; the tests of the repository only use bytes.Buffer, which never fails.", "anchors": ["ofp/*.go: every ReadFrom", "internal/encoding/encoding.go: ReadFrom, ReadFunc, ScanFrom"]}
{"id": "C59", "title": "Timeouts bound blocking and do nothing else", "statement": "With ReadTimeout d, a Receive called at time t returns a message exactly when it has arrived completely before t+d, and otherwise a timeout error at t+d; without timeout it waits. With WriteTimeout d, an operation on a connection whose peer reads never fails because of the timeout, however long the connection was idle, and an operation on a connection whose peer does not read returns a timeout error within d.", "quantifier": "all arrival times and chunkings of the input; all timed sequences of Send, response writes and Flush; all timeouts; peers that read and peers that stop reading", "why_tests_cant": "The interleavings of pauses, buffered writes and deadlines are unbounded, and tests do not wait.", "anchors": ["net.go: conn.Receive, conn.Send, conn.Flush, conn.forceWrite", "server.go: Server.accept, response.Write"]}
{"id": "C60", "title": "A Receive that timed out can be repeated", "statement": "After a Receive has returned a timeout error, a later Receive on the same connection returns the next message of the stream, undamaged, once it has arrived.", "quantifier": "all messages, all points in the stream at which the timeout strikes, any number of timeouts", "why_tests_cant": "A timeout may strike at any byte of any message.", "anchors": ["net.go: conn.Receive", "request.go: Request.ReadFrom"]}
{"id": "C61", "title": "Reserved bytes do not matter and messages can be relayed", "statement": "A decoder takes whatever stands in the reserved bytes of a message: it decodes the same value as if they were zero. Encoding what was decoded gives back the bytes received, with the reserved bytes set to zero; doing so again changes nothing.", "quantifier": "all byte strings of the size of a fixed-size message, all contents of the reserved bytes of the messages with lists", "why_tests_cant": "Tests decode packets with zero padding; a relay meets every value of every field, and a peer may put anything in reserved bytes.", "anchors": ["ofp: WriteTo and ReadFrom of every message", "header.go: Header.WriteTo, Header.ReadFrom", "internal/encoding/encoding.go: ReadFrom, WriteTo", "ofp/pad.go"]}
{"id": "C62", "title": "Texts tell values apart", "statement": "The text that a String method returns, in logs and error messages, determines the value: no two message types, multipart types, match fields, match classes, tables, table property types, error types, pairs of error type and code, packet-in reasons, action types, instruction types or connection states have the same text; the text of port features, configuration and state shows exactly which flags are set; the text of a table property shows the property.", "quantifier": "all values of the types, named constants or not; all combinations of flags; all lists", "why_tests_cant": "There are 2^32 pairs of error type and code and 2^32 combinations of port flags; tests look at a few named constants.", "anchors": ["header.go: Type.String", "net.go: ConnState.String", "ofp/port.go: PortFeature.String, PortConfig.String, PortState.String", "ofp/error.go: ErrType.String, Error.String", "ofp/multipart.go: MultipartType.String", "ofp/match.go: XMType.String, XMClass.String", "ofp/table.go: Table.String, TablePropType.String, TablePropInstructions.String", "ofp/packet.go: PacketInReason.String", "ofp/action.go: ActionType.String", "ofp/instruction.go: InstructionType.String"]}
{"id": "C63", "title": "Fragmentation does not matter", "statement": "What a decoder makes of a byte stream - the value, the byte count, the error - and how much of the stream it takes depend on the bytes and on how the stream ends, not on how the bytes arrive: in one piece, one byte at a time, with the end of the stream reported together with the last bytes or after them.", "quantifier": "all receivers, all byte strings, well formed or not, all ways of cutting them into reads, all kinds of reader with the same content", "why_tests_cant": "A string of n bytes can arrive in 2^(n-1) ways; tests read from a bytes.Buffer, which delivers everything in one piece.", "anchors": ["internal/encoding/encoding.go: ReadFrom, ReadSliceFrom, ScanFrom, ReadFunc", "ofp/action.go: Actions.ReadFrom, ActionSetField.ReadFrom", "ofp/instruction.go: Instructions.ReadFrom", "ofp: ReadFrom of every message"]}
{"id": "C64", "title": "Calls on a connection return", "statement": "Finitely many goroutines that make finitely many calls of the writing operations of one connection (Write, Flush, Send, responses) always come to an end: no interleaving and no failure of the transport makes them go on for ever or leaves one waiting for a lock that nobody releases; at the end every call has returned. The same holds for Receive when the callers serialise it. It is assumed that the transport's own Read and Write return.", "quantifier": "all connections, all finite sets of goroutines with finite programs, all interleavings (no fairness), all behaviours of the transport", "why_tests_cant": "A test sees a few of the interleavings, and a deadlock or livelock in another one cannot be told from a slow run.", "anchors": ["net.go: conn.Write, conn.Flush, conn.forceWrite, conn.Send, conn.Receive", "server.go: response.Write"]}
{"id": "C65", "title": "ContentLength tells how much can be read", "statement": "The ContentLength of a request is the number of bytes that can be read from its Body: a received request has a header length of eight more than it, reading the body yields at most that many bytes and io.EOF only after all of them; a request made with NewRequest says how long its body is.", "quantifier": "all received byte streams and all ways of reading the body; all types and bodies given to NewRequest", "why_tests_cant": "Bodies have every length up to 65527 bytes and can be read in pieces of any sizes; tests read a few bodies in one piece.", "anchors": ["request.go: Request.ContentLength, NewRequest, Request.ReadFrom, copyReader"]}
{"id": "C66", "title": "The multiplexer stays usable", "statement": "Handle, HandleOnce, Handler and Serve of one multiplexer may be called by any number of goroutines: the registrations do not change while a request is being matched, one goroutine at a time changes them, and handlers run without the lock, so they may register and dispatch on the multiplexer that called them. Calls never deadlock: once matchers and handlers return, or panic and are recovered, every call returns. What Serve runs is the handler that Handler selected.", "quantifier": "all multiplexers, goroutines, programs, matchers, nested uses by handlers, and all interleavings of the single steps of the calls, including those of the lock", "why_tests_cant": "The interleavings of lock, search, unlock and the second lock are unbounded in number; a deadlock in a rare one looks like a slow test, and tests do not recover panics of matchers and go on.", "anchors": ["mux.go: ServeMux.handle, ServeMux.Handler, ServeMux.Serve, TypeMux"]}
{"id": "C67", "title": "Closing a connection", "statement": "Close may be called at any time, also while other goroutines write, flush and answer on the connection and the peer does not read. Calls blocked in the transport return an error; afterwards every call returns without the peer; the peer gets nothing more. What the peer got is still a sequence of whole messages in the order of the calls, except that the last one may be incomplete. A message given to the connection after Close is not lost silently: the call, or every later flush or response, reports an error. Receive returns only what had been read before, then an error.", "quantifier": "all programs of any number of goroutines, all interleavings of single steps, all moments at which the peer takes a byte, resets, or the connection is closed", "why_tests_cant": "A Close can come between any two bytes of any call; a test can neither enumerate these moments nor show that no goroutine stays blocked for ever.", "anchors": ["net.go: conn.Close, conn.Write, conn.Flush, conn.forceWrite, conn.Send, conn.Receive", "server.go: response.Write"]}
{"id": "C68", "title": "A served connection answers what it receives", "statement": "A connection served by Server is, from the bytes the peer sends to the bytes the peer gets: the requests in the stream are handed to the runner in order, each once, until the stream ends; every request is answered by what its handler writes for it, followed by a flush; with a sequential runner the peer gets exactly the replies in the order of the requests, nothing missing when the connection is closed after the end of the stream unless the transport has failed; with any other runner the replies of different requests may interleave as whole messages only. The service ends: no execution goes on for ever, and until the connection is closed and all handlers have returned something can happen.", "quantifier": "all streams and fragmentations, all handlers (what they write may depend on the request and on which request it is; C97: also on the results of their writes), all interleavings of the receiver, the serve loop, the handlers and the peer, all moments at which the transport fails or the server is stopped", "why_tests_cant": "A reply can be lost or reordered only in particular interleavings of receiver, handlers, and the deferred Close; a test sees a few schedules, and a test with a fast handler never sees the Close overtake a reply.", "anchors": ["server.go: Server.serve, Server.serveReq, receiver.recv, receiver.C", "net.go: conn.Receive, conn.Write, conn.Flush, conn.Close", "ofputil/handler.go: EchoHandler", "runner.go: SequentialRunner, OnDemandRoutineRunner"]}
{"id": "C69", "title": "A controller answers hellos and echo requests", "statement": "A Server with a TypeMux in which HelloHandler(v) and EchoHandler are registered, with a sequential runner: to the stream of messages a switch sends it answers, in order, every hello with a hello of version v (or the switch's version when v is 0) and every echo request with an echo reply of the same payload, with the switch's transactions, and nothing to anything else; Receive on the side of the switch returns exactly these replies.", "quantifier": "all streams of well-formed messages, all fragmentations in both directions, all orders of registration and of map iteration, all schedules", "why_tests_cant": "It relates two byte streams through framing, dispatch, handlers, buffering, and closing; every layer adds its own nondeterminism (fragmentation, map order, schedule), and their product cannot be enumerated.", "anchors": ["server.go: Server.serve, Server.serveReq, response.Write", "mux.go: TypeMux.Handle, ServeMux.Handler, ServeMux.Serve", "ofputil/handler.go: HelloHandler, EchoHandler"]}
{"id": "C70", "title": "The controller of the README floods", "statement": "The example of the README (a handler for packet-ins that answers with NewFlowMod(FlowAdd, &packet) and an apply-actions instruction that outputs to PortFlood): for every well-formed packet-in that a switch sends it receives, in order, one flow-mod of the same version that decodes to an add with the buffer and the match of that packet-in and the flood action, and nothing for other messages.", "quantifier": "all streams of well-formed packet-ins and other messages, all fragmentations in both directions, all schedules (sequential runner)", "why_tests_cant": "It needs decoding, the constructor, encoding, framing and dispatch to fit together for every match a switch can report; a test tries a few matches.", "anchors": ["README.md", "ofp/packet.go: PacketIn.ReadFrom", "ofp/flow.go: NewFlowMod, FlowMod.WriteTo, FlowMod.ReadFrom", "server.go: response.Write, Server.serveReq", "mux.go: ServeMux.Handler"]}
{"id": "C71", "title": "Worker pools for connections and handlers do not block", "statement": "With MultiRoutineRunners as ConnRunner and HandlerRunner, the server never blocks: as long as there is a connection to accept, a request to dispatch or a handler to run, something happens, every execution ends, and at its end every request of every accepted connection has been handled exactly once. At most as many connections are served and handlers run as there are workers, and with a single worker for the handlers the requests of each connection are handled in order. This should not depend on whether the two runners are the same one.", "quantifier": "all pool sizes, all MaxConns, all numbers of connections, all numbers of requests per connection, all schedules", "why_tests_cant": "Blocking depends on the schedule and on the number of workers, connections and requests; a test that does not hit the schedule passes.", "anchors": ["runner.go: MultiRoutineRunner, Run, runner", "server.go: Server.Serve, Server.accept, Server.serve", "server.go: Server.ConnRunner, Server.HandlerRunner, Server.MaxConns"]}
{"id": "C72", "title": "Replies reach the handler that waits for their transaction", "statement": "A goroutine that makes a matcher with TransactionMatcher, registers a handler for it with HandleOnce and then writes its request gets the reply: the handler is called for that reply, once, and for nothing else, whatever other goroutines request and whatever other messages arrive; those go to the handlers for their types or to the default handler.", "quantifier": "all numbers of goroutines and messages, all headers, random numbers, registered handlers, orders of map iteration and interleavings", "why_tests_cant": "It depends on the interleaving of registration, writing and dispatching and on the order of map iteration; identifiers collide too seldom for a test.", "anchors": ["header.go: TransactionMatcher", "mux.go: ServeMux.HandleOnce, ServeMux.Handler, ServeMux.Serve", "server.go: response.Write", "responsewrite_test.go"]}
{"id": "C73", "title": "The receiving goroutine of a connection ends with it", "statement": "Once the serve loop of a connection is over, because its stream has ended or the server was stopped, the goroutine that reads the connection ends as well, so that a server has no more receiving goroutines than connections it serves.", "quantifier": "all servers, connections, requests, runners and interleavings", "why_tests_cant": "A blocked goroutine has no effect that a test of the API sees; that it never ends, and that none is left in any interleaving, are statements about all executions.", "anchors": ["server.go: receiver.receive, receiver.C, Server.serve, Server.close"]}
{"id": "C74", "title": "The server of the documentation answers echo requests", "statement": "The server in the documentation of ListenAndServe (a function registered for echo requests in the default multiplexer, no handler and no runners given) answers every echo request it receives with one echo reply that has the version, the transaction and the data of the request, and answers nothing else.", "quantifier": "all streams of well-formed messages, fragmentations of them, runners and interleavings of the handlers", "why_tests_cant": "The example runs every handler on a goroutine of its own, so that replies may come in any order and the number of interleavings grows without bound with the requests in flight.", "anchors": ["server.go: ListenAndServe, Server.Serve, Server.serveReq, response.Write", "mux.go: DefaultMux, HandleFunc"]}
{"id": "C75", "title": "Two programs that use the library finish their handshake", "statement": "When two programs that use HelloHandler and EchoHandler are connected to each other and have sent any messages (a hello each, as OpenFlow asks, echo requests and others), then after finitely many messages nothing is under way any more, each program has received what the other one sent and exactly one answer to each of its echo requests.", "quantifier": "all messages sent by the two programs, all fragmentations, all orders in which the handlers run, all interleavings of the two programs", "why_tests_cant": "The handler test looks at one reply to one request; that an exchange between two programs ends is about unboundedly long executions of a system of both.", "anchors": ["ofputil/handler.go: HelloHandler, EchoHandler", "server.go: Server.serve, Server.serveReq, response.Write", "net.go: conn.Receive"]}
{"id": "C76", "title": "A recovered panic costs no more than its connection", "statement": "When a handler or the ConnState callback panics and the program recovers the panic (in its runners or around Serve), the connection it happened on is closed, and its slot of MaxConns and its receiving goroutine are given back; the limit holds and other connections are served as before.", "quantifier": "all executions of a server, all moments at which handlers and callbacks panic, any number of connections and panics, both kinds of handler runners", "why_tests_cant": "A lost slot shows only after as many panics as there are slots, and that it is lost for ever is about every continuation of an execution.", "anchors": ["server.go: Server.accept, Server.serve, Server.serveReq, Server.setState, receiver.receive", "runner.go: Runner, SequentialRunner"]}
{"id": "C77", "title": "Decoding does not amplify", "statement": "What a decoder builds from the bytes of a peer is bounded by a fixed factor times the bytes it took from the connection, whatever lengths those bytes claim: the elements of all lists plus the bytes of all byte slices of the decoded value (or of the half-decoded one that an error leaves) are at most K per byte read, on top of what the receiver held before.", "quantifier": "all byte sequences, complete, truncated or malformed; all fragmentations and nestings of readers; all receivers; successful and failing decodings", "why_tests_cant": "The inputs that cost the most are malformed in a particular place; a fuzzer sees a large slice now and then, but that no input of any length exceeds the bound is about all of them.", "anchors": ["ofp/match.go: XM.readFrom, readAllXM, Match.ReadFrom", "ofp/action.go: ActionSetField.ReadFrom, Actions.ReadFrom", "ofp/instruction.go: Instructions.ReadFrom", "ofp/packet.go: PacketIn.ReadFrom, PacketOut.ReadFrom", "ofp/flow.go: FlowMod.ReadFrom, FlowStats.ReadFrom", "ofp/table.go: TableFeatures.ReadFrom, TablePropNextTables.ReadFrom, readTablePropXM", "internal/encoding/encoding.go: ScanFrom"]}
{"id": "C78", "title": "Different messages have different encodings", "statement": "Two different messages of one type never have the same encoding, so that what a peer (of whatever implementation) receives determines what the sender meant; records that are sent one after another (statistics entries, buckets, bands, properties, frames of a stream) can be told apart and taken off the stream in exactly one way. This holds also for the messages whose own decoders lose parts of them.", "quantifier": "all pairs of messages of each type within the bounds of the wire format; all pairs of sequences of requests; any bytes that follow", "why_tests_cant": "It is a statement about all pairs of messages: an example shows two encodings to differ, never that no two coincide.", "anchors": ["ofp/match.go: XM.WriteTo, Match.WriteTo", "ofp/action.go: Actions.WriteTo", "ofp/instruction.go: Instructions.WriteTo", "ofp/flow.go, ofp/packet.go: WriteTo", "ofp/group.go: Bucket.WriteTo, GroupMod.WriteTo, GroupStats.WriteTo, GroupDescStats.WriteTo", "ofp/meter.go: MeterMod.WriteTo, MeterConfig.WriteTo, MeterStats.WriteTo", "ofp/queue.go: PacketQueue.WriteTo, QueueGetConfigReply.WriteTo", "ofp/table.go: TableFeatures.WriteTo", "ofp/port.go: Port.WriteTo", "ofp/handshake.go: HelloElemVersionBitmap.WriteTo", "request.go: Request.WriteTo"]}
{"id": "C79", "title": "Serve returns when Accept fails, and only then", "statement": "A call of Serve returns exactly the error of the Accept call that failed, after closing its listener exactly once; until an Accept fails it neither returns nor closes the listener, whatever its connections, its limit and the stop channel do; after it, nothing is accepted any more, also if the error was a temporary one. Every connection Accept returned is refused and closed or given to the connection runner, in the order of acceptance, one after the other. Connections being served when Serve returns are neither closed nor interrupted. With a runner that starts goroutines no connection keeps Serve from accepting the next; with SequentialRunner as ConnRunner one connection is served at a time, a client that stays connected keeps all others waiting, and the limit refuses nobody.", "quantifier": "all sequences of results of Accept, all limits, all interleavings of the connections, their handlers and the stop channel with the accept loop; both kinds of handler runner", "why_tests_cant": "It is about every interleaving of the accept loop with any number of connections; a test accepts a few connections and sees one schedule.", "anchors": ["server.go: Server.Serve, Server.accept, Server.serve, Server.ListenAndServe", "runner.go: OnDemandRoutineRunner.Run, SequentialRunner.Run"]}
{"id": "C80", "title": "A program that sends on what it receives is transparent", "statement": "A loop that receives requests from one connection and sends each on another forwards the stream byte for byte: for every byte stream, well formed or not, what is transmitted is exactly the sequence of complete messages at its beginning, with version, type, transaction and length unchanged, whatever they are; nothing of an incomplete or corrupted message, and nothing after it, is sent. The loop ends on every finite stream, with the transport's own error if the stream ends after a message. If the outgoing transport fails, what it took is a beginning of the incoming stream. Transports are taken to report the end of the stream in a call of its own (see C05 for the others: the last message may be missing then).", "quantifier": "all byte streams, all fragmentations, all final errors, all failures of the outgoing transport", "why_tests_cant": "It quantifies over all byte streams, also malformed ones; tests forward a few well-formed messages.", "anchors": ["net.go: conn.Receive, conn.Send, Send", "request.go: Request.ReadFrom, Request.WriteTo", "header.go: Header.ReadFrom, Header.WriteTo"]}
{"id": "C81", "title": "Constants have the numbers of OpenFlow 1.3", "statement": "Every exported constant that stands for a number of the protocol (message types, action, instruction, match field, band and property types, commands, flags, reasons, reserved port, group, meter, queue and table numbers, error types and codes, capabilities) has the number that the OpenFlow 1.3 specification gives to it, and the types report that number; a test of a decoded value against a constant tells what the switch said.", "quantifier": "all constants of all const blocks; all values of the action, instruction, band, property and element types; all features replies, on any reader", "why_tests_cant": "A test that encodes with a constant and decodes with the same constant passes whatever the number is; the value of a constant depends on its position in the block (iota), and no test compares all of them with the specification.", "anchors": ["header.go: Type constants", "ofp/switch.go: Capability constants", "ofp/action.go: ActionType constants", "ofp/port.go: PortNo, PortFeature, PortConfig, PortState", "ofp/error.go: ErrType, ErrCode", "ofp/table.go: TablePropType", "ofp/match.go: XMType, XMClass"]}
{"id": "C82", "title": "Constants print as their names", "statement": "The String method of an enumeration prints a value as the name of its constant exactly if there is one, and otherwise as the name of the type with the number; an error prints as the constant of its code for its type; port features and configuration print the words for exactly the flags that are set, in the order of the constants.", "quantifier": "all values of the types, named or not; all pairs of error type and code; all sets of flags", "why_tests_cant": "Tests print a few constants; a missing, swapped or extra entry in one of the tables shows only for that value.", "anchors": ["header.go: Type.String", "net.go: ConnState.String", "ofp/multipart.go: MultipartType.String", "ofp/match.go: XMType.String, XMClass.String", "ofp/error.go: ErrType.String, Error.String", "ofp/port.go: PortFeature.String, PortConfig.String, PortState.String"]}
{"id": "C83", "title": "A destination that fails is reported with what reached it", "statement": "Whatever the io.Writer passed to WriteTo does, as long as it keeps the contract of io.Writer: a beginning of the encoding reaches it, the count that WriteTo returns is the length of that beginning, no error means that the whole encoding was taken, and an error is one of the destination or of the encoding. A message is handed over by at most one call of Write.", "quantifier": "every message type of the library and every value, requests with every kind of body, every destination (also one that takes a part and fails, at any byte)", "why_tests_cant": "Tests write to buffers, which never fail; where a destination fails and which message is being written cannot be enumerated.", "anchors": ["internal/encoding/encoding.go: WriteTo, WriteSliceTo", "request.go: Request.WriteTo", "ofp/group.go: GroupMod.WriteTo", "ofp/meter.go: MeterBands.WriteTo", "ofp/table.go: writeTablePropXM, TablePropInstructions.WriteTo"]}
{"id": "C84", "title": "Answers are routed by their cookies", "statement": "When a program registers cookie matchers for several cookies (alone, or behind MultiMatcher and a TypeMatcher), every received message that carries one of the cookies is given to the handler registered for that cookie, messages with other cookies go to the default handler, and the handler can still read the body; in whatever order the multiplexer tries its entries.", "quantifier": "all sets of cookie matchers of any size, all six message types with cookies, all received bodies (well-formed or not), all orders of iteration over the map, disposable and permanent entries", "why_tests_cant": "The order of iteration over a Go map is random and the outcome depends on it; a test with one matcher passes, a test with two passes some of the time.", "anchors": ["mux.go: ServeMux.Handler, MultiMatcher", "cookie.go: CookieMatcher.Match, NewCookieMatcher", "ofp/packet.go: PacketIn.Cookies", "ofp/flow.go: FlowMod.Cookies, FlowRemoved.Cookies"]}
{"id": "C85", "title": "What has been decoded stays as it is", "statement": "Decoding a message into a variable changes nothing that the program already holds: copies of the variable that it made before, slices of the lists in it, and lists that it decoded earlier into other variables show the same elements as before. The same holds for the slices that the library gives out (ResponseRecorder.All) and for those that it is given (MultiMatcher).", "quantifier": "all memory layouts (any arrays, slices of any length and capacity, any sharing between them), all growth policies of append, all inputs (well-formed or not), any number of decodings in a row", "why_tests_cant": "Whether two slices share an array depends on the capacities that append happened to choose and on the order of the decodings; a test compares a value right after it was decoded, not a copy of it after the next one.", "anchors": ["ofp/table.go: readTablePropXM, readTablePropActions, TablePropInstructions.ReadFrom, TablePropNextTables.ReadFrom", "ofp/port.go: Ports.ReadFrom, Port.ReadFrom, PortMod.ReadFrom", "ofp/instruction.go: Instructions.ReadFrom", "ofp/action.go: Actions.ReadFrom", "ofp/match.go: Match.ReadFrom, XM.readFrom", "ofp/meter.go: MeterBands.ReadFrom", "internal/encoding/encoding.go: ReadSliceFrom, ScanFrom", "mux.go: MultiMatcher", "ofptest/recorder.go: ResponseRecorder.All, ResponseRecorder.Write"]}
{"id": "C86", "title": "What the simple runners guarantee", "statement": "SequentialRunner executes the functions submitted to it one by one: each exactly once, in the order of submission, the next one not before the previous one is done, and Run returns when its function has returned; a function may submit functions to its own runner. OnDemandRoutineRunner executes each submitted function exactly once in its own goroutine, and Run never waits, whatever functions submit.", "quantifier": "all numbers of goroutines that share the runner, all lists of submissions, all functions that submit further functions (to any finite depth), all interleavings", "why_tests_cant": "Order and overlap depend on the scheduler; a test sees one interleaving for one number of goroutines.", "anchors": ["runner.go: SequentialRunner.Run, OnDemandRoutineRunner.Run", "server.go: Server.Serve (HandlerRunner, ConnRunner)"]}
{"id": "C87", "title": "Reads that return nothing change nothing", "statement": "On a transport whose Read sometimes returns no bytes and no error (a TLS connection does so for empty records), Receive delivers the same requests and the same final error as without those reads, however many there are and wherever they fall: in a header, in a body, between messages or before the end of the stream. io.ReadFull and ioutil.ReadAll, which read the fields and the rest of every message, give the same bytes; Receive has no limit after which it gives up. The look-ahead of the list decoders gives the same as long as fewer than 100 such reads come in a row; after 100 it fails with io.ErrNoProgress.", "quantifier": "all byte streams, all schedules of read sizes with any number of empty reads, all final errors, all sequences of serialised requests", "why_tests_cant": "Where the empty reads fall is chosen by the peer and the transport; test readers never return (0, nil).", "anchors": ["request.go: Request.ReadFrom", "net.go: conn.Receive", "header.go: Header.ReadFrom", "internal/encoding/encoding.go: ReadFrom, ScanFrom"]}
{"id": "C88", "title": "One request sent by several goroutines", "statement": "Conn promises that several goroutines may call its methods simultaneously. So goroutines that send requests, on one connection or several, each transmit complete messages: the header of the request, a length field that is the length of the message, and its body, or the call returns the error of the request. This holds for goroutines with requests of their own, and when one request is sent at the same time by several goroutines (the usual broadcast of one request to all switches).", "quantifier": "all numbers of goroutines, all lists of sends, all requests and connections, all interleavings of the accesses to a request", "why_tests_cant": "It depends on how the accesses of goroutines to the length field interleave; a test runs one schedule, and the race detector finds the race but not what the peer receives.", "anchors": ["request.go: Request.WriteTo", "net.go: conn.Send, Conn"]}
{"id": "C89", "title": "One header given to several response writers", "statement": "ResponseWriter.Write transmits one message with the version of the given header (or, if that is 0, the version of the request that is answered), the type and transaction of the header, the length of the message, and the body, or returns the error of the body. It does so also when the header is a variable that has been or is being used for other responses. Nobody waits for ever.", "quantifier": "all numbers of goroutines, all lists of calls, all headers, versions, bodies and ways to share headers and response writers, all interleavings of the accesses", "why_tests_cant": "Tests use a new header for every call; what a second use of the header transmits depends on earlier requests and on the interleaving.", "anchors": ["server.go: response.Write, ResponseWriter, Server.serveReq"]}
{"id": "C90", "title": "Closing the clients of the test server", "statement": "ofptest Server.CloseClientConnections may be called at any time, also while clients connect, any number of times and together with Close: when it returns (and its timer did not fire) every connection that had been tracked when it was called is closed; it closes nothing else, leaves no goroutine behind, does not stop the program, and the server goes on accepting. It always returns.", "quantifier": "all interleavings of accepted connections, state callbacks, calls of CloseClientConnections and Close, their goroutines and timers, with every access to the map of connections a step of its own", "why_tests_cant": "The failures need a client that connects between two statements of the call; a test sees one schedule, and the race detector only the ones that it runs.", "anchors": ["ofptest/server.go:CloseClientConnections", "ofptest/server.go:closeChanConn", "ofptest/server.go:wrap", "ofptest/server.go:Close"]}
{"id": "C91", "title": "What is sent is what the specification says", "statement": "A peer that reads the messages of the library by the structs of OpenFlow 1.3 (the members in the order and the sizes of the specification, lists taken apart at the length members of their entries, padding skipped, matches and actions and instructions and properties told apart by their types) can read every message to the end and gets exactly the values the sender put in, no more and no less; in a stream of messages it finds every message where its header says.", "quantifier": "every message type the library encodes, every value of every field, lists of any length as far as the length members allow, every sequence of messages on a stream", "why_tests_cant": "The tests of the library compare the encoder with byte strings of a few messages, or the encoder with the decoder, which share their mistakes; no test has a reader that does not come from the library, and none runs through all lengths and nestings.", "anchors": ["ofp/flow.go:FlowMod.WriteTo", "ofp/match.go:Match.WriteTo", "ofp/action.go:Actions.WriteTo", "ofp/instruction.go:Instructions.WriteTo", "ofp/group.go:GroupMod.WriteTo", "ofp/meter.go:MeterMod.WriteTo", "ofp/queue.go:QueueGetConfigReply.WriteTo", "ofp/table.go:TableFeatures.WriteTo", "ofp/handshake.go:Hello.WriteTo", "request.go:Request.WriteTo"]}
{"id": "C92", "title": "What a peer sends by the specification is understood as it was meant", "statement": "A message that a peer has put together by the structs of OpenFlow 1.3 is decoded by the library without an error, to its last byte, and the decoded value says what the peer put in: the same numbers, match fields, actions, instructions, strings and data. Bytes that the specification reserves may have any value, and what the receiver held before and what follows the message do not matter.", "quantifier": "every message type the library decodes, every byte string that a reader of the specification accepts, any values of the padding, any previous value of the receiver, any fragmentation of the input, any bytes behind the message", "why_tests_cant": "The tests decode a few byte strings with zero padding that the encoder produces; what an independent peer may send is an infinite set that no encoder of the library enumerates, and the claim is about the agreement of two readers on all of it.", "anchors": ["ofp/flow.go:FlowMod.ReadFrom", "ofp/match.go:Match.ReadFrom", "ofp/action.go:Actions.ReadFrom", "ofp/instruction.go:Instructions.ReadFrom", "ofp/group.go:GroupMod.ReadFrom", "ofp/meter.go:MeterMod.ReadFrom", "ofp/queue.go:QueueGetConfigReply.ReadFrom", "ofp/port.go:Port.ReadFrom", "ofp/packet.go:PacketIn.ReadFrom", "ofp/handshake.go:Hello.ReadFrom"]}
{"id": "C93", "title": "An element's length says where the next one begins", "statement": "In a list of actions or instructions, an element occupies as many bytes as its length field says. If it is longer than the part of it that the library decodes, as an experimenter's action with a body is, the surplus is skipped or reported as an error; it is never decoded as further elements of the list, so that a program does not apply actions that the message does not contain.", "quantifier": "every type of action and instruction, every surplus, every list around it, any fragmentation of the input, any previous value of the receiver", "why_tests_cant": "Every element the tests decode has exactly the length of its struct; the surplus is arbitrary content of a peer, and whether it can pass for something else depends on all decoders of the list.", "anchors": ["ofp/action.go:Actions.ReadFrom", "ofp/action.go:ActionExperimenter.ReadFrom", "ofp/action.go:ActionSetField.ReadFrom", "ofp/instruction.go:Instructions.ReadFrom", "ofp/packet.go:PacketOut.ReadFrom", "internal/encoding/encoding.go:ScanFrom"]}
{"id": "C94", "title": "A program that reads a multipart reply has all its records", "statement": "A program decodes the header of a multipart reply and then calls the decoder of the records on a fresh value until it reports io.EOF. For every body that a switch forms by the specification the program ends without an error, and its list has the records of the body, in order and with their values. A body that ends within a record is reported.", "quantifier": "every type of record, every number of records of any length, every header, any fragmentation of the input, any value the program starts each record from, with and without the check that nothing was read at io.EOF", "why_tests_cant": "Tests decode one record from a buffer that holds exactly it. The loop ends by an error that each decoder passes on from its first read, so the result depends on what every decoder does with an exhausted reader, and on every record taking exactly its length.", "anchors": ["ofp/multipart.go:MultipartReply.ReadFrom", "ofp/flow.go:FlowStats.ReadFrom", "ofp/table.go:TableStats.ReadFrom", "ofp/table.go:TableFeatures.ReadFrom", "ofp/port.go:PortStats.ReadFrom", "ofp/port.go:Ports.ReadFrom", "ofp/queue.go:QueueStats.ReadFrom", "ofp/group.go:GroupStats.ReadFrom", "ofp/group.go:GroupDescStats.ReadFrom", "ofp/meter.go:MeterConfig.ReadFrom", "ofp/meter.go:MeterStats.ReadFrom"]}
{"id": "C95", "title": "A reply in several messages is put together", "statement": "A program calls Receive until it has all parts of the reply to a multipart request: it passes over messages of other types and transactions, decodes the header and the records of each part, and stops after the part without the flag for more. On every stream that a switch forms by the specification it returns exactly the records of the reply, in order and with their values, and the next Receive begins behind the last part.", "quantifier": "every type of record, any number of parts with any number of records, any other messages between them, any transaction, any fragmentation of the stream and anything behind it", "why_tests_cant": "Tests decode single records from single buffers. The result depends on framing, bodies, headers, flags and the ends of bodies together, over streams of any length.", "anchors": ["net.go:conn.Receive", "request.go:Request.ReadFrom", "ofp/multipart.go:MultipartReply.ReadFrom", "ofp/multipart.go:MultipartReplyMode", "ofp/flow.go:FlowStats.ReadFrom", "ofp/table.go:TableStats.ReadFrom", "ofp/port.go:PortStats.ReadFrom", "ofp/group.go:GroupDescStats.ReadFrom", "ofp/meter.go:MeterStats.ReadFrom"]}
{"id": "C96", "title": "Goroutines that decode do not race", "statement": "Goroutines that decode messages, each into a variable of its own and from a reader of its own, have no data race: no two of them access the same memory, one of them storing to it, without synchronisation. The default runner handles every request on a goroutine of its own, and each handler decodes the body of its request.", "quantifier": "any number of goroutines, every decoder with padding, any receivers, streams and fragmentations, every order of execution", "why_tests_cant": "Tests decode on one goroutine. A race detector reports only the accesses of the executions it sees; whether two decoders have memory in common depends on which padding they reach.", "anchors": ["ofp/pad.go:defaultPad4", "ofp/packet.go:PacketIn.ReadFrom", "ofp/multipart.go:MultipartReply.ReadFrom", "ofp/switch.go:SwitchFeatures.ReadFrom", "ofp/port.go:PortStatus.ReadFrom", "ofp/port.go:Port.ReadFrom", "ofp/table.go:TableMod.ReadFrom", "internal/encoding/encoding.go:ReadFrom", "server.go:Server.Serve"]}
{"id": "C97", "title": "Handlers may look at the results of their writes", "statement": "A handler that decides on its next write when the last one has returned, for instance because that one failed, is served like one that has made up its mind before: as long as the transport has not failed its writes return nil (or, for a message that cannot be serialised, the error of that message), so that it does what it does when nothing fails, and the peer gets the messages of that, with a sequential runner complete and in the order of the requests. After the first write that fails nothing more is sent on the connection, whatever this handler and the others try then: the peer has a beginning of what it would have got had nothing failed. Serving ends in every execution, whatever fails and whatever the handlers do about it: there is no infinite execution, and where an execution cannot go on the connection is closed and all handlers have returned. A connection whose transport does not fail gets to the end of its stream. What is received and handed to the runner does not depend on the handlers at all.", "quantifier": "all handlers that look at the results of their own writes (trees of any size), for what is received also handlers that look at anything else, all runners, all streams and fragmentations, all schedules, all moments at which the transport fails", "why_tests_cant": "The handler can take a different path for every error at every write, and errors come at any byte of any message in any schedule; a test with a fake connection fails one chosen write and does not see what the buffer, the sticky error of bufio.Writer and the other handlers do with the writes after it.", "anchors": ["server.go: Server.serveReq, response.Write, Server.serve", "net.go: conn.Write, conn.Flush, conn.forceWrite, conn.Send", "runner.go: SequentialRunner, OnDemandRoutineRunner"]}
{"id": "C98", "title": "A cookie matcher may be used by several goroutines", "statement": "A CookieMatcher is safe for concurrent use, as its documentation says: goroutines that call Match of one matcher, each with a request of its own, have no data race. A multiplexer calls the matchers on the goroutines of all requests of all connections.", "quantifier": "any number of goroutines, every jar type of package ofp, any cookies and requests (received ones and those of NewRequest), every order of execution", "why_tests_cant": "Tests match one request after the other; a race is a property of all interleavings, and it is hidden in a decoder that the matcher only calls through reflection.", "anchors": ["cookie.go:CookieMatcher", "cookie.go:CookieMatcher.Match", "cookie.go:CookieReaderOf", "ofp/pad.go:defaultPad2", "ofp/packet.go:PacketIn.ReadFrom", "ofp/flow.go:FlowRemoved.ReadFrom", "mux.go:ServeMux.Handler"]}
{"id": "C99", "title": "Listening and dialling fail cleanly", "statement": "ListenAndServe returns only with an error: that of Listen, and then there is no listener, or that of Accept, after the listener was closed exactly once; until then it runs. A server uses DefaultMux and OnDemandRoutineRunner for the fields that are nil. Dial, DialTLS and Listener.Accept return an error exactly when package net does, otherwise a connection that delivers what the peer sends from the first byte on and sends nothing of its own. The test server listens on the first loopback address that is available and panics only if there is none.", "quantifier": "all results of package net, all sequences of Accept, all limits and runners, all interleavings of the connections with the accept loop, all messages and fragmentations", "why_tests_cant": "Tests listen on addresses that work, and no test waits for a server that must not return.", "anchors": ["server.go:Server.ListenAndServe", "server.go:ListenAndServe", "server.go:Server.Serve", "net.go:Dial", "net.go:DialTLS", "net.go:Listen", "net.go:listener.Accept", "net.go:newConn", "ofptest/server.go:newLocalListener"]}
{"id": "C100", "title": "ReadTimeout disconnects slow peers and no others", "statement": "A server with ReadTimeout d closes a connection when the peer has been without a complete message for d since the last one was taken (or since the connection was accepted), neither earlier nor later, however many bytes of the next message trickle in meanwhile; all messages that were complete before that are given to the handlers, each at the moment at which it is complete. A peer that sends some message (an echo request, say) within every d keeps its connection. Handlers that take long do not cost a peer its connection. Without ReadTimeout no peer is disconnected for being slow. A header that declares less than its own size closes the connection at the moment at which it is complete.", "quantifier": "all timeouts, all streams of messages of any number and size, all ways to cut them into chunks and all arrival times, all fragmentations by the transport, all durations of handlers", "why_tests_cant": "Tests of timeouts wait for one of them with a margin; they cannot try all arrival times, and a deadline that is set per read instead of per message, or that a slow handler eats up, looks the same in them.", "anchors": ["server.go:Server.ReadTimeout", "server.go:Server.serve", "server.go:receiver.receive", "net.go:conn.Receive", "net.go:conn.SetReadDeadline"]}
{"id": "C101", "title": "Registering by type works the same everywhere", "statement": "Handle, HandleOnce and HandleFunc of the package, the methods of DefaultMux and of any other TypeMux behave as a table of handlers per multiplexer: a message is served by the handler of its type, a handler registered by HandleOnce for one message, nobody's message by DefaultHandler; what is registered in one multiplexer has no effect on others; results do not depend on the iteration order of maps. A TypeMux may itself be a handler of another one, which then behaves as if asked directly. Multiplexers that are registered in a circle never return.", "quantifier": "all sequences of registrations, lookups and served messages on any number of multiplexers, all handlers, all nestings, all iteration orders, every DefaultHandler", "why_tests_cant": "Tests register a few handlers in a fresh multiplexer; the map is iterated in one order per run, and histories that mix registrations, disposable handlers and nested multiplexers are unbounded.", "anchors": ["mux.go:TypeMux", "mux.go:DefaultMux", "mux.go:Handle", "mux.go:HandleOnce", "mux.go:HandleFunc", "mux.go:ServeMux.Serve", "server.go:HandlerFunc.Serve"]}
{"id": "C102", "title": "Silent peers do not occupy a limited server", "statement": "With MaxConns m and ReadTimeout d, a peer that connects and never sends a whole message keeps its place for d and no longer: whoever connects is served if fewer than m of the earlier peers have come within the last d or are still sending. Peers that send promptly keep their places, and whoever comes while m of them are connected is refused. Without ReadTimeout the first m peers that stay connected keep all others out for ever, even if they send nothing.", "quantifier": "every limit below 2^31, all timeouts, any number of peers, all arrival times of connections and of their bytes, all fragmentations", "why_tests_cant": "Tests of the limit open one connection more than the limit at once; whether places come back after timeouts, for all patterns of arrivals, needs unbounded histories with time.", "anchors": ["server.go:Server.MaxConns", "server.go:Server.ReadTimeout", "server.go:Server.accept", "server.go:Server.serve"]}
{"id": "C103", "title": "When a peer hangs up, its connection is closed and its place given back", "statement": "When the peer of a served connection closes it, or the connection breaks, the server closes its end at that moment, or as soon as its loop has got rid of the requests that had arrived before, with or without ReadTimeout and also in the middle of a message; a server never keeps a connection for longer. Every message that was complete before the hang-up is given to the runner, at the moment at which it was complete if the loop is free. The place is given back: with MaxConns m and no ReadTimeout a caller is refused only if m of the earlier callers have not hung up, and served only if fewer have not.", "quantifier": "all streams of messages, all arrival times and fragmentations, all times of the hang-up and errors of the transport, all durations of handlers, all timeouts, any number of callers, every limit below 2^31", "why_tests_cant": "Tests close one connection and look at the state afterwards. That no pattern of partial messages, timeouts, slow handlers and hang-ups keeps a connection or its place, or loses a complete message, needs unbounded histories with time.", "anchors": ["server.go:receiver.receive", "server.go:Server.serve", "server.go:Server.accept", "net.go:conn.Receive"]}
{"id": "C104", "title": "A peer that stops reading does not keep its connection", "statement": "If the handlers answer requests and the peer does not read the answers, the server still closes the connection when ReadTimeout has passed since the last complete message, and gives the requests that arrive until then to the runner as if the answers were read. Answers that the peer has room for are written. Violated with a SequentialRunner: the loop waits for the handler, whose write has no deadline, and the connection is never closed, whatever ReadTimeout and WriteTimeout are.", "quantifier": "all streams of messages, all arrival times and fragmentations, all answers that can be serialised, all numbers of bytes that the peer takes, all timeouts, both runners", "why_tests_cant": "A test cannot wait for ever, so it cannot tell a connection that is never closed from a slow one, and it cannot try every number of bytes a peer takes before it stops reading.", "anchors": ["server.go:Server.serve", "server.go:response.Write", "net.go:conn.forceWrite", "runner.go:SequentialRunner", "runner.go:OnDemandRoutineRunner"]}
{"id": "C105", "title": "Peers that share a multiplexer do not disturb each other", "statement": "What can happen to the messages of one connection (which handlers they are given to, and whether their handlers are reached at all) does not depend on what the peers of the other connections send, also if a matcher panics on one of their messages. True of multiplexers whose entries are permanent. Violated by entries made with HandleOnce: they serve whoever comes first, so that another peer can take the handler that waits for a message of this one.", "quantifier": "all sets of entries, all matchers (also such that panic or change the request), all numbers of connections and messages, all messages of the others, all interleavings, handlers that dispatch again", "why_tests_cant": "This compares all executions with some messages of the others to all executions with other messages of the others: a test sees single executions, and no number of them shows that one peer's messages leave no trace in another's.", "anchors": ["mux.go:ServeMux.Handler", "mux.go:ServeMux.Serve", "mux.go:ServeMux.HandleOnce"]}
{"id": "C106", "title": "A slow handler holds back its peer", "statement": "What a server has taken from a peer and not handled yet is bounded, whatever the peer sends and however long the handlers take; the rest stays with the transport, whose flow control stops the peer. With a sequential runner at most two requests and one buffer of 4096 bytes have been taken beyond those that have been handled; with worker pools at most one request for each worker and one for each place in the queue, for all connections together. Violated by the default runner, which starts a goroutine for each request: all the messages of a stream, of any number, can be in memory with not one of them handled.", "quantifier": "all streams and segmentations, all handlers and durations, all interleavings; for pools all sizes, numbers of connections and limits", "why_tests_cant": "The bound is about the worst interleaving of receiver, serve loop and handlers, for streams of any length; a test that sends a thousand messages sees one schedule and no bound.", "anchors": ["server.go:receiver.receive", "server.go:Server.serve", "runner.go:SequentialRunner.Run", "runner.go:OnDemandRoutineRunner.Run", "runner.go:MultiRoutineRunner.Run", "net.go:conn.Receive"]}
{"id": "C107", "title": "Two programs that answer each other do not block each other", "statement": "Two programs that use the library, each sending messages of its own and answering those of the other over a connection with limited buffers, get all their messages and answers through. True if one of the two uses the default runner, or answers nothing. Violated if both use a runner with a limit (SequentialRunner, MultiRoutineRunner with any number of workers) and each answers some message of the other: then, however large limits and buffers are, there are conversations in which both wait for ever for the other to read.", "quantifier": "all messages and answers (of any number and size), all buffer sizes, all limits, all interleavings", "why_tests_cant": "Whether the two block depends on the schedule and on how much is under way; a test with some messages stays below the limits of its buffers, and no number of tests covers all buffers and conversations.", "anchors": ["server.go:receiver.receive", "server.go:Server.serve", "server.go:Server.serveReq", "runner.go:SequentialRunner.Run", "runner.go:OnDemandRoutineRunner.Run", "runner.go:MultiRoutineRunner.Run", "net.go:conn.Write", "net.go:conn.Flush", "net.go:conn.forceWrite"]}
{"id": "C108", "title": "A handler may wait for the reply to a request of its own", "statement": "A handler that registers for a reply with HandleOnce, sends a request to the peer and waits until the reply has been handled goes on when the reply has come, and all requests of the connection are handled, each once. True with the default runner, and with a MultiRoutineRunner that has more workers than there are handlers that wait. Violated with SequentialRunner: the handler waits for ever, and no later request is handled in any execution. Violated with a MultiRoutineRunner of n workers as soon as n handlers wait: there are executions in which all workers wait for ever.", "quantifier": "all sequences of requests, any set of handlers that wait, all numbers of workers, all interleavings with the peer's answers", "why_tests_cant": "With a pool the outcome depends on how many handlers wait at the same time, so on the schedule; a test with one waiting handler passes. That the default runner never blocks is a claim about all schedules.", "anchors": ["server.go:Server.serve", "server.go:Server.serveReq", "runner.go:SequentialRunner.Run", "runner.go:OnDemandRoutineRunner.Run", "runner.go:MultiRoutineRunner.Run", "mux.go:ServeMux.HandleOnce", "header.go:TransactionMatcher"]}
{"id": "C109", "title": "A barrier is answered after everything before it", "statement": "When a program that uses the library answers a barrier request, the peer has already been given the answers to everything it sent before the barrier. True with SequentialRunner, at any time and whatever the program sends unasked in between. Violated with the default runner, for all messages and buffers, and with a MultiRoutineRunner of two or more workers: the answer to the barrier can overtake answers to earlier requests.", "quantifier": "all conversations, messages, answers (any number for each message), buffers, interleavings and points in time", "why_tests_cant": "A barrier that is overtaken depends on the schedule of handlers; a test sees one schedule, usually the one in which handlers finish in the order they were started.", "anchors": ["server.go:Server.serve", "server.go:Server.serveReq", "server.go:response.Write", "runner.go:SequentialRunner.Run", "runner.go:OnDemandRoutineRunner.Run", "runner.go:MultiRoutineRunner.Run", "net.go:conn.forceWrite"]}
{"id": "C110", "title": "Parts of the user's own types", "statement": "Action, Instruction, MeterBand, QueueProp, TableProp and HelloElem are interfaces, so a message can hold values of the user's own types. If all parts of a message can be encoded, WriteTo writes the bytes of each part, in order, between the fields of the message and under a length field that counts them, and returns the number of bytes. If a part cannot be encoded, WriteTo returns the error of the first such part, zero, and has written nothing; and Send or ResponseWriter.Write with such a message return that error and leave the connection as it was. Violated by GroupMod, which has written its header and the buckets before the one that fails, and by MeterBands written by themselves; the statement about the connection holds for these too.", "quantifier": "all messages with lists of parts, all parts whatever their WriteTo writes, counts or returns, all connections", "why_tests_cant": "The parts of the package cannot fail to be encoded, so no test takes the error returns; user types are not known to the tests.", "anchors": ["ofp/action.go:Actions.bytes", "ofp/action.go:Actions.WriteTo", "ofp/instruction.go:Instructions.WriteTo", "ofp/instruction.go:writeInstructionActions", "ofp/flow.go:FlowMod.WriteTo", "ofp/flow.go:FlowStats.WriteTo", "ofp/group.go:Bucket.WriteTo", "ofp/group.go:GroupMod.WriteTo", "ofp/group.go:GroupDescStats.WriteTo", "ofp/packet.go:PacketOut.WriteTo", "ofp/meter.go:MeterBands.WriteTo", "ofp/meter.go:MeterMod.WriteTo", "ofp/handshake.go:HelloElems.WriteTo", "ofp/queue.go:PacketQueue.WriteTo", "ofp/table.go:TableFeatures.WriteTo", "net.go:conn.Send", "server.go:response.Write"]}
{"id": "C111", "title": "What a passed table test says", "statement": "A message type whose table passes encodingtest.RunMU encodes every value of the table as the bytes beside it, and decodes these bytes, with a new receiver, as that value. True if what is decoded does not depend on the receiver. Violated otherwise: the test decodes into the value that it expects, so that a decoder that stores nothing passes, and the tables of nine messages of the package (GroupMod, GroupStats, GroupDescStats, MeterMod, MeterConfig, MeterStats, PacketQueue, QueueGetConfigReply, Hello) pass for all values although the lists in them are never decoded.", "quantifier": "all tables, all encoders and decoders, all values of the nine messages, whatever gob does with them", "why_tests_cant": "It is about the tests themselves.", "anchors": ["internal/encodingtest/runner.go:RunM", "internal/encodingtest/runner.go:RunU", "internal/encodingtest/runner.go:RunMU"]}
{"id": "C112", "title": "A request shows its message as it is when it is used", "statement": "A request made by NewRequest refers to the message it was given. Whatever was done before, sending it puts on the wire the header and the message as they are now; all the reads from its body together give the encoding of one message, the one at the first read, never a mixture. Violated: after the first Read, also one of no bytes, later reads show the old message while a send sends the new one; and once a cookie matcher looked at the request a changed message is never sent, the old one is sent once, and after that bare headers.", "quantifier": "all message types with a deterministic encoder, all sequences of changes of the message and the header, sends, reads of any sizes, and matchers", "why_tests_cant": "The tests send or read a fresh request once; sequences of changes and uses are unbounded.", "anchors": ["request.go:NewRequest", "request.go:copyReader.Read", "request.go:copyReader.WriteTo", "request.go:Request.WriteTo", "cookie.go:CookieMatcher.Match"]}
{"id": "C113", "title": "A request can be read into again", "statement": "A program that reads all the messages of a stream into one Request with ReadFrom sees the same requests, the same error and the same rest of the stream as one that calls Conn.Receive, whatever it does to the request in between; and a read that fails leaves no mixture of two messages. The first holds. The second is violated: a stream that ends inside a body leaves the new header with the old body and the old ContentLength, and the request, sent on, is a message that nobody sent.", "quantifier": "all streams with every fragmentation and fault, all numbers of reads, everything a program may do to the request between two reads, all headers, old bodies and cut-off bodies", "why_tests_cant": "The tests read one message into a new request.", "anchors": ["request.go:Request.ReadFrom", "net.go:conn.Receive"]}
{"id": "C114", "title": "What the flow helpers do to a switch", "statement": "Sent to a switch that follows the OpenFlow 1.3 specification, TableFlush(t) removes exactly the entries of table t (all entries for TableAll), FlowFlush(t, m) exactly those of them that are at least as specific as m, and FlowDrop(t) makes the switch drop the packets that no other entry of table t matches, and changes nothing else; TableFlush and then FlowDrop drop every packet that comes to the table. Any other FlowMod that adds leaves the entry with its table, priority, cookie, match and instructions, and any that deletes removes exactly the entries that its table, match, output port, output group and cookie select; a sequence of them sent over one connection has these effects one after another. A message of NewFlowMod(c, nil) to which the user assigned the rest is accepted too. The last is violated: its match has the deprecated type 0, and every switch refuses it.", "quantifier": "all tables, matches, contents of the flow tables, packets, and all ways in which a switch may compare matches", "why_tests_cant": "The tests compare the encoded bytes of a few messages; what they do depends on the contents of the switch.", "anchors": ["ofputil/flow.go:TableFlush", "ofputil/flow.go:FlowFlush", "ofputil/flow.go:FlowDrop", "ofp/flow.go:NewFlowMod", "ofp/flow.go:FlowMod"]}
{"id": "C115", "title": "A controller is told of the events it asked for", "statement": "A controller sends AsyncConfig messages whose masks are made by Bitmap64, PacketInReasonBitmap, PortReasonBitmap and FlowReasonBitmap, and RoleRequest messages, to a switch that follows the OpenFlow 1.3 specification. From the first configuration on it is told of exactly the events whose reasons are among those it last gave to the bitmap function of that kind, for the role (first argument of Bitmap64: equal or master, second: slave) that it has when they happen; a stale role request changes nothing.", "quantifier": "all lists of reasons, all sequences of configurations, role requests and events (reasons below 32), all earlier states of the switch", "why_tests_cant": "The tests compare a few bitmaps and the bytes of one message each; the effect depends on the history of configurations and roles.", "anchors": ["ofputil/bitmap.go:Bitmap64", "ofputil/bitmap.go:PacketInReasonBitmap", "ofputil/bitmap.go:PortReasonBitmap", "ofputil/bitmap.go:FlowReasonBitmap", "ofp/handshake.go:AsyncConfig", "ofp/handshake.go:RoleRequest", "request.go:NewRequest"]}
{"id": "C116", "title": "Match fields select the packets that they name", "statement": "A FlowMod that adds an entry with a match of extensible fields, with or without masks, and a priority above the others of its table, sent to a switch that follows the OpenFlow 1.3 specification, handles exactly the packets that have all the values named (in the bits of the masks); all other packets are handled as before. MatchInPort, MatchEthType, MatchIPProto, MatchICMPv6Type and MatchIPv6ExtHeader name the header fields they are called after. FlowFlush(t, m) removes the entries of the table that have the fields of m among theirs, and none that matched a packet without the values that m names.", "quantifier": "all lists of fields that the wire format can represent, all packets, all contents of the flow tables", "why_tests_cant": "The tests compare the bytes of a few fields; which packets an entry selects is a statement over all packets.", "anchors": ["ofputil/match.go:MatchInPort", "ofputil/match.go:MatchEthType", "ofputil/match.go:MatchIPProto", "ofputil/match.go:MatchICMPv6Type", "ofputil/match.go:MatchIPv6ExtHeader", "ofputil/flow.go:FlowFlush", "ofp/match.go:XM.WriteTo", "ofp/match.go:Match.WriteTo", "ofp/flow.go:FlowMod"]}
{"id": "C117", "title": "Instructions send packets where the helpers say", "statement": "In a switch that follows the OpenFlow 1.3 specification, an entry with ActionsApply(as...) sends a packet to all ports of the output actions of as, in their order; one with ActionsWrite(as...) to the port of the last output action only, or, if as has none, where earlier tables said; one with ActionsClear() nowhere; the order in which the three are put together does not matter. A FlowMod with a match and ActionsApply(as...) therefore sends exactly the packets that have the values named to the ports of as, and in table 0 it leaves the way of all other packets through the tables as it was; after TableFlush(0) and FlowDrop(0) no packet is sent anywhere. An entry without instructions, as that of FlowDrop, sends nowhere a packet for which earlier tables wrote no actions.", "quantifier": "all lists of valid actions, all action sets that a packet may come with (without groups for ActionsWrite), all packets, matches and contents of the tables", "why_tests_cant": "The tests compare the bytes of a few instructions; what they do depends on the packet's action set and on the other instructions.", "anchors": ["ofputil/actions.go:ActionsApply", "ofputil/actions.go:ActionsWrite", "ofputil/actions.go:ActionsClear", "ofp/instruction.go:Instructions.WriteTo", "ofp/action.go:ActionOutput", "ofputil/flow.go:FlowDrop"]}
