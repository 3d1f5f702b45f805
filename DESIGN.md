# Formal model of netrack/openflow in Lean 4

The code in `/repo` (Go, ~6k lines without tests) is read as text and modelled by
hand, function by function, in `/verif/lean/Verif`. Nothing in `/repo` is executed.

## 1. Modelling decisions

* **Bytes** are `List UInt8`; Go integers are `UInt8/16/32/64` (wrapping arithmetic
  exactly as in Go). Go slices are Lean lists; `nil` and empty slices are identified
  unless the code distinguishes them (noted at the definition).
* **Errors are values** of one type `Err`; a Go `panic` is the error value
  `Err.panic`, which no modelled function recovers from.
* **Readers.** `io.Reader` is an inductive type `Rd` with the three readers the code
  builds: a base source (bytes, an adversarial *schedule* of read sizes, a final
  error, and a flag saying whether the final error is returned together with the
  last bytes), `io.LimitedReader`, and `bufio.Reader` (4096 byte buffer, pending
  error, read-ahead). `Rd.read` follows the standard library source. So every
  decoding theorem quantifies over all fragmentations of the input.
  Simplification: a base source never returns `(0, nil)`. Verif/Empty.lean has readers that do,
  and C87 shows that `Receive` and the reading primitives do not notice.
* **Decoders** (`ReadFrom` methods) are functions
  `σ → Rd → Out σ` returning the mutated receiver, the reported count, the error and
  the reader afterwards, i.e. also the partially decoded value on errors. Loops
  whose termination is not structural carry fuel computed from the input; separate
  theorems show the fuel is never exhausted.
* **Encoders** (`WriteTo` methods) return the bytes written, the reported count and
  the error.
* **Concurrency** (connection mutex, mux, server, runner) is modelled by small-step
  transition systems; theorems are invariants by induction over all reachable states
  or all traces.
* The Go standard library (`bytes`, `bufio`, `io`, `encoding/binary`, `sync`,
  channels, maps) is modelled from its documented/source behaviour, and is part of
  the trusted base.

## 2. Trusted base

* Lean 4.33.0 kernel; axioms: at most `propext`, `Classical.choice`, `Quot.sound`.
  `Verif/Axioms.lean` makes the build fail if any theorem of the model depends on another
  axiom; `AXIOMS.md` lists the axioms of each theorem. No axioms are added, no `sorry`,
  `native_decide`, `bv_decide`, `implemented_by` or `unsafe` is used. `decide +kernel` is
  used for concrete witnesses and for the replayed test vectors only.
* The correspondence between the Go text and the Lean definitions (each definition
  cites file and lines); no extraction is used. `Verif/Replay.lean` replays the 85 byte
  vectors of the unit tests in ofp/*_test.go against the model, with the receiver that
  `encodingtest.RunMU` uses, to catch transcription errors; `Verif/ReplayCore.lean` does the same for the tests of
  packages openflow and ofputil that start no goroutines. These are tests, not proofs.
* The model of the standard library, see section 5.
* For C81, C82, C91 to C95, C116 and C117: `Verif/Spec/*.lean`, the numbers and the structs of OpenFlow 1.3. For
  C114 to C117: `Verif/Switch`, `Verif/Async`, `Verif/Oxm` and `Verif/Pipe`, the behaviour of a switch. The text of
  the specification is neither in /repo nor in the sandbox in which this was written: these files were written
  from knowledge of OpenFlow 1.3, the section numbers in them were not looked up, and that they say what the
  specification says has to be checked by reading them against it.

## 3. Plan per property

| id | modelled | proof method |
|----|----------|--------------|
| C01 | Header.WriteTo/ReadFrom | layout at byte offsets + round trip over all readers |
| C02 | Request.WriteTo with header, body kinds | case analysis on body result; boundary 65527 |
| C03 | conn.Receive over bufio over source | induction over the list of requests |
| C04 | Request.ReadFrom | case analysis on stream content |
| C05 | Request.ReadFrom body loop, final error together with data | counterexample + partial |
| C06 | copyReader / bytes.Buffer bodies | induction on k; counterexample for received requests |
| C07 | copyReader.Read/init | counterexample + partial |
| C08 | encoding.WriteTo | induction on parts |
| C09 | mutex + byte-granular buffer copy, any number of goroutines | invariant over all interleavings |
| C10 | bufio.Writer over failing sink | invariant over operation sequences |
| C11 | Send | counterexample + partial |
| C12 | response.Write | exact framing; wrap-around counterexample |
| C13 | ServeMux as finite map + arbitrary iteration order | all orders |
| C14 | two-phase dispatch, transition system | invariant; ABA counterexample |
| C15 | ServeMux.handle | case analysis, all histories |
| C16 | TypeMux | all orders |
| C17 | MultiMatcher, TypeMatcher, TransactionMatcher | induction; a witness for cookie matchers |
| C18,C19 | CookieMatcher.Match with buffer / other bodies | decision theorem; counterexample |
| C20,C21,C55 | Server transition system: accept loops, serve loops, receivers, handlers | invariants, trace grammar; counterexamples |
| C22 | receiver + serve loop | refinement to queue |
| C23 | MultiRoutineRunner transition system | invariants + progress |
| C24–C29 | ofp match/action/instruction/flow/packet | round trip over all readers, layout offsets |
| C30 | all fixed-size messages | generic flat-record lemmas |
| C31–C34 | group/meter/queue/hello | loss theorems (the code violates the property) + partial round trips of the elements |
| C35 | version bitmap | exact result of decode(encode), parity |
| C36 | table properties, TableFeatures | round trips, counterexamples |
| C37 | ports | round trips; PortMod counterexample |
| C38 | description, names | exact pad/truncate result |
| C39 | type maps | unknown-type theorem; exact condition for a panic (`PanicIff` rules for every combinator, then induction on the list of actions); total decoding everywhere else |
| C40 | ScanFrom/ReadFunc | counterexample + partial (mid-field truncation rejected) |
| C41 | all decoders | structural count lemma, fuel sufficiency |
| C42 | all decoders | independence theorems; counterexamples |
| C43 | undersized lengths | counterexamples; wrap-around characterised |
| C44 | bitmaps | induction |
| C45,C46 | handlers composed with response.Write | functional |
| C47 | composition of C02, C03, C28 | composition |
| C48 | constructors | wire offsets |
| C49,C50 | multipart, raw payload | round trip |
| C51 | MeterStats/GroupDescStats | counterexample + partial |
| C52 | two interleaved Receive calls | counterexample + partial (serialised) |
| C53 | Match.Field, XMValue, ofputil match helpers | induction |
| C54 | ResponseRecorder | induction |
| C55 | server transition system | every state of a connection has an enabled step towards Close; in every weakly fair execution a failed, refused or stopped connection is closed |
| C56 | NewRequest, ProtoAtLeast, Request.ReadFrom | arithmetic |
| C57 | ofptest Server.Close as a transition system | invariant; race counterexample |
| C58 | decoders on streams that fail | `Breaks` lemmas for flat records; for the rest `Reads`/`ReadsAll` themselves quantify over streams that break (`Go/Broken.lean`: `Rd.OkB`, `Rd.Ends`), and a complete list is the beginning of a longer one |
| C59 | receiving and sending halves with deadlines and a clock (Verif/Timeout.lean) | arrival times are lists of chunks; timed runs refine untimed runs; counterexamples for all messages |
| C60 | the same | induction over the number of timeouts; counterexample for all messages |
| C61 | `Relay`, `Loose`, the message models | `Relays`: every byte string of the right size, split into its fields; `canon` clears the reserved bytes; `Loose`: a packet diagram with anything in the reserved bytes |
| C62 | `Text` | the texts as Lean strings; equality of texts implies equality of values, for all values of the type |
| C63 | `Stable`, the message models | relational: one receiver, two readers with equal content and equal end, any schedules; same value, count, error, same rest |
| C64 | `MutexLive`: `GoSys` with the machines of `ConnConc` and `RecvConc` | well-founded measure on configurations: the steps left of every program; a configuration without a step is final |
| C65 | Request.ReadFrom, NewRequest, bytes.Buffer.Read | induction over the sizes of the reads; the negation for every non-empty body |
| C66 | `MuxConc`: ServeMux with `sync.RWMutex`, one matcher per step, nested use by handlers, panics of matchers | invariant of the lock; simulation of `MuxSys`; progress; lexicographic measure; the negation after a panic. `Props/MuxNested`: the lock alone, with matchers that use the multiplexer. `MuxRuns`: an account of every dispatch (C13) |
| C67 | `CloseConc`: the connection of `ConnConc` over a transport that takes one byte at a time when the peer is ready, with `Close` at any time | refinement to `ConnConc` (what a call of the transport will do is chosen afterwards); lexicographic measure; invariants of doomed calls |
| C68 | `Served`: the stream, the server's view of one connection (`Server`) and the connection written to (`CloseConc`) as one system | invariants relating the three parts; refinement to running the handlers one after another; well-founded measure; progress in every unfinished state |
| C69, C70 | `Props/Controller`: whole controllers (mux, handlers, connection), the second one from the README | composition of C16, C28, C29, C45, C46 and C68 with the framing theorems of C03 |
| C71 | `Pools`: accept loop, serve loops and handlers as jobs of two worker pools or of one | invariants, decreasing measure, progress; deadlock of the shared pool for every size |
| C72 | `Txn`: goroutines that register, write and wait, on top of the critical sections of the multiplexer | invariant over all interleavings, completion, witnesses for the ways it fails |
| C73 | `Server`: the receiver goroutine of a connection | invariant over all steps; negation for stopped servers, for all continuations and executions |
| C74 | `Props/ControllerAny`: the controllers of C69, C70 and the one documented at ListenAndServe, with any runner | permutation of the answers, from the invariants of C68; negation for every stream |
| C75 | `Props/Duo`: both ends of a connection, each with the model of Receive, the multiplexer and the handlers, and the bytes under way | simulation by lists of messages, weights that every step decreases, invariant number of hellos |
| C76 | `Panics`: the server transition system with panicking handlers and callbacks | invariants; counterexamples over all continuations |
| C77 | decoders; `Spec.Held` measures values, `Pays` is a cost logic over decoding steps | induction over steps and lists; witnesses |
| C78 | encoders; decoders where they restore the message | `Separable`: unique parsing, lists by induction; witnesses for hello messages |
| C79 | `Serve`: one call of `Serve` with its listener, the results of `Accept`, the deferred close and its result, on top of `Server`; connection runner on demand or sequential | invariants; refinement to `Server`; witnesses |
| C80 | the loop of Receive and Send in `Props/Proxy` | induction over the rounds, from C03, C04, C10 |
| C81 | `Consts`: the `const` blocks as written, with Go's `iota`; `Spec/Numbers`: the enumerations of OpenFlow 1.3 | the values of every block are compared with the specification, in the kernel; capabilities: the negation, for every features reply |
| C82 | `Text`, `Consts` | for all values of a type: the table of texts against the block of constants |
| C83 | `Dest`: every encoder against any `io.Writer`, with the number of `Write` calls it makes | case analysis on the destination; induction over lists; witnesses where there are several writes |
| C84 | `Props/CookieMux`: `Mux` with the matchers of `Cookie` | induction over the entries in any order; negation for every set of two or more matchers and every message |
| C85 | `Heap`: the list decoders on a memory of arrays and slices with capacities | `append` and the loops commute with what the program sees; frame lemmas by induction over the appends; simulation of the decoders that read in place; witnesses for shared arrays |
| C86 | `Runners`: goroutines that share a `SequentialRunner` (call stacks) or an `OnDemandRoutineRunner` (a goroutine per function) | invariant with the continuation of every goroutine; permutations of submissions, calls and returns; weights for termination; witnesses for overlap and order |
| C87 | `Empty`: readers whose schedule contains empty reads; `readFull`, `readAll`, `fill`, `Peek(2)`, `Request.ReadFrom`, `Receive` on them | simulation: erasing the empty reads commutes with every primitive; induction on the calls left, which count the empty reads |
| C88 | `Shared`: goroutines in `Request.WriteTo`, every access to the length field a step | invariants over all interleavings (exclusive use; any use); witnesses for a short and a long length and what the peer's `Receive` makes of them |
| C89 | `Shared`: goroutines in `response.Write`, every access to a header's version and length and the lock `bufMu` steps | invariants with lock ownership; witnesses for a stale version and a foreign length |
| C90 | `CloseClients`: any number of calls of CloseClientConnections and Close, every access to the map, every goroutine and channel operation a step | invariant per call that counts notifications; witnesses for an early return, a blocked goroutine and a stopped program |
| C91 | `Spec/Structs`: readers of all messages by the structs of OpenFlow 1.3, independent of the model; `Conforms`: the values a match, action, instruction says | one theorem per message: the reader gets from the output of `WriteTo` the values of the fields; lists by induction over records framed by their lengths; negations for hello bitmaps and table features |
| C92 | the readers of `Spec/Structs` against the decoders | inversion of the readers: what they accept is a packet with arbitrary padding of a value that says the same (`Understood`), and such packets are decoded (C61); negations where the decoder loses or refuses something |
| C93 | lists of actions and instructions against `Spec.records`, which follows the lengths | set-field actions skip any surplus; for every other element type and every list, one record that is decoded as the element and the list |
| C94 | the user's loop as a big-step relation `Collects`, both tests for the end; `Spec.list`, `Spec.array` | induction over the records of the body; `Ports.ReadFrom` is the loop; no derivation exists for meter counters and group descriptions |
| C95 | the user's loop over Receive as a big-step relation `Fetches`; streams and replies by the specification (`ReplyOf`) | induction over the messages, from C92 for streams and C94 for bodies |
| C96 | `Verif/Pads`: decoders paired with their stores to the padding variables; executions are interleavings of stores | which executions race (iff); every execution of two packet-ins does; of all 57 decoders exactly the 20 without padding variables are free of races (`Verif/PadsAll`, `table_race_free_iff`) |
| C97 | `Verif/Adaptive`: handlers as trees over the results of their operations, or as arbitrary relations, in the system of C68 | refinement in both directions to the system of C68 with lists of operations (what has been decided so far is a list; more operations may be appended to a goroutine that has not ended); invariant: after a failure nothing is sent; termination by a well-founded order on what is left to serve, the rests of the handlers (trees, which may branch infinitely, so not by counting) and the work under way |
| C98 | `Verif/PadsMatch`: the decoding of each call of `Match`, with its stores | which matchers race: all but those of removed flows |
| C99 | `Verif/Listen`: `ListenAndServe` around the call of `Serve` of C79, dialling as results of package net | results, by the invariants of C79; streams by C03 and C10 |
| C100 | `Verif/TimedServe`: the loop of `serve` and its receiver over the clock of C59 | induction over the messages, with the bytes held and still to come as invariant |
| C101 | `Verif/Facade`: all multiplexers of a program and the functions that use `DefaultMux` | refinement of tables, both directions |
| C102 | `Verif/TimedAccept`: the accept loop over connections that are served with a clock | induction over the callers, with the times at which the served ones leave as invariant |
| C103 | `Verif/TimedClose`: `serve` with a clock and a peer that hangs up; `Verif/TimedAccept` | induction over the messages with the invariant of C100, induction over the callers |
| C104 | `Verif/TimedReply`: `serve` with a clock, handlers that answer and a peer that takes a limited number of bytes | simulation by the runs of C100, induction over the run; with `Verif/TimedAccept` induction over the callers |
| C105 | `Verif/MuxConc` | simulation between executions with different messages of the others |
| C106 | `Verif/Server`, `Verif/Served`, `Verif/Pools` | invariants: requests received and handled; bytes on the transport, in the buffer and in requests; an execution for every stream |
| C107 | `Verif/Duplex` | progress by cases on who can go on; a measure that pays for bytes and answers; conservation of messages; the order of what was written; refinement of the marks by the bytes and `Receive`; a stuck state for all limits and buffers |
| C108 | `Verif/Await` | invariant: a reply that is waited for is on its way; counting of handlers that wait; a measure; a stuck execution for every pool |
| C109 | `Verif/Duplex`, `Verif/Pools` | invariant: the answers among what was written are a prefix of the answers due; an execution in which the barrier overtakes |
| C110 | `Verif/OwnParts` | decision logic over what arbitrary parts write: all within the frame, or nothing; equality with the encoders of the package's parts |
| C111 | `Verif/EncodingTest` | decision logic of the test runner over all tables and codecs; the nine decoders that lose lists pass for all values |
| C112 | `Verif/Shown` | invariant over all sequences of changes, sends, reads and matchers on one request |
| C113 | `Verif/Reused` | refinement of the loop with one request to the loop over `Conn.Receive`, any stream |
| C114 | `Verif/Switch` | the bytes on the wire interpreted by an abstract switch, for all contents of its tables |
| C115 | `Verif/Async` | refinement: the switch reading bytes against a specification over lists of reasons, induction over the steps |
| C116 | `Verif/Oxm` | the match rules of the specification on the bytes, for all packets and all contents of the tables |
| C117 | `Verif/Pipe` | instructions executed on the bytes by the rules of the specification, for all action sets; invariant of the action set by induction over the actions written |

Where the code does not satisfy a property, the negation is proved on a concrete
witness, and the strongest true variant is proved under a name ending in `_partial`.

## 4. Layout

* `Verif/Go/*`: bytes and integers, errors, readers (standard library).
* `Verif/Encoding.lean`: internal/encoding. `Verif/EncodingSafe`, `Counts`, `Hoare`, `Pays`, `Scan`,
  `SafeOn`, `PanicIff`, `EofOnly`, `Same`, `Fails`, `Cuts*`, `Relay`, `Loose`, `Stable`: helper lemmas about its combinators,
  one module per kind of claim (no panic and termination, counts, triples, lists, untrusted input,
  independence of the receiver, rejection, truncation, relaying, reserved bytes, fragmentation).
* `Verif/Ofp/*`: the messages of package ofp, each with its helper lemmas.
* `Verif/Header`, `Request`, `Conn`, `ConnConc`, `CloseConc`, `Served`, `RecvConc`, `Mutex`, `MutexLive`, `Mux`, `MuxConc`, `MuxRuns`, `Facade`, `Cookie`, `Runner`, `Runners`, `Empty`, `Shared`, `CloseClients`, `Serve`, `Listen`, `Pools`, `Txn`, `Duplex`, `Await`,
  `Server`, `Timeout`, `TimedServe`, `TimedClose`, `TimedReply`, `TimedAccept`, `Text`: package openflow. `Verif/Ofputil`, `Verif/Ofptest`: the helper packages.
* `Verif/Pads`, `PadsAll`, `PadsMatch`: which padding variables of package ofp the decoders store to.
* `Verif/Heap`: slices, capacities and the memory behind them, for the decoders that append or read in place.
* `Verif/Dest`: the encoders writing to any `io.Writer`; the other modules take the destination to be a buffer,
  and `Reaches.buffer` says that this is the special case of a destination that takes everything.
* `Verif/OwnParts`: the encoders of messages whose parts are values of the user's own types.
* `Verif/EncodingTest`: internal/encodingtest, with `gob` any function.
* `Verif/Shown`: a request of `NewRequest` together with the message it refers to, which the
  user may change between uses; the message's encoder depends on the message only.
* `Verif/Reused`: a program that reads a stream into one request.
* `Verif/Switch`: the flow tables of a switch by the specification, the environment of C114 (not code of /repo).
* `Verif/Async`: what a switch keeps of asynchronous configurations and role requests by the specification, the environment of C115 (not code of /repo), and the requests of the controller.
* `Verif/Oxm`: how a switch compares match fields with packets and with each other by the specification, the environment of C116 (not code of /repo).
* `Verif/Pipe`: what a switch does with the instructions of an entry by the specification, the environment of C117 (not code of /repo).
* `Verif/Consts` (the `const` blocks), `Verif/Spec/Numbers.lean` (the enumerations of OpenFlow 1.3, written from
  knowledge of it, part of the trusted base of C81).
* `Verif/Spec/Structs.lean` (the structs of OpenFlow 1.3 as readers, written from knowledge of the specification, part of
  the trusted base of C91 to C95, C116 and C117; imports nothing of the model), `Verif/Conforms` (lemmas for C91), `Verif/Understood`
  and `Verif/UnderstoodTable` (lemmas for C92; `Props/UnderstoodStream` has the part about streams).
* `Verif/Spec/Wire.lean`: the vocabulary of the statements about messages (`At`, `Layout`,
  `Encodes`, `Decodes`, `FixedSize`, `Overwrites`), independent of the encoders.
* `Verif/Props/*`: the property theorems; only these are listed in MANIFEST.json.
* `seeded/LOG.jsonl`: edits of the model and the theorems that failed under each.

## 5. What is modelled and what is not

Modelled: every `WriteTo` and `ReadFrom` of package ofp, internal/encoding (without
`NopReader`/`NopWriter`, which nothing in the repository uses), Header, Request, Conn (Read, Receive,
Write, Flush, forceWrite, Send, Close), Send, response.Write, ServeMux, TypeMux, the matchers,
CookieMatcher, the runners, Server.Serve with accept and serve loops and receivers, ListenAndServe, Dial and
the listeners, ofputil, ofptest.

Simplifications:

* Shared requests and headers (Verif/Shared.lean): accesses are sequentially consistent, a header is copied in
  one step, and serialisers do not interfere. Go promises nothing for such data races, so that the
  negative results are executions of the friendliest machine.
* Base readers never return `(0, nil)`; sinks and sources are otherwise arbitrary. Empty reads are
  modelled for `Receive` and for the primitives the decoders are built of (Verif/Empty.lean, C87), not
  again for each decoder: what `Receive` passes on is a `bytes.Buffer`, which has none.
* Pointers and aliasing: receivers are values, except in Verif/Heap.lean (C85), where slices share
  arrays of one element type; the elements are values there. Where two Go values share memory and the code
  depends on it (bodies that are `*bytes.Buffer`, slices of value receivers, padding globals) the
  definition says so. The padding globals themselves (`defaultPad*`) are modelled in Verif/Pads.lean and Verif/PadsAll.lean only (which of them
  a decoder stores to, C96); no code looks at their content (encoders write fresh `pad*{}` values).
* Mutexes are fair in no sense: safety is claimed, enabledness for progress (C23), and that finite
  programs end (C64, C66, C67), which needs no fairness. C55 has
  theorems about all weakly fair executions (`ConnRun.Fair`); with `SequentialRunner` a stop also
  needs a fair `select` (`ConnRun.SelectFair`).
* Time is modelled for the deadlines of connections only (Verif/Timeout.lean), and for the receiving and accepting loops of a server (Verif/TimedServe.lean, Verif/TimedClose.lean, Verif/TimedReply.lean, Verif/TimedAccept.lean). TLS, addresses and
  logging are not modelled; dialling and listening are results of package net (Verif/Listen.lean). All `String` methods are (Verif/Text.lean); the `fmt` verbs that
  they use are written out.
* C68: what a handler writes is known when it starts (it may depend on the request, on which request
  it is, and, by quantification over all such functions, on anything known by then). C97 is about handlers that
  decide later; there an operation depends on the results of the operations before it, or on anything
  (`May`). Handlers touch the connection they are served on only. The stream is not cut off by `Close`: after it
  the receiver may still return what the peer had sent (more behaviours than the code has).
* C107: a message of the two programs is a sequence of bytes that takes room in a buffer; the handler of a message answers with the messages
  that a function gives, in order, and the messages a program sends by itself are known at the start.
* C108: writing does not block (C104, C107) and the multiplexer finds the handler of the reply (C72); the peer answers
  everything it is asked.
* Panics of user callbacks (handlers, ConnState hooks, matchers) are not modelled except where a
  property mentions them (matchers in C66, handlers and ConnState hooks in C76).
* `reflect`-based construction of list elements (`encoding.ReaderMakerOf`) is modelled by the zero
  value of the element.

## 6. What the code gets wrong

Each entry is proved in the model (theorem in parentheses) unless marked *observed*.

Framing and connections
* A transport that returns its last bytes together with io.EOF loses a body of 4096 bytes or more
  (`receive_with_eof_false`).
* A stream cut after 1, 2 or 4 bytes of a header is reported as a clean io.EOF
  (`receive_truncated_clean_eof`).
* With any runner but the sequential one (also the default) the reply to the last requests of a peer
  that half-closes is lost: the serve loop sees the end of the stream and closes the connection
  while the handlers run (`served_lost_false`).
* Any error of Accept, a temporary one (too many open files) included, ends Serve and closes the
  listener, while the connections it accepted live on (`serve_error_final`,
  `serve_return_keeps_connections`).
* The example in the documentation of ListenAndServe answers with transaction 0 and without the data
  of the request: serveReq stores the transaction in the response, but Write completes the version
  only (`example_transaction_false`).
* HelloHandler answers every hello with a hello: two programs that use it never stop sending hellos
  to each other (`handshake_ends_false`).
* A matcher that uses the multiplexer takes its lock again: if it registers a handler it blocks for
  ever, if it dispatches it blocks when another goroutine registers at that moment
  (`mux_nested_register_false`, `mux_nested_dispatch_false`).
* `Close` does not flush: messages that `Send` accepted may never be sent (`close_flushes_false`).
* A received request can be written once; the second WriteTo sends an empty body
  (`resend_received_false`).
* The first Read of a body made by NewRequest hides the serialisation error (`body_read_error_false`).
* response.Write wraps the 16-bit length (C12); Send leaves the messages before a failing one
  buffered (C11).
* Request.WriteTo reports bytes it has not written when the body fails (`request_count_false`); group
  modifications, meter bands and table properties reach their destination in several writes
  (`groupMod_oneWrite_false`, ...).
* Receive and Read take no lock although Conn promises concurrent use (`receive_concurrent_false`).
* conn.Send sets the write deadline in a deferred call, after the write (net.go:179-183): with
  WriteTimeout set, a response written that long after the last Send fails although the peer reads,
  and the connection cannot be written to any more (`write_idle_false`); the first Send and all
  responses of a server that only answers have no deadline (`write_blocked_false`,
  `responses_no_deadline`).
* A Receive that times out in the middle of a message drops the bytes it has read; repeated, it takes
  the payload for a message (`receive_again_false`).

Mux and cookies
* HandleOnce: a dispatch that holds an entry removes a newer registration of the same matcher, and
  the old handler runs again (`once_false`). The removed entry may be a permanent one.
* HandleFunc accepts a nil function (`mux_handleFunc_nil_false`).
* ServeMux.Handler does not defer RUnlock: a panicking matcher leaves the read lock held; registrations
  and then dispatches hang for ever (`mux_panic_blocks`, `mux_usable_false`).
* A ConnState callback that panics on StateNew leaves the connection open (`panic_new_false`); with a
  sequential handler runner every recovered panic of a handler costs a slot of MaxConns for ever and
  leaves the receiving goroutine behind (`panic_slot_false`).
* TransactionMatcher draws identifiers at random without looking at those in use, and accepts messages
  of any type: a reply can reach the handler of another request (`txn_collision_false`), and a request
  of the peer can be taken for a reply (`txn_foreign_false`).
* `Request.ReadFrom` of a message that is cut off leaves the new header with the body of the message before
  (`reused_failed_false`, C113).
* A flow modification made by `NewFlowMod(c, nil)` is refused by every switch: its match has type 0
  (`switch_newFlowMod_false`, C114).
* A request that was read from once, even with an empty buffer, shows readers the message as it was then,
  while a send shows it as it is (`shown_read_false`, C112); a request that a cookie matcher looked at is cut
  off from its message: changes are not sent, and the second send is a bare header (`shown_match_false`).
* CookieMatcher empties `*bytes.Buffer` bodies, i.e. the bodies of received requests, and panics on a
  nil body (C18, C19). Of several cookie matchers in one multiplexer only the one that is tried first
  can accept (`cookie_mux_first`, `cookie_mux_false`).

Server and runners
* With a SequentialRunner a peer that does not read the answers is never disconnected, whatever the timeouts are, and
  MaxConns such peers lock everyone else out (`reply_deaf_false`, `door_deaf_false`).
* A handler registered with HandleOnce for a message of one peer can be taken by any other peer
  (`mux_isolated_false`).
* With the default runner nothing holds back a peer that sends faster than its requests are handled: any number of
  its requests can be in memory, each with a goroutine (`backlog_default_false`).
* Two programs whose runners have a limit (sequential, or worker pools of any size) and that answer each other can
  block each other for ever, each waiting for the other to read (`duplex_false`).
* A handler that waits for a reply on its own connection waits for ever with `SequentialRunner`
  (`await_sequential_false`), and n of them can block a pool of n workers for ever (`await_pool_false`).
* With the default runner, or a pool of two or more workers, the answer to a barrier request can overtake the answers to
  what was sent before it (`barrier_false`, `pools_reorder`).
* The stop path does not decrement the connection counter; several Serve loops race on MaxConns;
  `int32(MaxConns)` truncates (C20).
* With the on-demand runner StateActive and StateIdle are reported after StateClosed (C21).
* A stopped server leaves the receiving goroutine of every open connection blocked on its channel for
  ever (`receiver_blocks_false`, `receiver_rests_false`), against the comment at server.go:304-306.
* One MultiRoutineRunner for connections and handlers, of whatever size, blocks for ever when as many
  connections as it has workers send two requests each (C71). While that many connections are open
  no request is handled at all.
* SequentialRunner does not keep functions of different goroutines apart ("New function does not start
  execution until the previous one is done"): with it as HandlerRunner, handlers for different
  connections run at the same time. OnDemandRoutineRunner starts any number of functions at once and
  in any order (C86).
* MultiRoutineRunner with two workers calls functions out of order and deadlocks on nested
  submission (C23).
* ofptest Server: a connection tracked while Close runs is never closed (`testServer_close_leaks`);
  CloseClientConnections reads the map, and its size before that, without the lock: if a client connects
  meanwhile it returns before all connections are closed (`closeClients_early_false`), leaves a goroutine
  behind (`closeClients_goroutine_false`), or the runtime stops the program (`closeClients_crash_false`).

Messages
* Value receivers and ReadSliceFrom into locals lose the lists of GroupMod, GroupStats,
  GroupDescStats, MeterMod, MeterConfig, MeterStats, PacketQueue, QueueGetConfigReply and Hello
  (`*_roundtrip_false`, `*_delivered_false`). The unit tests decode into the value they encoded, so
  they cannot notice (`runMU_messages_false`, C111).
* GroupMod writes its header and the buckets before the one that cannot be encoded, MeterBands the bands
  before it (`own_groupMod_false`, `own_meterBands_false`); on a connection nothing is written (C110).
* Instructions and Ports append to the receiver (C42).
* PortMod reads as many address bytes as the receiver already has (C37).
* The version bitmap element appends a zero word to lists of even length (C35).
* Table properties with match fields declare 4 bytes per field but write values and masks; the miss
  flag of experimenter properties is never decoded (C36).
* An action of type 27 (PopPBB) panics while decoding (`actions_panic`); `actions_panic_iff`, `packetOut_panic_iff`,
  `bucket_panic_iff` and `instruction_panic_iff` say exactly which inputs do so.
* ScanFrom and ReadFunc take an io.EOF between two fields of an element for the end of the list, so
  truncated lists are accepted with a half-decoded element (C40).
* A set-field action whose length is smaller than its field ends its list early; the bytes lost with
  the read-ahead buffer of ScanFrom depend on how the stream is cut into reads, and so do the value
  and the count (`packetOut_fragments_false`, C63).
* Lengths smaller than their own header wrap around in uint16 and swallow what follows (C43).
* Lengths larger than the struct are ignored by all actions but set-field and by the instructions without
  actions: the body of an experimenter's action is decoded as further actions, and a packet-out message
  sends a packet where the body says (`actions_surplus_false`, `packetOut_surplus_false`).
* A program that decodes the counters of meters or the descriptions of groups of a multipart reply until
  io.EOF never returns (`meterStats_records_false`, `groupDescStats_records_false`).
* MeterStats and GroupDescStats drop the error of their header: empty input succeeds (C51).
* NewFlowMod(c, nil) uses the deprecated match type 0 (C48).
* Decoders read padding into shared globals (ofp/pad.go:16-24): concurrent decoding is a data race
  (*observed*).

Helpers
* EchoHandler: the next handler sees an emptied body, and runs even when the reply failed (C45).
* ResponseRecorder reports success where the response writer of a connection fails; First and Last of
  an empty recorder panic (C54).
* Wire version 0 is reported as 1.255 (C56).
* The text of a port state with two or more flags is "link up", also when the link is down
  (`portState_text_false`); the experimenter match class prints as "XMClassExperimeter".
* `CapabilityQueueStats` has the number of OFPC_IP_REASM, and `CapabilityIPReasm` a number that is not used:
  a controller that tests for queue statistics is told whether the switch reassembles fragments
  (`capability_numbers_false`, `capability_test_false`).

Shared values (C88, C89)
* `Conn.Send` computes the length in the request itself, without a lock: a request with a body that two
  goroutines send at the same time goes out with a length of 8, or with the size of its body counted twice,
  and the peer loses the framing (`shared_send_short_false`, `shared_send_long_false`).
* `response.Write` stores the version and the length in the caller's header: a header that is used again
  carries the version of the first request (`reply_version_false`), and one that is used by two handlers
  at once the length of the other message (`reply_length_false`).

Shared memory (C85)
* Table properties decode into the array of the list that they hold: a copy of the list shows the
  elements of the next message (`table_codes_false`, `table_fields_false`).
* Two copies of a list of ports or instructions that are both decoded into overwrite each other
  (`instructions_copies_false`).
* Meter bands, queue properties, hello elements, buckets, queues and counters are lost to the caller,
  but are written into the array behind its slice (`meterBands_leaves_false`,
  `bucketCounters_leaves_false`).
* A port modification reads its address into the array of the address before (`portMod_copy_false`).
* `MultiMatcher(ms...)` keeps the caller's slice (`multi_matcher_false`), and messages appended to the
  result of `ResponseRecorder.All` are overwritten by the recorder (`recorder_append_lost`).

Races (C96)
* Decoders throw padding away by reading it into package variables, one for each size and without a lock:
  two handlers that decode packet-ins on goroutines of their own, as with the default runner, race in every
  execution (`packetIns_race_false`, `decoding_race_free_false`). Results are not affected, but the race
  detector reports every such program. `TableMod` does it right (`&pad3{}`). 37 of the 57 decoders are affected
  (`table_race_free_iff`). Cookie matchers, documented as safe for concurrent use, race for the same reason
  (`packetIn_match_race_free_false`, C98).
