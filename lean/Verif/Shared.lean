import Verif.Request

/-!
# request.go, server.go: values that several goroutines send at the same time

`Request.WriteTo` and `response.Write` store into the request or header they are given.  Here are
their steps on a variable that other goroutines use too.  Every access to a field of the header is a
step of its own; accesses are sequentially consistent (Go promises less to programs with data races).
-/

namespace Verif

/-- `f` with another value at `i`. -/
def setAt {α : Type} (f : Nat → α) (i : Nat) (v : α) : Nat → α := fun j => if j = i then v else f j

@[simp] theorem setAt_same {α : Type} (f : Nat → α) (i : Nat) (v : α) : setAt f i v i = v := by simp [setAt]

theorem setAt_other {α : Type} (f : Nat → α) {i j : Nat} (v : α) (h : j ≠ i) : setAt f i v j = f j := by
  simp [setAt, h]

/-! ## Requests -/

/-- The body of a request: nil, a serialiser that produces `b` whenever it is called, or one that fails.
Simplification: serialisers do not interfere with each other. -/
inductive Payload where
  | nil
  | bytes (b : Bytes)
  | fails (e : Err)
  deriving DecidableEq, Repr

/-- The request variables of a program, by number: their headers at the beginning, and their bodies. -/
structure SendEnv where
  hdr : Nat → Header
  body : Nat → Payload

/-- The request variable as a value, as `NewRequest` makes it (request.go:105-116) for any header, or without
a body. -/
def SendEnv.request (E : SendEnv) (x : Nat) : Request :=
  ⟨E.hdr x, match E.body x with
    | .nil => .nil
    | .bytes b => .copy ⟨some fun _ => ⟨b, b.length, none⟩, 0, [], none, false⟩
    | .fails e => .copy ⟨some fun _ => ⟨[], 0, some e⟩, 0, [], none, false⟩, 1, 3, 0⟩

/-- Where a goroutine is in `Request.WriteTo`: outside; behind `r.Header.Length = headerlen`; between the
load and the store of `r.Header.Length += uint16(buf.Len())`; behind it; about to call `Write` of the
connection with `m`. -/
inductive SendPc where
  | idle
  | set
  | loaded (v : UInt16)
  | stored
  | copied (m : Bytes)
  deriving DecidableEq, Repr

/-- A `Conn.Send` that has come to its end: the goroutine, the request, the connection, and the error or
the bytes given to `Conn.Write`, which takes them as one piece (C09). -/
structure SendEv where
  go : Nat
  var : Nat
  conn : Nat
  res : Except Err Bytes

/-- Goroutines that send requests: `r.Header.Length` of each request variable, the goroutines with
what they still have to send (request, connection), and what has been sent. -/
structure SendSys where
  len : Nat → UInt16
  pc : Nat → SendPc
  todo : Nat → List (Nat × Nat)
  log : List SendEv

/-- Goroutines about to send. -/
def SendSys.init (E : SendEnv) (progs : Nat → List (Nat × Nat)) : SendSys :=
  ⟨fun x => (E.hdr x).length, fun _ => .idle, progs, []⟩

/-- The end of a `Request.WriteTo` call. -/
def SendSys.finish (s : SendSys) (i x d : Nat) (t : List (Nat × Nat)) (res : Except Err Bytes) : SendSys :=
  { s with pc := setAt s.pc i .idle, todo := setAt s.todo i t, log := s.log ++ [⟨i, x, d, res⟩] }

/-- The header of variable `x` as it is in memory. -/
def SendSys.header (E : SendEnv) (s : SendSys) (x : Nat) : Header := { E.hdr x with length := s.len x }

/-- One step of goroutine `i`, which is in `(r *Request) WriteTo`, request.go:132-174, called by
`(c *conn) Send`, net.go:178-187, without a lock. -/
inductive SendSys.Step (E : SendEnv) : SendSys → SendSys → Prop where
  /-- `r.Header.Length = uint16(headerlen)`, request.go:135 -/
  | set (s : SendSys) (i x d : Nat) (t : List (Nat × Nat)) (hp : s.pc i = .idle) (ht : s.todo i = (x, d) :: t) :
    Step E s { s with len := setAt s.len x (UInt16.ofNat headerlen), pc := setAt s.pc i .set }
  /-- `return r.Header.WriteTo(w)`, request.go:139-141, copies the header -/
  | nilBody (s : SendSys) (i x d : Nat) (t : List (Nat × Nat)) (hp : s.pc i = .set) (ht : s.todo i = (x, d) :: t)
    (hb : E.body x = .nil) : Step E s { s with pc := setAt s.pc i (.copied (s.header E x).writeTo.out) }
  /-- `io.Copy(&buf, r.Body)` fails, request.go:146-149 -/
  | fail (s : SendSys) (i x d : Nat) (t : List (Nat × Nat)) (e : Err) (hp : s.pc i = .set)
    (ht : s.todo i = (x, d) :: t) (hb : E.body x = .fails e) : Step E s (s.finish i x d t (.error e))
  /-- `return 0, ErrBodyTooLong`, request.go:153-155 -/
  | tooLong (s : SendSys) (i x d : Nat) (t : List (Nat × Nat)) (b : Bytes) (hp : s.pc i = .set)
    (ht : s.todo i = (x, d) :: t) (hb : E.body x = .bytes b) (hl : 65535 < b.length + headerlen) :
    Step E s (s.finish i x d t (.error .bodyTooLong))
  /-- the load of `r.Header.Length += uint16(buf.Len())`, request.go:157 -/
  | load (s : SendSys) (i x d : Nat) (t : List (Nat × Nat)) (b : Bytes) (hp : s.pc i = .set)
    (ht : s.todo i = (x, d) :: t) (hb : E.body x = .bytes b) (hl : ¬ 65535 < b.length + headerlen) :
    Step E s { s with pc := setAt s.pc i (.loaded (s.len x)) }
  /-- the store of `r.Header.Length += uint16(buf.Len())`, request.go:157 -/
  | store (s : SendSys) (i x d : Nat) (t : List (Nat × Nat)) (b : Bytes) (v : UInt16) (hp : s.pc i = .loaded v)
    (ht : s.todo i = (x, d) :: t) (hb : E.body x = .bytes b) :
    Step E s { s with len := setAt s.len x (v + UInt16.ofNat b.length), pc := setAt s.pc i .stored }
  /-- `r.Header.WriteTo(&wbuf)`, which copies the header, and `io.Copy(&wbuf, &buf)`, request.go:159-170 -/
  | emit (s : SendSys) (i x d : Nat) (t : List (Nat × Nat)) (b : Bytes) (hp : s.pc i = .stored)
    (ht : s.todo i = (x, d) :: t) (hb : E.body x = .bytes b) :
    Step E s { s with pc := setAt s.pc i (.copied ((s.header E x).writeTo.out ++ b)) }
  /-- `wbuf.WriteTo(w)`, request.go:173: one call of `(c *conn) Write` -/
  | write (s : SendSys) (i x d : Nat) (t : List (Nat × Nat)) (m : Bytes) (hp : s.pc i = .copied m)
    (ht : s.todo i = (x, d) :: t) : Step E s (s.finish i x d t (.ok m))

/-- Reachable from the beginning. -/
inductive SendSys.Reach (E : SendEnv) (progs : Nat → List (Nat × Nat)) : SendSys → Prop where
  | init : Reach E progs (.init E progs)
  | step {s s'} (h : Reach E progs s) (st : SendSys.Step E s s') : Reach E progs s'

/-- What has been given to connection `d`, one after another. -/
def SendSys.out (s : SendSys) (d : Nat) : List Bytes :=
  s.log.filterMap (fun ev => if ev.conn = d then ev.res.toOption else none)

/-! ## Response headers -/

/-- The header variables of a program, the requests the responses belong to (their versions), and
the connections of these. -/
structure ReplyEnv where
  hdr : Nat → Header
  rv : Nat → UInt8
  conn : Nat → Nat

/-- A call `rw.Write(&h, w)`: the response, the header variable, and what the body serialises to (`none`: a
serialiser that fails with `e`). -/
structure ReplyCall where
  resp : Nat
  var : Nat
  body : Except Err Bytes

/-- Where a goroutine is in `response.Write`: outside; behind the test of `header.Version`; before the
lock; holding it; behind the store of `header.Length`; about to call `forceWrite` with `m`. -/
inductive ReplyPc where
  | idle
  | zero
  | wait
  | locked
  | stored
  | copied (m : Bytes)
  deriving DecidableEq, Repr

/-- A `response.Write` that has come to its end: the goroutine, the call, the error or the bytes given to
`conn.forceWrite`. -/
structure ReplyEv where
  go : Nat
  call : ReplyCall
  res : Except Err Bytes

/-- Goroutines that respond: the version and length fields of each header variable, the lock `bufMu` of
each response, the goroutines with their calls, and what has been sent. -/
structure ReplySys where
  ver : Nat → UInt8
  len : Nat → UInt16
  mu : Nat → Option Nat
  pc : Nat → ReplyPc
  todo : Nat → List ReplyCall
  log : List ReplyEv

/-- Goroutines about to respond. -/
def ReplySys.init (E : ReplyEnv) (progs : Nat → List ReplyCall) : ReplySys :=
  ⟨fun x => (E.hdr x).version, fun x => (E.hdr x).length, fun _ => none, fun _ => .idle, progs, []⟩

/-- The end of a `response.Write` call, with its deferred `Unlock`. -/
def ReplySys.finish (s : ReplySys) (i : Nat) (c : ReplyCall) (t : List ReplyCall) (res : Except Err Bytes) : ReplySys :=
  { s with pc := setAt s.pc i .idle, todo := setAt s.todo i t, mu := setAt s.mu c.resp none,
           log := s.log ++ [⟨i, c, res⟩] }

/-- The header variable as it is in memory. -/
def ReplySys.header (E : ReplyEnv) (s : ReplySys) (x : Nat) : Header :=
  { E.hdr x with version := s.ver x, length := s.len x }

/-- One step of goroutine `i`, which is in `(r *response) Write`, server.go:58-90. -/
inductive ReplySys.Step (E : ReplyEnv) : ReplySys → ReplySys → Prop where
  /-- `header.Version == 0`, server.go:64 -/
  | zero (s : ReplySys) (i : Nat) (c : ReplyCall) (t : List ReplyCall) (hp : s.pc i = .idle) (ht : s.todo i = c :: t)
    (hv : s.ver c.var = 0) : Step E s { s with pc := setAt s.pc i .zero }
  /-- the version is set already -/
  | nonzero (s : ReplySys) (i : Nat) (c : ReplyCall) (t : List ReplyCall) (hp : s.pc i = .idle) (ht : s.todo i = c :: t)
    (hv : s.ver c.var ≠ 0) : Step E s { s with pc := setAt s.pc i .wait }
  /-- `header.Version = r.header.Version`, server.go:65 -/
  | version (s : ReplySys) (i : Nat) (c : ReplyCall) (t : List ReplyCall) (hp : s.pc i = .zero) (ht : s.todo i = c :: t) :
    Step E s { s with ver := setAt s.ver c.var (E.rv c.resp), pc := setAt s.pc i .wait }
  /-- `r.bufMu.Lock()`, server.go:68 -/
  | lock (s : ReplySys) (i : Nat) (c : ReplyCall) (t : List ReplyCall) (hp : s.pc i = .wait) (ht : s.todo i = c :: t)
    (hm : s.mu c.resp = none) : Step E s { s with mu := setAt s.mu c.resp (some i), pc := setAt s.pc i .locked }
  /-- `w.WriteTo(&buf)` fails, server.go:72-76 -/
  | fail (s : ReplySys) (i : Nat) (c : ReplyCall) (t : List ReplyCall) (e : Err) (hp : s.pc i = .locked)
    (ht : s.todo i = c :: t) (hb : c.body = .error e) : Step E s (s.finish i c t (.error e))
  /-- `header.Length = headerlen + uint16(buf.Len())`, server.go:78 -/
  | store (s : ReplySys) (i : Nat) (c : ReplyCall) (t : List ReplyCall) (b : Bytes) (hp : s.pc i = .locked)
    (ht : s.todo i = c :: t) (hb : c.body = .ok b) :
    Step E s { s with len := setAt s.len c.var (UInt16.ofNat headerlen + UInt16.ofNat b.length), pc := setAt s.pc i .stored }
  /-- `header.WriteTo(&r.buf)`, which copies the header, and `buf.WriteTo(&r.buf)`, server.go:79-87 -/
  | emit (s : ReplySys) (i : Nat) (c : ReplyCall) (t : List ReplyCall) (b : Bytes) (hp : s.pc i = .stored)
    (ht : s.todo i = c :: t) (hb : c.body = .ok b) :
    Step E s { s with pc := setAt s.pc i (.copied ((s.header E c.var).writeTo.out ++ b)) }
  /-- `r.conn.forceWrite(r.buf.Bytes())`, server.go:89, and the deferred calls -/
  | write (s : ReplySys) (i : Nat) (c : ReplyCall) (t : List ReplyCall) (m : Bytes) (hp : s.pc i = .copied m)
    (ht : s.todo i = c :: t) : Step E s (s.finish i c t (.ok m))

/-- Reachable from the beginning. -/
inductive ReplySys.Reach (E : ReplyEnv) (progs : Nat → List ReplyCall) : ReplySys → Prop where
  | init : Reach E progs (.init E progs)
  | step {s s'} (h : Reach E progs s) (st : ReplySys.Step E s s') : Reach E progs s'

end Verif
