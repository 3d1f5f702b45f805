import Verif.Conn

/-!
# Deadlines of net.go

The deadlines of a connection and what the transport does about them.  Time is a natural
number; computing takes no time, only waiting does.  `SetReadDeadline` and `SetWriteDeadline`
(net.go:207-223) set the field `deadline`.
-/

namespace Verif

/-- The timeout error of package net, `os.ErrDeadlineExceeded`. -/
def Err.timeout : Err := .io 110

/-! ## Receiving -/

/-- The receiving half of `conn` (net.go:101-113) with its transport: the unread bytes of the
`bufio.Reader`, the bytes that have reached the transport but have not been read from it, how
the transport will split them (see `Rd.src`), the read deadline, `ReadTimeout`, and what is
still to come with the times of arrival.  Simplifications: the peer does not close the
connection (`TRead.receiveEnding` is for peers that do); `ReadTimeout` is not
negative. -/
structure TRead where
  buf : Bytes
  data : Bytes
  sched : List Nat
  deadline : Option Nat
  timeout : Nat
  arr : List (Nat × Bytes)
  deriving DecidableEq, Repr

/-- `newConn`, net.go:122-128; the timeout is set by server.go:262. -/
def TRead.new (timeout : Nat) (sched : List Nat) (arr : List (Nat × Bytes)) : TRead :=
  ⟨[], [], sched, none, timeout, arr⟩

/-- The connection after the reader has been used. -/
def TRead.put (c : TRead) (arr : List (Nat × Bytes)) : Rd → TRead
  | .buf b _ (.src d s _ _) => { c with buf := b, data := d, sched := s, arr := arr }
  | _ => c

/-- `(c *conn) Receive`, net.go:136-148, called at the time `now`.  `none`: never returns.
With a deadline, `Read` of the transport returns what arrives before it, and then the timeout
error; once the deadline has passed it returns the timeout error although there may be data.
Without one it waits for ever. -/
def TRead.receive (c : TRead) (now : Nat) : Option (Option Request × Option Err × TRead) :=
  let c := if c.timeout = 0 then c else { c with deadline := some (now + c.timeout) }
  match c.deadline with
  | some d =>
    if d ≤ now then
      match Conn.receive (.buf c.buf none (.src [] c.sched .timeout false)) with
      | (q, e, .buf b _ _) => some (q, e, { c with buf := b })
      | (q, e, _) => some (q, e, c)
    else
      match Conn.receive (.buf c.buf none
        (.src (c.data ++ (c.arr.takeWhile (·.1 < d)).flatMap (·.2)) c.sched .timeout false)) with
      | (q, e, r) => some (q, e, c.put (c.arr.dropWhile (·.1 < d)) r)
  | none =>
    match Conn.receive (.buf c.buf none (.src (c.data ++ c.arr.flatMap (·.2)) c.sched .timeout false)) with
    | (q, e, r) => if e = some .timeout then none else some (q, e, c.put [] r)

/-! ## Sending -/

/-- The peer of a connection: it takes everything, or `k` more bytes and then nothing. -/
inductive Peer where
  | ready
  | stalled (k : Nat)
  deriving DecidableEq, Repr

/-- The sending half of `conn` (net.go:101-113) with its write deadline and `WriteTimeout`
(simplification: not negative). -/
structure TConn where
  bw : BW
  deadline : Option Nat
  timeout : Nat
  deriving DecidableEq, Repr

/-- `newConn`, net.go:122-128; the timeout is set by server.go:263. -/
def TConn.new (timeout : Nat) : TConn := ⟨.new [], none, timeout⟩

/-- The writer over a transport with the given behaviour. -/
def BW.over (b : BW) (plan : List (Option (Nat × Err))) : BW := { b with tr := { b.tr with plan := plan } }

/-- Something is written to the connection at the time `now`, by the function `f`.  Returns
also the time at which `f` returns; `none`: it never returns.  After the deadline the
transport takes nothing and returns the timeout error; before it, writing to a peer that does
not read returns the timeout error when the deadline passes, or never if there is none. -/
def TConn.io {α : Type} (c : TConn) (now : Nat) (peer : Peer) (f : BW → α × BW) :
    Option (α × TConn × Nat) :=
  match c.deadline, peer with
  | none, .ready => let o := f (c.bw.over []); some (o.1, { c with bw := o.2 }, now)
  | none, .stalled k =>
    let o := f (c.bw.over [some (k, .timeout)])
    if o.2.tr.plan = [] then none else some (o.1, { c with bw := o.2 }, now)
  | some d, .ready =>
    let o := f (c.bw.over (if d ≤ now then [some (0, .timeout)] else []))
    some (o.1, { c with bw := o.2 }, now)
  | some d, .stalled k =>
    let o := f (c.bw.over [some (if d ≤ now then 0 else k, .timeout)])
    some (o.1, { c with bw := o.2 }, if o.2.tr.plan = [] then max now d else now)

/-- `(c *conn) Send`, net.go:178-187: the deadline is set after the message has been written. -/
def TConn.send (c : TConn) (now : Nat) (peer : Peer) (q : Request) :
    Option (Option Err × TConn × Nat) :=
  match c.io now peer (fun b => ((Conn.send b q).1, (Conn.send b q).2.1)) with
  | none => none
  | some (e, c', fin) =>
    some (e, if c.timeout = 0 then c' else { c' with deadline := some (fin + c.timeout) }, fin)

/-- `(c *conn) Flush`, net.go:158-162. -/
def TConn.flush (c : TConn) (now : Nat) (peer : Peer) : Option (Option Err × TConn × Nat) :=
  c.io now peer Conn.flush

/-- `(r *response) Write`, server.go:58-90: no deadline is set. -/
def TConn.respond (c : TConn) (now : Nat) (peer : Peer) (rv : UInt8) (h : Header) (w : Option Wr) :
    Option (Option Err × TConn × Nat) :=
  c.io now peer (fun b => ((Response.write b rv h w).1, (Response.write b rv h w).2.1))

/-! ## The reader of a connection keeps its shape -/

/-- A `bufio.Reader` without pending error over a transport that holds at most `n` bytes and
then returns the error `F`. -/
def Rd.Plain (F : Err) (n : Nat) (r : Rd) : Prop :=
  ∃ b d s, r = .buf b none (.src d s F false) ∧ d.length ≤ n

/-- The same over a transport that times out. -/
abbrev Rd.Timed (n : Nat) (r : Rd) : Prop := Rd.Plain .timeout n r

variable {F : Err}

theorem Rd.Plain.read {n : Nat} {r : Rd} (h : r.Plain F n) (k : Nat) : (r.read k).2.2.Plain F n := by
  obtain ⟨b, d, s, rfl, hn⟩ := h
  have hs : ∀ k, ∃ d' s' o e, (Rd.src d s F false).read k = (o, e, .src d' s' F false) ∧
      (o ≠ [] → e = none) ∧ d'.length ≤ n := by
    intro k
    simp only [Rd.read]
    split
    · exact ⟨_, _, _, _, rfl, by simp, hn⟩
    · split
      · exact ⟨_, _, _, _, rfl, by simp, hn⟩
      · exact ⟨_, _, _, _, rfl, by simp, by simp; omega⟩
  rw [Rd.read]
  split
  · split
    · exact ⟨_, _, _, rfl, hn⟩
    · exact ⟨_, _, _, rfl, hn⟩
  · split
    · exact ⟨_, _, _, rfl, hn⟩
    · simp only
      split
      · obtain ⟨d', s', o, e, h1, h2, h3⟩ := hs k
        rw [h1]; exact ⟨_, _, _, rfl, h3⟩
      · obtain ⟨d', s', o, e, h1, h2, h3⟩ := hs bufSize
        rw [h1]
        simp only
        split
        · exact ⟨_, _, _, rfl, h3⟩
        · rename_i ho
          rw [h2 ho]; exact ⟨_, _, _, rfl, h3⟩

theorem Rd.Plain.readLoop {n : Nat} {r : Rd} (h : r.Plain F n) (fuel need : Nat) :
    (Verif.readLoop fuel need r).2.2.Plain F n := by
  induction fuel generalizing need r with
  | zero => exact h
  | succ fuel ih =>
    unfold Verif.readLoop
    split
    · exact h
    · have := h.read need
      revert this
      rcases r.read need with ⟨o, e, r'⟩
      intro this
      cases e with
      | some e => exact this
      | none => exact ih this _

theorem Rd.Plain.readFull {n : Nat} {r : Rd} (h : r.Plain F n) (k : Nat) : (Verif.readFull k r).2.2.Plain F n := by
  have := h.readLoop (k + 1) k
  unfold Verif.readFull
  revert this
  rcases Verif.readLoop (k + 1) k r with ⟨o, e, r'⟩
  intro this
  simp only
  split
  · exact this
  · split <;> exact this

theorem Rd.Plain.num {n : Nat} {r : Rd} (h : r.Plain F n) {σ α : Type} [Wire α] (set : α → σ → σ) (s : σ) :
    (Enc.num set s r).rd.Plain F n := by
  have := h.readFull (Wire.size α)
  unfold Enc.num Enc.bin
  revert this
  rcases Verif.readFull (Wire.size α) r with ⟨o, e, r'⟩
  intro this
  simp only
  cases e <;> exact this

theorem Rd.Plain.readFrom {n : Nat} {σ : Type} (l : List (Step σ))
    (hl : ∀ st ∈ l, ∀ s r, Rd.Plain F n r → (st s r).rd.Plain F n) {r : Rd} (h : r.Plain F n) (s : σ) :
    (Enc.readFrom l s r).rd.Plain F n := by
  induction l generalizing s r with
  | nil => exact h
  | cons st t ih =>
    have h1 := hl st (by simp) s r h
    unfold Enc.readFrom
    rcases hst : st s r with ⟨s', n, e, r'⟩
    rw [hst] at h1
    cases e with
    | some e => exact h1
    | none => exact ih (fun st hs => hl st (by simp [hs])) h1 s'

theorem Rd.Plain.header {n : Nat} {r : Rd} (h : r.Plain F n) (s : Header) : (Header.readFrom s r).rd.Plain F n := by
  unfold Header.readFrom
  refine Rd.Plain.readFrom _ ?_ h s
  intro st hst s r hr
  simp only [List.mem_cons, List.not_mem_nil, or_false] at hst
  rcases hst with rfl | rfl | rfl | rfl <;> exact hr.num _ _

theorem Rd.Plain.bodyLoop {n : Nat} {r : Rd} (h : r.Plain F n) (fuel need : Nat) :
    (Verif.bodyLoop fuel need r).2.2.Plain F n := by
  induction fuel generalizing need r with
  | zero => exact h
  | succ fuel ih =>
    unfold Verif.bodyLoop
    split
    · exact h
    · have := h.read need
      revert this
      rcases r.read need with ⟨o, e, r'⟩
      intro this
      cases e with
      | some e => exact this
      | none => exact ih this _

theorem Rd.Plain.receive {n : Nat} {r : Rd} (h : r.Plain F n) : (Conn.receive r).2.2.Plain F n := by
  have h1 := h.header Request.zero.header
  unfold Conn.receive Request.readFrom
  revert h1
  rcases Header.readFrom Request.zero.header r with ⟨hd, n, e, r'⟩
  intro h1
  simp only at h1
  cases e with
  | some e => exact h1
  | none =>
    simp only
    have h2 := h1.bodyLoop (hd.len - headerlen + 1) (hd.len - headerlen)
    split
    · rename_i heq
      split at heq
      · simp only [Out.mk.injEq] at heq; rw [← heq.2.2.2]; exact h1
      · revert heq h2
        rcases Verif.bodyLoop (hd.len - headerlen + 1) (hd.len - headerlen) r' with ⟨o, e, r''⟩
        intro h2 heq
        cases e <;> simp only [Out.mk.injEq] at heq <;> (first | (rw [← heq.2.2.2]; exact h2) | simp at heq)
    · rename_i heq
      split at heq
      · simp at heq
      · revert heq h2
        rcases Verif.bodyLoop (hd.len - headerlen + 1) (hd.len - headerlen) r' with ⟨o, e, r''⟩
        intro h2 heq
        cases e <;> simp only [Out.mk.injEq] at heq <;> (first | (rw [← heq.2.2.2]; exact h2) | simp at heq)

theorem Rd.Timed.receive {n : Nat} {r : Rd} (h : r.Timed n) : (Conn.receive r).2.2.Timed n := Rd.Plain.receive h

end Verif
