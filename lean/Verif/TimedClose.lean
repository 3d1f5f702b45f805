import Verif.TimedServe

/-!
# A served connection whose peer hangs up

As `Verif/TimedServe.lean`, for a peer that closes its end of the connection, or whose connection breaks, at a known time.
-/

namespace Verif

/-- How a connection ends from outside: when, and what `Read` of the transport returns from then on, once it has
returned the bytes that came before (`io.EOF` if the peer has closed, an error of the network otherwise). -/
structure Hangup where
  time : Nat
  err : Err
  deriving DecidableEq, Repr

/-- `(c *conn) Receive`, net.go:136-148, called at the time `now` on a connection that ends with `u`.  If the
deadline comes first it is as `TRead.receive`.  Otherwise everything that is still to come is returned
by the transport, and then the error.  Simplification: the transport does not return the error together
with bytes (the case without time is `Rd.src` with `tog`). -/
def TRead.receiveEnding (u : Hangup) (c : TRead) (now : Nat) : Option (Option Request × Option Err × TRead) :=
  let dl := if c.timeout = 0 then c.deadline else some (now + c.timeout)
  if dl.any (fun d => decide (d ≤ max now u.time)) then c.receive now
  else
    match Conn.receive (.buf c.buf none (.src (c.data ++ c.arr.flatMap (·.2)) c.sched u.err false)) with
    | (q, e, r) => some (q, e, TRead.put { c with deadline := dl } [] r)

/-- A served connection that ends with `u`, from a call of `Receive` on, server.go:112-122 and 284-303.
Everything is as in `ServeTimed`. -/
inductive ServeEnding (u : Hangup) : (dur : Nat → Nat) → TRead → (ts : List Nat) → (now free : Nat) →
    List (Nat × Request) → Option Nat → Prop where
  /-- `Receive` never returns -/
  | waits (dur c ts now free) (h : c.receiveEnding u now = none) : ServeEnding u dur c ts now free [] none
  /-- `Receive` returns a timeout when the deadline has passed, server.go:114-119, 297-300 -/
  | timeout (dur c ts now free q c' d) (h : c.receiveEnding u now = some (q, some .timeout, c'))
    (hd : c'.deadline = some d) : ServeEnding u dur c ts now free [] (some (max (max now d) free))
  /-- the header is wrong: `Receive` returns when it is there -/
  | corrupt (dur c ts now free q c') (h : c.receiveEnding u now = some (q, some .corruptedHeader, c')) :
    ServeEnding u dur c ts now free [] (some (max (returnsAt now 8 ts) free))
  /-- `Receive` returns another error, that of the transport -/
  | ended (dur c ts now free q e c') (h : c.receiveEnding u now = some (q, some e, c')) (he : e ≠ .timeout)
    (hc : e ≠ .corruptedHeader) : ServeEnding u dur c ts now free [] (some (max (max now u.time) free))
  /-- `Receive` returns a request, server.go:114-116, 296-302 -/
  | request (dur c ts now free q c' reqs e) (h : c.receiveEnding u now = some (some q, none, c'))
    (ht : ServeEnding u (fun i => dur (i + 1)) c' (ts.drop q.header.len)
      (max (returnsAt now q.header.len ts) free) (max (returnsAt now q.header.len ts) free + dur 0) reqs e) :
    ServeEnding u dur c ts now free ((max (returnsAt now q.header.len ts) free, q) :: reqs) e

end Verif
