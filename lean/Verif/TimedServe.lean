import Verif.Timeout

/-!
# A served connection and its ReadTimeout

The loop of `(srv *Server) serve`, server.go:284-313, with the goroutine of its receiver, server.go:
112-122, and a clock.  Time is as in `Verif/Timeout.lean`: computing takes no time, waiting for the
transport and for a handler does.  Simplifications: the stop channel is not used, and nothing
panics (`Verif/Server.lean` and `Verif/Panics.lean` have these without time).
-/

namespace Verif

/-- The arrival times of the bytes of a list of chunks. -/
def byteTimes (arr : List (Nat × Bytes)) : List Nat := arr.flatMap (fun x => x.2.map (fun _ => x.1))

/-- When a `Receive` that is called at the time `now` and returns a message of `n` bytes (or an error about
its first `n` bytes) returns: as soon as the last of these is there.  `ts`: the arrival times of the
bytes that have not been returned. -/
def returnsAt (now n : Nat) (ts : List Nat) : Nat := max now (ts.getD (n - 1) 0)

/-- A served connection from a call of `Receive` on, server.go:112-122 and 284-303.  `c` is the connection,
`ts` are the arrival times of the bytes not returned so far, `now` is the time of the call, `free` the
time at which the loop has the previous request off its hands, `dur i` the time for which
`r.Run` (server.go:302) keeps the loop busy with the `i`-th request: with a `SequentialRunner` the duration of the
handler, with an `OnDemandRoutineRunner` 0.  Result: the requests given to the runner, with the times, and
the time at which `serve` closes the connection, or `none` if it never does. -/
inductive ServeTimed : (dur : Nat → Nat) → TRead → (ts : List Nat) → (now free : Nat) →
    List (Nat × Request) → Option Nat → Prop where
  /-- `Receive` never returns -/
  | waits (dur c ts now free) (h : c.receive now = none) : ServeTimed dur c ts now free [] none
  /-- `Receive` returns a timeout when the deadline has passed, the loop takes it and returns,
  server.go:114-119, 297-300 -/
  | timeout (dur c ts now free q c' d) (h : c.receive now = some (q, some .timeout, c'))
    (hd : c'.deadline = some d) : ServeTimed dur c ts now free [] (some (max (max now d) free))
  /-- `Receive` returns another error: the header is wrong -/
  | fails (dur c ts now free q e c') (h : c.receive now = some (q, some e, c')) (he : e ≠ .timeout) :
    ServeTimed dur c ts now free [] (some (max (returnsAt now 8 ts) free))
  /-- `Receive` returns a request, the receiver waits until the loop takes it, and calls `Receive`
  again, server.go:114-116, 296-302 -/
  | request (dur c ts now free q c' reqs e) (h : c.receive now = some (some q, none, c'))
    (ht : ServeTimed (fun i => dur (i + 1)) c' (ts.drop q.header.len)
      (max (returnsAt now q.header.len ts) free) (max (returnsAt now q.header.len ts) free + dur 0) reqs e) :
    ServeTimed dur c ts now free ((max (returnsAt now q.header.len ts) free, q) :: reqs) e

end Verif
