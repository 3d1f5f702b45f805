import Verif.TimedServe

/-!
# A served connection whose peer does not read the answers

As `Verif/TimedServe.lean`, with handlers that answer every request by one call of `ResponseWriter.Write`, for a peer that takes a
limited number of bytes.
-/

namespace Verif

/-- What a handler answers: the arguments of `ResponseWriter.Write`, server.go:57-58. -/
structure Answer where
  header : Header
  body : Option Wr

/-- The number of bytes of the answer, server.go:72-87. -/
def Answer.size (a : Answer) : Nat := headerlen + (match a.body with | none => 0 | some w => w.out.length)

/-- How the peer behaves when `n` bytes are written to it and it takes no more than `room` (`none`: any number). -/
def peerFor (room : Option Nat) (n : Nat) : Peer :=
  match room with
  | none => .ready
  | some k => if n ≤ k then .ready else .stalled k

/-- A served connection with handlers that answer, from a call of `Receive` on, server.go:112-122, 284-303, 317-342.
`seq`: the handlers run on a `SequentialRunner` (the loop waits for them), otherwise on an `OnDemandRoutineRunner`
(runner.go:17-23).  `room` is what the peer is going to take, `w` the sending half of the connection, `none` when
a handler is blocked in the transport (it has the mutex of the connection, net.go:165-168).  Result: the requests
given to the runner, with the times and whether `Write` returned while the connection was open, and when it is
closed, if ever.  (The `c.Flush()` after a handler, server.go:337, has nothing to do: `Write` flushes.)  Closing unblocks the handlers (net.go:189-193); this is in `Verif/CloseConc.lean`.
Simplification: the handlers of an `OnDemandRoutineRunner` get the mutex in the order of the requests. -/
inductive ServeReply (seq : Bool) (ans : Request → Answer) : (room : Option Nat) → (w : Option TConn) → TRead →
    (ts : List Nat) → (now free : Nat) → List (Nat × Request × Bool) → Option Nat → Prop where
  /-- `Receive` never returns -/
  | waits (room w c ts now free) (h : c.receive now = none) : ServeReply seq ans room w c ts now free [] none
  /-- `Receive` returns a timeout, server.go:114-119, 297-300 -/
  | timeout (room w c ts now free q c' d) (h : c.receive now = some (q, some .timeout, c'))
    (hd : c'.deadline = some d) : ServeReply seq ans room w c ts now free [] (some (max (max now d) free))
  /-- `Receive` returns another error: the header is wrong -/
  | fails (room w c ts now free q e c') (h : c.receive now = some (q, some e, c')) (he : e ≠ .timeout) :
    ServeReply seq ans room w c ts now free [] (some (max (returnsAt now 8 ts) free))
  /-- a request, whose answer is taken or fails -/
  | answered (room w c ts now free q c' t e w' fin reqs x) (h : c.receive now = some (some q, none, c'))
    (hk : t = max (returnsAt now q.header.len ts) free)
    (hw : w.respond t (peerFor room (ans q).size) q.header.version (ans q).header (ans q).body = some (e, w', fin))
    (ht : ServeReply seq ans (room.map (· - (ans q).size)) (some w') c' (ts.drop q.header.len) t
      (if seq then fin else t) reqs x) :
    ServeReply seq ans room (some w) c ts now free ((t, q, true) :: reqs) x
  /-- a request whose answer the peer does not take, the loop waits for the handler: for ever -/
  | stuck (room w c ts now free q c' t) (h : c.receive now = some (some q, none, c'))
    (hk : t = max (returnsAt now q.header.len ts) free)
    (hw : w.respond t (peerFor room (ans q).size) q.header.version (ans q).header (ans q).body = none)
    (hs : seq = true) :
    ServeReply seq ans room (some w) c ts now free [(t, q, false)] none
  /-- a request whose answer the peer does not take, the loop goes on -/
  | blocks (room w c ts now free q c' t reqs x) (h : c.receive now = some (some q, none, c'))
    (hk : t = max (returnsAt now q.header.len ts) free)
    (hw : w.respond t (peerFor room (ans q).size) q.header.version (ans q).header (ans q).body = none)
    (hs : seq = false) (ht : ServeReply seq ans room none c' (ts.drop q.header.len) t t reqs x) :
    ServeReply seq ans room (some w) c ts now free ((t, q, false) :: reqs) x
  /-- a request whose handler waits for the mutex of a blocked one -/
  | queues (room c ts now free q c' t reqs x) (h : c.receive now = some (some q, none, c'))
    (hk : t = max (returnsAt now q.header.len ts) free)
    (ht : ServeReply seq ans room none c' (ts.drop q.header.len) t t reqs x) :
    ServeReply seq ans room none c ts now free ((t, q, false) :: reqs) x

end Verif
