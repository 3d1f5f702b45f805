import Verif.TimedClose
import Verif.TimedReply
import Verif.Server

/-!
# MaxConns, ReadTimeout and peers that hang up

One accept loop, server.go:240-282, in front of connections that are served as in `Verif/TimedServe.lean` and
`Verif/TimedClose.lean`, with the runners that a server has by default (`OnDemandRoutineRunner`, runner.go:17-23).
-/

namespace Verif

/-- A peer that connects: when `Accept` returns its connection, what it sends when, and whether and when
it hangs up. -/
structure Caller where
  arrives : Nat
  sched : List Nat
  arr : List (Nat × Bytes)
  hangs : Option Hangup

/-- `serve`, server.go:284-303, of its connection by a server with `ReadTimeout = d`. -/
def Caller.Served (d : Nat) (c : Caller) (reqs : List (Nat × Request)) (e : Option Nat) : Prop :=
  match c.hangs with
  | none => ServeTimed (fun _ => 0) (TRead.new d c.sched c.arr) (byteTimes c.arr) c.arrives c.arrives reqs e
  | some u => ServeEnding u (fun _ => 0) (TRead.new d c.sched c.arr) (byteTimes c.arr) c.arrives c.arrives reqs e

/-- The connections that `srv.conns` counts at the time `t`, server.go:269, 278, 298: those that have not been
closed.  `late`: also those that are closed at this very moment, for which the decrement (server.go:298)
may come after the test. -/
def openAt (late : Bool) (t : Nat) (ends : List (Option Nat)) : Nat :=
  ends.countP (fun e => match e with
    | none => true
    | some x => decide (t < x) || (late && x == t))

/-- The accept loop, server.go:256-282, for the callers in the order in which they are accepted.  `m` is
`MaxConns`, `serves c x` says that the connection of `c`, if it is served, is closed at the time `x` (`none`: never), `ends`
are the times at which the connections served so far are closed.  The result says who is served. -/
inductive DoorVia (m : Int) (serves : Caller → Option Nat → Prop) :
    (ends : List (Option Nat)) → List Caller → List Bool → Prop where
  | nil (ends) : DoorVia m serves ends [] []
  /-- at the limit: closed without being served, server.go:269-276 -/
  | refuse (ends c cs bs late) (hr : hasRoom m (openAt late c.arrives ends) = false)
    (ht : DoorVia m serves ends cs bs) : DoorVia m serves ends (c :: cs) (false :: bs)
  /-- below the limit: served, server.go:278-279 -/
  | admit (ends c cs bs late e) (hr : hasRoom m (openAt late c.arrives ends) = true)
    (hs : serves c e)
    (ht : DoorVia m serves (ends ++ [e]) cs bs) : DoorVia m serves ends (c :: cs) (true :: bs)

/-- The accept loop of a server with `ReadTimeout = d` and `OnDemandRoutineRunner`s. -/
abbrev Door (m : Int) (d : Nat) : (ends : List (Option Nat)) → List Caller → List Bool → Prop :=
  DoorVia m (fun c e => ∃ reqs, c.Served d reqs e)

/-- The accept loop, server.go:256-282, of a server with `ReadTimeout = d` and `WriteTimeout = wt` whose handlers answer as
`ans` says, for peers that take `room` bytes each and do not hang up.  `seq`: the handlers run on a `SequentialRunner`. -/
abbrev DoorReply (m : Int) (d wt : Nat) (seq : Bool) (ans : Request → Answer) (room : Option Nat) :
    (ends : List (Option Nat)) → List Caller → List Bool → Prop :=
  DoorVia m (fun c e => c.hangs = none ∧ ∃ reqs, ServeReply seq ans room (some (TConn.new wt))
    (TRead.new d c.sched c.arr) (byteTimes c.arr) c.arrives c.arrives reqs e)

end Verif
