import Verif.Runner

/-!
# A server with worker pools (server.go:221-311, runner.go:39-76)

`Server.ConnRunner` and `Server.HandlerRunner` are `MultiRoutineRunner`s, as the documentation
recommends: two of them, or one and the same.  `Runner.lean` has the workers of one runner in
detail; here is what the accept loop, the serve loops and the handlers do to the queues.
-/

namespace Verif

/-- What a worker executes: `srv.serve`, server.go:284-311, for a connection on which the requests
`rest` are still to come before the peer closes it, or `srv.serveReq`, server.go:315-343. -/
inductive Job where
  | conn (rest : List Nat)
  | req (r : Nat)
  deriving DecidableEq, Repr

/-- Which of the two: submitted at server.go:279 or at server.go:302. -/
def Job.isConn : Job → Bool
  | .conn _ => true
  | .req _ => false

/-- `MultiRoutineRunner`, runner.go:39-43: the buffered channel `q` and what the workers are
executing. -/
structure Pool where
  queue : List Job
  busy : List Job

/-- The server: the connections that the accept loop has not accepted yet, with the requests
their peers are going to send; the one that it is handing to the runner; the two runners; the
requests that have been handled; the connections that have been refused. -/
structure PoolSrv where
  todo : List (List Nat)
  pend : Option (List Nat)
  pool : Bool → Pool
  handled : List Nat
  refused : List (List Nat)

/-- Before the accept loop of `Serve`, server.go:221-250. -/
def PoolSrv.init (todo : List (List Nat)) : PoolSrv := ⟨todo, none, fun _ => ⟨[], []⟩, [], []⟩

/-- Replace pool `x`: the assignment to one of the two runners that server.go:226-239 chose. -/
def PoolSrv.set (s : PoolSrv) (x : Bool) (p : Pool) : Bool → Pool := fun y => if y = x then p else s.pool y

/-- `srv.conns`: incremented before a connection is given to the runner, decremented when its
stream ends, server.go:278, 298. -/
def PoolSrv.conns (s : PoolSrv) : Nat :=
  s.pend.toList.length + (s.pool false).queue.countP Job.isConn + (s.pool false).busy.countP Job.isConn

/-- Steps.  `n x` is the number of workers (and the capacity of the queue) of pool `x`, `h` is
the pool of the handlers, pool `false` that of the connections, `lim` is `MaxConns`.
Simplifications: a send on a channel whose queue has room, and a worker's receive, are single
steps; when the server is stopped is not modelled. -/
inductive PoolSrv.Step (n : Bool → Nat) (h : Bool) (lim : Nat) : PoolSrv → PoolSrv → Prop where
  /-- `accept`, below the limit, server.go:256-278 -/
  | admit (s c t) (ht : s.todo = c :: t) (hp : s.pend = none) (hl : lim = 0 ∨ s.conns < lim) :
    Step n h lim s { s with todo := t, pend := some c }
  /-- `cr.Run`, server.go:279, returns when the queue has room, runner.go:73-76 -/
  | submit (s c) (hp : s.pend = some c) (hq : (s.pool false).queue.length < n false) :
    Step n h lim s
      { s with pend := none, pool := s.set false ⟨(s.pool false).queue ++ [Job.conn c], (s.pool false).busy⟩ }
  /-- `accept`, at the limit, server.go:270-276 -/
  | refuse (s c t) (ht : s.todo = c :: t) (hp : s.pend = none) (hl : lim ≠ 0) (hc : lim ≤ s.conns) :
    Step n h lim s { s with todo := t, refused := s.refused ++ [c] }
  /-- an idle worker takes the first function of the queue, runner.go:65-69 -/
  | take (s x j q) (hq : (s.pool x).queue = j :: q) (hb : (s.pool x).busy.length < n x) :
    Step n h lim s { s with pool := s.set x ⟨q, (s.pool x).busy ++ [j]⟩ }
  /-- the serve loop has received a request: `r.Run`, server.go:302 -/
  | dispatch (s a r c b) (hb : (s.pool false).busy = a ++ Job.conn (r :: c) :: b)
    (hq : (s.pool h).queue.length < n h) :
    Step n h lim s (let s' := { s with pool := s.set false ⟨(s.pool false).queue, a ++ Job.conn c :: b⟩ }
      { s' with pool := s'.set h ⟨(s'.pool h).queue ++ [Job.req r], (s'.pool h).busy⟩ })
  /-- the peer closes the connection, the serve loop ends, server.go:297-299 -/
  | close (s a b) (hb : (s.pool false).busy = a ++ Job.conn [] :: b) :
    Step n h lim s { s with pool := s.set false ⟨(s.pool false).queue, a ++ b⟩ }
  /-- a handler returns -/
  | handle (s x a r b) (hb : (s.pool x).busy = a ++ Job.req r :: b) :
    Step n h lim s { s with pool := s.set x ⟨(s.pool x).queue, a ++ b⟩, handled := s.handled ++ [r] }

/-- Executions of the accept loop, the serve loops and the workers, server.go:221-311. -/
inductive PoolSrv.Steps (n : Bool → Nat) (h : Bool) (lim : Nat) (s₀ : PoolSrv) : PoolSrv → Prop where
  | refl : Steps n h lim s₀ s₀
  | tail {s s'} (hs : Steps n h lim s₀ s) (st : Step n h lim s s') : Steps n h lim s₀ s'

end Verif
