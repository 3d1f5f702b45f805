import Verif.Go.Bytes

/-!
# Handlers that wait for a reply (server.go:284-348, runner.go, mux.go:104-169)

A handler sends a request of its own to the peer of the connection, having registered a handler
for the reply with `HandleOnce`, and waits until that one has been called.  The reply comes as
another message of the same connection, and is given to the same runner.
-/

namespace Verif

/-- A message of the peer: a request of its own, or the reply to what the handler of that request
has asked. -/
inductive AMsg where
  | req (i : Nat)
  | reply (i : Nat)
  deriving DecidableEq, Repr

/-- A handler that is executed: not begun, or waiting for the reply. -/
inductive ATask where
  | fresh (m : AMsg)
  | waiting (i : Nat)
  deriving DecidableEq, Repr

/-- The runners of the library: runner.go:17-23, 29-34, 39-76. -/
inductive AKind where
  | onDemand
  | sequential
  | pool (n : Nat)
  deriving DecidableEq, Repr

/-- A served connection.  `todo`: the requests that the peer is going to send; `inbox`: what it
has sent and the serve loop has not given to the runner (server.go:296); `queue`: the channel of
a worker pool (runner.go:54); `running`: the handlers that have been called and have not
returned; `asked`: what handlers have sent and the peer has not answered; `handed`: the replies
for which the handler registered with `HandleOnce` has been called; `handled`: the requests whose
handlers have returned (history). -/
structure Await where
  todo : List Nat
  inbox : List AMsg
  queue : List AMsg
  running : List ATask
  asked : List Nat
  handed : List Nat
  handled : List Nat

/-- The connection has just been accepted, server.go:284-290. -/
def Await.init (todo : List Nat) : Await := ⟨todo, [], [], [], [], [], []⟩

/-- One step.  `waits i`: the handler of request `i` asks the peer and waits for the reply.
Simplifications: writing does not block (C104 and C107 are about that), the multiplexer finds the
handler for the reply (C72), nothing fails, and the peer answers whatever it is asked, after any
time and in any order. -/
inductive Await.Step (K : AKind) (waits : Nat → Bool) : Await → Await → Prop where
  /-- the peer sends a request -/
  | arrive (s i t) (h : s.todo = i :: t) : Step K waits s { s with todo := t, inbox := s.inbox ++ [.req i] }
  /-- the peer answers -/
  | answer (s a i b) (h : s.asked = a ++ i :: b) :
    Step K waits s { s with asked := a ++ b, inbox := s.inbox ++ [.reply i] }
  /-- `go fn()`, server.go:302, runner.go:22 -/
  | dispatchDemand (s m t) (hk : K = .onDemand) (h : s.inbox = m :: t) :
    Step K waits s { s with inbox := t, running := s.running ++ [.fresh m] }
  /-- `fn()`, server.go:302, runner.go:33: in the serve loop itself, which goes on when the
  handler has returned -/
  | dispatchSeq (s m t) (hk : K = .sequential) (h : s.inbox = m :: t) (hr : s.running = []) :
    Step K waits s { s with inbox := t, running := s.running ++ [.fresh m] }
  /-- `mrr.q <- fn`, server.go:302, runner.go:75; the channel has room for `n` -/
  | dispatchPool (s m t n) (hk : K = .pool n) (h : s.inbox = m :: t) (hq : s.queue.length < n) :
    Step K waits s { s with inbox := t, queue := s.queue ++ [m] }
  /-- one of the `n` workers takes a function, runner.go:66-67 -/
  | start (s m t n) (hk : K = .pool n) (h : s.queue = m :: t) (hr : s.running.length < n) :
    Step K waits s { s with queue := t, running := s.running ++ [.fresh m] }
  /-- a handler registers for the reply (mux.go:104), writes its request, flushes, and waits -/
  | ask (s a i b) (h : s.running = a ++ .fresh (.req i) :: b) (hw : waits i = true) :
    Step K waits s { s with running := a ++ .waiting i :: b, asked := s.asked ++ [i] }
  /-- a handler that does not wait, server.go:333 -/
  | plain (s a i b) (h : s.running = a ++ .fresh (.req i) :: b) (hw : waits i = false) :
    Step K waits s { s with running := a ++ b, handled := s.handled ++ [i] }
  /-- the handler for the reply is called (mux.go:150-169), tells the one that waits, and returns -/
  | reply (s a i b) (h : s.running = a ++ .fresh (.reply i) :: b) :
    Step K waits s { s with running := a ++ b, handed := s.handed ++ [i] }
  /-- the handler that waits goes on and returns, server.go:333-343 -/
  | resume (s a i b) (h : s.running = a ++ .waiting i :: b) (hi : i ∈ s.handed) :
    Step K waits s { s with running := a ++ b, handled := s.handled ++ [i] }

/-- Executions, server.go:284-343. -/
inductive Await.Steps (K : AKind) (waits : Nat → Bool) (s₀ : Await) : Await → Prop where
  | refl : Steps K waits s₀ s₀
  | tail {s s'} (h : Steps K waits s₀ s) (st : Step K waits s s') : Steps K waits s₀ s'

end Verif
