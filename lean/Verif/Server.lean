import Verif.Request

/-!
# server.go: accepting and serving connections

A transition system.  First one connection (`ConnSt`), then the server: any number of
`Serve` loops on any number of listeners sharing one counter.

The runners are not modelled in detail here.  The connection runner may start `serve` at any
time after `Run`; the handler runner is either `SequentialRunner` (`seq`), whose `Run`
returns when the function has returned, or any other runner, which may start the function at
any time after `Run` was called, once (C23), concurrently with everything else.
-/

namespace Verif

/-- `ConnState`, net.go:14-43. -/
inductive CState where
  | new | handshake | active | idle | closed
  deriving DecidableEq, Repr

/-- What can be observed of one connection: calls of the `ConnState` callback, calls of the
handler with a request, and the closing of the network connection. -/
inductive SrvEvent where
  | state (s : CState)
  | handle (q : Request)
  | close

/-- Where the goroutine in charge of the connection is: first the `Serve` loop, in `accept`
(server.go:255-282), then the goroutine that runs `serve` (server.go:284-311). -/
inductive Phase where
  | accepted    -- before `setState(StateNew)`, server.go:265
  | reported    -- before the test of the limit, server.go:269-270
  | refusing    -- in the deferred calls, before `setState(StateClosed)`, server.go:274
  | refused     -- in the deferred calls, before `c.Close()`, server.go:273
  | admitted    -- before `AddInt32`, server.go:278
  | queued      -- `cr.Run` called, `serve` not started, server.go:279
  | loop        -- in the `select`, server.go:291
  | busy        -- in `r.Run` of a sequential runner, server.go:302
  | closing     -- in the deferred calls, before `setState(StateClosed)`, server.go:287
  | closingNet  -- in the deferred calls, before `c.Close()`, server.go:286
  | gone
  deriving DecidableEq, Repr

/-- The receiver goroutine, server.go:112-129. -/
inductive RcvPc where
  | off                 -- not started, server.go:133-135
  | reading             -- in `Receive`, server.go:114
  | offer (q : Request) -- sending a request, server.go:115
  | offerErr            -- sending an error, server.go:115
  | ended               -- the channel is closed, server.go:118-119

/-- A request that was handed to the handler runner, server.go:315-343. -/
inductive TaskPc where
  | pending  -- `serveReq` not started
  | active   -- `setState` called, before `h.Serve`, server.go:321-333
  | handled  -- `h.Serve` called, before `setState(StateIdle)`, server.go:333-342
  | done
  deriving DecidableEq, Repr

/-- One connection.  `arrived`, `dispatched` and `trace` are history: the requests returned
by `Receive`, the requests passed to `Runner.Run`, the observable events.  `leaked`: the
serve loop has ended through the stop channel, without giving back its slot. -/
structure ConnSt where
  phase : Phase
  rcv : RcvPc
  tasks : List (Request × TaskPc)
  arrived : List Request
  dispatched : List Request
  trace : List SrvEvent
  leaked : Bool

def ConnSt.fresh : ConnSt := ⟨.accepted, .off, [], [], [], [], false⟩

/-- The state reported while a request is handled, server.go:316-319; `TypeHello` is 0
(header.go:18). -/
def requestState (q : Request) : CState := if q.header.type = 0 then .handshake else .active

/-- Effect of a step on the server: on the counter `conns` and on the number of `Serve` loops
that are waiting in `Accept`. -/
structure Effect where
  conns : Int
  free : Nat
  deriving DecidableEq, Repr

/-- One step of a connection.  `room`: the limit would admit a connection now; `stopped`:
the stop channel is closed. -/
inductive ConnSt.Step (seq room stopped : Bool) : ConnSt → Effect → ConnSt → Prop where
  /-- `setState(c, StateNew)`, server.go:265 -/
  | new (s) (h : s.phase = .accepted) :
    Step seq room stopped s ⟨0, 0⟩
      { s with phase := .reported, trace := s.trace ++ [.state .new] }
  /-- the test of the limit fails, server.go:269-275 -/
  | refuse (s) (h : s.phase = .reported) (hr : room = false) :
    Step seq room stopped s ⟨0, 0⟩ { s with phase := .refusing }
  /-- deferred `setState(c, StateClosed)`, server.go:274 -/
  | refuseState (s) (h : s.phase = .refusing) :
    Step seq room stopped s ⟨0, 0⟩
      { s with phase := .refused, trace := s.trace ++ [.state .closed] }
  /-- deferred `c.Close()`, server.go:273; `accept` returns -/
  | refuseClose (s) (h : s.phase = .refused) :
    Step seq room stopped s ⟨0, 1⟩ { s with phase := .gone, trace := s.trace ++ [.close] }
  /-- the test of the limit succeeds, server.go:269-270 -/
  | admit (s) (h : s.phase = .reported) (hr : room = true) :
    Step seq room stopped s ⟨0, 0⟩ { s with phase := .admitted }
  /-- `AddInt32(&srv.conns, 1)` and `cr.Run`, server.go:278-279 -/
  | add (s) (h : s.phase = .admitted) :
    Step seq room stopped s ⟨1, 1⟩ { s with phase := .queued }
  /-- `serve` starts; `rcvr.C()` starts the receiver, server.go:284-296, 124-135 -/
  | start (s) (h : s.phase = .queued) :
    Step seq room stopped s ⟨0, 0⟩ { s with phase := .loop, rcv := .reading }
  /-- `Receive` returns a request, server.go:114 -/
  | receive (s q) (h : s.rcv = .reading) :
    Step seq room stopped s ⟨0, 0⟩ { s with rcv := .offer q, arrived := s.arrived ++ [q] }
  /-- `Receive` returns an error, server.go:114 -/
  | receiveErr (s) (h : s.rcv = .reading) :
    Step seq room stopped s ⟨0, 0⟩ { s with rcv := .offerErr }
  /-- a request passes through the channel and is given to the runner, server.go:115,296,302 -/
  | deliver (s q) (h : s.phase = .loop) (hq : s.rcv = .offer q) :
    Step seq room stopped s ⟨0, 0⟩
      { s with rcv := .reading, tasks := s.tasks ++ [(q, .pending)],
               dispatched := s.dispatched ++ [q], phase := if seq then .busy else .loop }
  /-- an error passes through the channel, server.go:115-119,296-299 -/
  | fail (s) (h : s.phase = .loop) (hq : s.rcv = .offerErr) :
    Step seq room stopped s ⟨-1, 0⟩ { s with rcv := .ended, phase := .closing }
  /-- the stop channel, server.go:307-308 -/
  | stop (s) (h : s.phase = .loop) (hs : stopped = true) :
    Step seq room stopped s ⟨0, 0⟩ { s with phase := .closing, leaked := true }
  /-- deferred `setState(c, StateClosed)`, server.go:287 -/
  | closeState (s) (h : s.phase = .closing) :
    Step seq room stopped s ⟨0, 0⟩
      { s with phase := .closingNet, trace := s.trace ++ [.state .closed] }
  /-- deferred `c.Close()`, server.go:286 -/
  | closeNet (s) (h : s.phase = .closingNet) :
    Step seq room stopped s ⟨0, 0⟩ { s with phase := .gone, trace := s.trace ++ [.close] }
  /-- `serveReq` starts: `setState`, server.go:316-321 -/
  | taskActive (s a q b) (h : s.tasks = a ++ (q, .pending) :: b) :
    Step seq room stopped s ⟨0, 0⟩
      { s with tasks := a ++ (q, .active) :: b, trace := s.trace ++ [.state (requestState q)] }
  /-- `h.Serve(resp, req)` and `c.Flush()`, server.go:332-337 -/
  | taskHandle (s a q b) (h : s.tasks = a ++ (q, .active) :: b) :
    Step seq room stopped s ⟨0, 0⟩
      { s with tasks := a ++ (q, .handled) :: b, trace := s.trace ++ [.handle q] }
  /-- `setState(c, StateIdle)`, server.go:342; a sequential runner returns to the loop -/
  | taskDone (s a q b) (h : s.tasks = a ++ (q, .handled) :: b) :
    Step seq room stopped s ⟨0, 0⟩
      { s with tasks := a ++ (q, .done) :: b, trace := s.trace ++ [.state .idle],
               phase := if seq then .loop else s.phase }

/-- The states of one connection, in a server that may do anything with the limit and the
stop channel. -/
inductive ConnSt.Reach (seq : Bool) : ConnSt → Prop where
  | init : Reach seq .fresh
  | tail {s s' eff} (room stopped : Bool) (h : Reach seq s) (st : Step seq room stopped s eff s') :
    Reach seq s'

/-! ## The server -/

/-- `int32(srv.MaxConns)`, server.go:270. -/
def toInt32 (m : Int) : Int := (m + 2 ^ 31) % 2 ^ 32 - 2 ^ 31

/-- The test of server.go:269-270, negated. -/
def hasRoom (maxConns conns : Int) : Bool := !(maxConns != 0 && conns ≥ toInt32 maxConns)

/-- The server: the counter `conns` (server.go:194; simplification: it does not overflow),
the number of `Serve` loops waiting in `Accept`, all connections ever accepted, and whether
the stop channel is closed. -/
structure Srv where
  conns : Int
  free : Nat
  cs : List ConnSt
  stopped : Bool

/-- `loops` calls of `Serve` are under way. -/
def Srv.init (loops : Nat) : Srv := ⟨0, loops, [], false⟩

inductive Srv.Step (seq : Bool) (maxConns : Int) : Srv → Srv → Prop where
  /-- `l.Accept()` returns a connection, server.go:256-263 -/
  | accept (v) (h : 0 < v.free) :
    Step seq maxConns v { v with free := v.free - 1, cs := v.cs ++ [.fresh] }
  /-- `l.Accept()` returns an error: that `Serve` loop ends, server.go:257-259, 244-248 -/
  | acceptErr (v) (h : 0 < v.free) :
    Step seq maxConns v { v with free := v.free - 1 }
  /-- a step of one connection -/
  | conn (v a s b eff s') (h : v.cs = a ++ s :: b)
    (st : ConnSt.Step seq (hasRoom maxConns v.conns) v.stopped s eff s') :
    Step seq maxConns v
      { v with cs := a ++ s' :: b, conns := v.conns + eff.conns, free := v.free + eff.free }
  /-- `close(srv.stop)`, server.go:346-348 -/
  | stop (v) : Step seq maxConns v { v with stopped := true }

inductive Srv.Reach (seq : Bool) (maxConns : Int) (loops : Nat) : Srv → Prop where
  | init : Reach seq maxConns loops (.init loops)
  | tail {v v'} (h : Reach seq maxConns loops v) (st : Step seq maxConns v v') :
    Reach seq maxConns loops v'

/-- Every connection of a reachable server is in a reachable state. -/
theorem Srv.Reach.conn {seq : Bool} {m : Int} {loops : Nat} {v : Srv} (h : Srv.Reach seq m loops v) :
    ∀ s ∈ v.cs, ConnSt.Reach seq s := by
  induction h with
  | init => simp [Srv.init]
  | tail _ st ih =>
    cases st with
    | accept h =>
      intro s hs
      simp only [List.mem_append, List.mem_singleton] at hs
      rcases hs with hs | rfl
      · exact ih s hs
      · exact .init
    | acceptErr h => exact ih
    | conn a s b eff s' h st =>
      intro t ht
      simp only [List.mem_append, List.mem_cons] at ht
      have hs := ih s (by rw [h]; simp)
      rcases ht with ht | rfl | ht
      · exact ih t (by rw [h]; simp [ht])
      · exact .tail _ _ hs st
      · exact ih t (by rw [h]; simp [ht])
    | stop => exact ih

end Verif
