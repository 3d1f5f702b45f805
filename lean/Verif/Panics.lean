import Verif.Server

/-!
# server.go: panics of handlers and of the `ConnState` callback

The comment at server.go:271-272 says why the closing of a connection is deferred: the
`ConnState` function of the user may panic.  Here both kinds of functions a user gives to a
server, the callback and the handlers, may panic, and the panic is recovered by the program:
by the runner the user chose (`Runner` is an interface, runner.go), or by the caller of
`Serve`.  A panic that nobody recovers ends the program and is not modelled.

A panic in a function that a sequential handler runner runs unwinds `serve`; in a function
that runs on another goroutine it ends that function only.
-/

namespace Verif

/-- One step of a connection of a server whose functions may panic. -/
inductive ConnSt.PStep (seq room stopped : Bool) : ConnSt → Effect → ConnSt → Prop where
  /-- no function panics.  A panic of the callback in the deferred `setState(c, StateClosed)`
  (server.go:287) is among these steps: the deferred `c.Close()` (server.go:286) runs after
  it as it does after a return. -/
  | step (s eff s') (st : ConnSt.Step seq room stopped s eff s') : PStep seq room stopped s eff s'
  /-- the callback panics in `setState(c, StateNew)`, server.go:265: no deferred call of
  `accept` has been set up; `Serve` ends (server.go:244), so its loop does not wait in
  `Accept` again -/
  | new (s) (h : s.phase = .accepted) :
    PStep seq room stopped s ⟨0, 0⟩
      { s with phase := .gone, trace := s.trace ++ [.state .new] }
  /-- the callback panics in the deferred `setState(c, StateClosed)` of `accept`,
  server.go:274: the deferred `c.Close()` runs, `Serve` ends.  Simplification: in one step -/
  | refuse (s) (h : s.phase = .refusing) :
    PStep seq room stopped s ⟨0, 0⟩
      { s with phase := .gone, trace := s.trace ++ [.state .closed, .close] }
  /-- the callback panics before the handler is called, server.go:321 -/
  | taskActive (s a q b) (h : s.tasks = a ++ (q, .pending) :: b) :
    PStep seq room stopped s ⟨0, 0⟩
      { s with tasks := a ++ (q, .done) :: b, trace := s.trace ++ [.state (requestState q)],
               phase := if seq then .closing else s.phase, leaked := seq || s.leaked }
  /-- the handler panics, server.go:333: the buffer is not flushed -/
  | taskHandle (s a q b) (h : s.tasks = a ++ (q, .active) :: b) :
    PStep seq room stopped s ⟨0, 0⟩
      { s with tasks := a ++ (q, .done) :: b, trace := s.trace ++ [.handle q],
               phase := if seq then .closing else s.phase, leaked := seq || s.leaked }
  /-- the callback panics after the handler has returned, server.go:342 -/
  | taskDone (s a q b) (h : s.tasks = a ++ (q, .handled) :: b) :
    PStep seq room stopped s ⟨0, 0⟩
      { s with tasks := a ++ (q, .done) :: b, trace := s.trace ++ [.state .idle],
               phase := if seq then .closing else s.phase, leaked := seq || s.leaked }

/-- A server whose functions may panic; the other steps are those of `Srv.Step`
(server.go:221-348). -/
inductive Srv.PStep (seq : Bool) (maxConns : Int) : Srv → Srv → Prop where
  | accept (v) (h : 0 < v.free) :
    PStep seq maxConns v { v with free := v.free - 1, cs := v.cs ++ [.fresh] }
  | acceptErr (v) (h : 0 < v.free) :
    PStep seq maxConns v { v with free := v.free - 1 }
  | conn (v a s b eff s') (h : v.cs = a ++ s :: b)
    (st : ConnSt.PStep seq (hasRoom maxConns v.conns) v.stopped s eff s') :
    PStep seq maxConns v
      { v with cs := a ++ s' :: b, conns := v.conns + eff.conns, free := v.free + eff.free }
  | stop (v) : PStep seq maxConns v { v with stopped := true }

/-- Finitely many steps of the server. -/
inductive Srv.PSteps (seq : Bool) (maxConns : Int) : Srv → Srv → Prop where
  | refl (v) : PSteps seq maxConns v v
  | tail {v v' v''} (h : PSteps seq maxConns v v') (st : PStep seq maxConns v' v'') :
    PSteps seq maxConns v v''

end Verif
