import Verif.Ofputil

/-!
# ofptest: the response recorder and the test server
-/

namespace Verif

/-! ## recorder.go -/

/-- `ResponseRecorder`, ofptest/recorder.go:11-13. -/
structure Recorder where
  reqs : List Request

/-- `NewRecorder`, ofptest/recorder.go:16-18. -/
def Recorder.new : Recorder := ⟨[]⟩

/-- `(r *ResponseRecorder) Write`, ofptest/recorder.go:21-27: `w` is the message, nil or
what its successive `WriteTo` calls do.  It is not called here. -/
def Recorder.write (r : Recorder) (h : Header) (w : Option (Nat → Wr)) : Option Err × Recorder :=
  (none, ⟨r.reqs ++ [{ newRequest h.type w with header := h }]⟩)

/-- `(r *ResponseRecorder) First`, ofptest/recorder.go:38-41, on a possibly nil receiver.
`notempty` (ofptest/recorder.go:30-34) only tests for nil; on an empty list the index
expression panics. -/
def Recorder.first : Option Recorder → Except Err Request
  | none => .error .panic
  | some r => match r.reqs with
    | [] => .error .panic
    | q :: _ => .ok q

/-- `(r *ResponseRecorder) Last`, ofptest/recorder.go:45-48. -/
def Recorder.last : Option Recorder → Except Err Request
  | none => .error .panic
  | some r => match r.reqs[r.reqs.length - 1]? with
    | none => .error .panic
    | some q => .ok q

/-- `(r *ResponseRecorder) All`, ofptest/recorder.go:52-54. -/
def Recorder.all (r : Recorder) : List Request := r.reqs

/-! ## server.go

The test server around `openflow.Server`.  Connections are numbered in the order in which
they are accepted. -/

/-- Where a `Close` call (ofptest/server.go:141-152) is while it holds `s.mu`. -/
inductive ClosePc where
  | idle
  /-- Has the lock, before ofptest/server.go:145. -/
  | start
  /-- Waits for the closing goroutines in `CloseClientConnections`,
  ofptest/server.go:130-136. -/
  | waiting
  deriving DecidableEq, Repr

/-- `Server`, ofptest/server.go:14-27, its goroutines, and ghost fields. -/
structure TestSrv where
  /-- The listener accepts connections. -/
  listening : Bool
  /-- `s.closed`. -/
  closed : Bool
  /-- Accepted; the callback with `StateNew` has not got the lock yet. -/
  pending : List Nat
  /-- `s.conns`. -/
  conns : List Nat
  /-- Connections on which `Close` has been called. -/
  shut : List Nat
  /-- Connections accepted so far. -/
  count : Nat
  pc : ClosePc
  /-- Connections whose closing goroutine (ofptest/server.go:113-116) is not done. -/
  closers : List Nat
  /-- Ghost: `s.conns` when the first `Close` call had the lock. -/
  snapshot : List Nat
  /-- Ghost: `Close` calls that have returned. -/
  returned : Nat
  /-- Ghost: the timer of ofptest/server.go:127 fired. -/
  timeout : Bool

/-- After `Start`, ofptest/server.go:103-109. -/
def TestSrv.init : TestSrv := ⟨true, false, [], [], [], 0, .idle, [], [], 0, false⟩

/-- Steps of the test server.  `s.mu` is free iff `pc = idle`: the callback of `wrap`
(ofptest/server.go:82-98) holds it for one step only.  Any number of goroutines may call
`Close`: all but one wait for the lock.  Simplification: `CloseClientConnections` is not
called directly (it reads the map without the lock), and its loop over the map is one step; see
`Verif.CloseClients` for both. -/
inductive TestSrv.Step : TestSrv → TestSrv → Prop
  /-- `Accept` in the serve loop returns a connection. -/
  | accept (s : TestSrv) : s.listening = true →
      Step s { s with pending := s.pending ++ [s.count], count := s.count + 1 }
  /-- The callback for a new connection, ofptest/server.go:83-94. -/
  | track (s : TestSrv) (c : Nat) : s.pc = .idle → c ∈ s.pending →
      Step s { s with pending := s.pending.erase c, conns := s.conns ++ [c] }
  /-- `Close` takes the lock, ofptest/server.go:142. -/
  | begin (s : TestSrv) : s.pc = .idle → Step s { s with pc := .start }
  /-- `Close` on a closed server, ofptest/server.go:145-147. -/
  | again (s : TestSrv) : s.pc = .start → s.closed = true →
      Step s { s with pc := .idle, returned := s.returned + 1 }
  /-- ofptest/server.go:149-151, 120-127. -/
  | first (s : TestSrv) : s.pc = .start → s.closed = false →
      Step s { s with closed := true, listening := false, pc := .waiting, closers := s.conns, snapshot := s.conns }
  /-- A closing goroutine, ofptest/server.go:113-116. -/
  | shutOne (s : TestSrv) (c : Nat) : c ∈ s.closers →
      Step s { s with closers := s.closers.erase c, shut := c :: s.shut }
  /-- All notifications have been received. -/
  | finish (s : TestSrv) : s.pc = .waiting → s.closers = [] →
      Step s { s with pc := .idle, returned := s.returned + 1 }
  /-- The timer fires first, ofptest/server.go:133-134. -/
  | expire (s : TestSrv) : s.pc = .waiting →
      Step s { s with pc := .idle, returned := s.returned + 1, timeout := true }

/-- A connection is closed by the serve loop or by the peer; only connections that have
been accepted. -/
inductive TestSrv.Env : TestSrv → TestSrv → Prop
  | gone (s : TestSrv) (c : Nat) : c < s.count → Env s { s with shut := c :: s.shut }

/-- Reachable states. -/
inductive TestSrv.Reach : TestSrv → TestSrv → Prop
  | refl (s : TestSrv) : Reach s s
  | step {s t u : TestSrv} : Reach s t → TestSrv.Step t u → Reach s u
  | env {s t u : TestSrv} : Reach s t → TestSrv.Env t u → Reach s u

/-- Reachable by steps of the test server alone. -/
inductive TestSrv.Runs : TestSrv → TestSrv → Prop
  | refl (s : TestSrv) : Runs s s
  | step {s t u : TestSrv} : Runs s t → TestSrv.Step t u → Runs s u

end Verif
