import Verif.Server
import Verif.Go.Bytes

/-!
# One call of `Serve` and its listener

Models `/repo/server.go:221-282`.  `Verif/Server.lean` keeps of a `Serve` call only whether it
waits in `Accept`; here the call has its listener, the results of `Accept`, the deferred
`l.Close()` and the value it returns, and its `ConnRunner` is an `OnDemandRoutineRunner` or a
`SequentialRunner` (runner.go:13-34).

Simplifications: `net.Listener` is the sequence of results of `Accept`, each a connection or
any error, and the number of calls of `Close`, whose result the code drops; the defaults of the
nil fields of the server (server.go:226-239) are taken to be resolved; nothing panics
(`Verif/Panics.lean`); `MultiRoutineRunner` is in `Verif/Pools.lean`.
-/

namespace Verif

/-- What `l.Accept()` returned, server.go:256-259. -/
inductive Accepted where
  | conn
  | err (e : Err)
  deriving DecidableEq, Repr

/-- A call of `Serve`, server.go:221-250: the server it belongs to (only this call accepts for
it), what `Accept` returned so far, how often the listener was closed, the error `accept`
returned to the loop, and the error `Serve` returned to its caller. -/
structure ServeCall where
  srv : Srv
  accepts : List Accepted
  closes : Nat
  failed : Option Err
  result : Option Err

/-- `Serve` is called, server.go:221-242. -/
def ServeCall.init : ServeCall := ⟨.init 1, [], 0, none, none⟩

/-- What a step of a connection does to the counter of connections and to the goroutine of
`Serve`.  With a `ConnRunner` that starts a goroutine (runner.go:21-23), `accept` returns when
the connection was refused or given to the runner.  With a `SequentialRunner` (runner.go:32-34)
`cr.Run` returns only when `serve` does, after its deferred calls: server.go:279, 284-287. -/
def runnerEffect (cseq : Bool) (s s' : ConnSt) (eff : Effect) : Effect :=
  if cseq then
    ⟨eff.conns, if (s.phase = .refused ∨ s.phase = .closingNet) ∧ s'.phase = .gone then 1 else 0⟩
  else eff

/-- The steps of a call of `Serve`, of the connections it has accepted, and of the stop
channel.  `cseq`: the `ConnRunner` is sequential; `seq`: the `HandlerRunner` is. -/
inductive ServeCall.Step (cseq seq : Bool) (maxConns : Int) : ServeCall → ServeCall → Prop where
  /-- `l.Accept()` returns a connection, server.go:256-263 -/
  | accept (x) (h : 0 < x.srv.free) (hf : x.failed = none) :
    Step cseq seq maxConns x
      { x with srv := { x.srv with free := x.srv.free - 1, cs := x.srv.cs ++ [.fresh] },
               accepts := x.accepts ++ [.conn] }
  /-- `l.Accept()` returns an error, `accept` returns it and the loop ends,
  server.go:257-259, 244-248 -/
  | acceptErr (x e) (h : 0 < x.srv.free) (hf : x.failed = none) :
    Step cseq seq maxConns x
      { x with srv := { x.srv with free := x.srv.free - 1 },
               accepts := x.accepts ++ [.err e], failed := some e }
  /-- the deferred `l.Close()`, server.go:222 -/
  | close (x e) (hf : x.failed = some e) (hc : x.closes = 0) :
    Step cseq seq maxConns x { x with closes := x.closes + 1 }
  /-- `Serve` returns to its caller, server.go:247 -/
  | ret (x e) (hf : x.failed = some e) (hc : x.closes = 1) (hr : x.result = none) :
    Step cseq seq maxConns x { x with result := some e }
  /-- a step of one connection -/
  | conn (x a s b eff s') (h : x.srv.cs = a ++ s :: b)
    (st : ConnSt.Step seq (hasRoom maxConns x.srv.conns) x.srv.stopped s eff s') :
    Step cseq seq maxConns x
      { x with srv := { x.srv with cs := a ++ s' :: b,
                                   conns := x.srv.conns + (runnerEffect cseq s s' eff).conns,
                                   free := x.srv.free + (runnerEffect cseq s s' eff).free } }
  /-- `close(srv.stop)`, server.go:346-348 -/
  | stop (x) : Step cseq seq maxConns x { x with srv := { x.srv with stopped := true } }

/-- The states of a call of `Serve`. -/
inductive ServeCall.Reach (cseq seq : Bool) (maxConns : Int) : ServeCall → Prop where
  | init : Reach cseq seq maxConns .init
  | tail {x x'} (h : Reach cseq seq maxConns x) (st : Step cseq seq maxConns x x') :
    Reach cseq seq maxConns x'

/-- Some number of steps. -/
inductive ServeCall.Steps (cseq seq : Bool) (maxConns : Int) : ServeCall → ServeCall → Prop where
  | refl (x) : Steps cseq seq maxConns x x
  | tail {x y z} (h : Steps cseq seq maxConns x y) (st : Step cseq seq maxConns y z) :
    Steps cseq seq maxConns x z

theorem ServeCall.Reach.steps {cseq seq : Bool} {m : Int} {x y : ServeCall}
    (h : Reach cseq seq m x) (hs : Steps cseq seq m x y) : Reach cseq seq m y := by
  induction hs with
  | refl => exact h
  | tail _ st ih => exact .tail ih st

/-- Every connection of a call of `Serve` is in a state the model of a connection reaches. -/
theorem ServeCall.Reach.conn {cseq seq : Bool} {m : Int} {x : ServeCall}
    (h : ServeCall.Reach cseq seq m x) : ∀ s ∈ x.srv.cs, ConnSt.Reach seq s := by
  induction h with
  | init => simp [ServeCall.init, Srv.init]
  | tail _ st ih =>
    cases st with
    | accept h hf =>
      intro s hs
      simp only [List.mem_append, List.mem_singleton] at hs
      rcases hs with hs | rfl
      · exact ih s hs
      · exact .init
    | acceptErr e h hf => exact ih
    | close e hf hc => exact ih
    | ret e hf hc hr => exact ih
    | conn a s b eff s' h st =>
      intro t ht
      simp only [List.mem_append, List.mem_cons] at ht
      have hs := ih s (by rw [h]; simp)
      rcases ht with ht | rfl | ht
      · exact ih t (by rw [h]; simp [ht])
      · exact .tail _ _ hs st
      · exact ih t (by rw [h]; simp [ht])
    | stop => exact ih

end Verif
