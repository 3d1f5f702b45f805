import Verif.Go.Bytes

/-!
# runner.go: `SequentialRunner` and `OnDemandRoutineRunner`

Functions are identified by numbers.  `prog f` are the functions that `f` itself submits to
the same runner while it runs, in order.
-/

namespace Verif

/-- What happens to a function that has been submitted (not part of the program). -/
inductive RunEv where
  | start (f : Nat)
  | finish (f : Nat)
  deriving DecidableEq, Repr

/-- A goroutine that uses a `SequentialRunner`: what it still has to submit, and the functions
it is executing, the innermost first, each with what it still has to submit. -/
structure SeqGo where
  todo : List Nat
  stack : List (Nat × List Nat)
  deriving DecidableEq, Repr

/-- Goroutines that share a `SequentialRunner`, runner.go:29 (the runner itself has no state),
and what has happened, with the goroutine it happened in. -/
structure SeqSys where
  gos : List SeqGo
  events : List (Nat × RunEv)

/-- Goroutines about to submit the given functions. -/
def SeqSys.init (todo : List (List Nat)) : SeqSys := ⟨todo.map (fun l => ⟨l, []⟩), []⟩

/-- One step of one goroutine.  `(SequentialRunner) Run`, runner.go:32-34, is a call: what is
behind it in the goroutine waits until the function has returned. -/
inductive SeqSys.Step (prog : Nat → List Nat) : SeqSys → SeqSys → Prop where
  /-- `fn()`, runner.go:33, in the goroutine itself -/
  | run (s : SeqSys) (i : Nat) (f : Nat) (l : List Nat) (h : s.gos[i]? = some ⟨f :: l, []⟩) :
    Step prog s ⟨s.gos.set i ⟨l, [(f, prog f)]⟩, s.events ++ [(i, .start f)]⟩
  /-- `fn()`, runner.go:33, in a function that is running -/
  | nested (s : SeqSys) (i : Nat) (l : List Nat) (g f : Nat) (k : List Nat) (st : List (Nat × List Nat))
    (h : s.gos[i]? = some ⟨l, (g, f :: k) :: st⟩) :
    Step prog s ⟨s.gos.set i ⟨l, (f, prog f) :: (g, k) :: st⟩, s.events ++ [(i, .start f)]⟩
  /-- the return of `fn()`, and of `Run` -/
  | return (s : SeqSys) (i : Nat) (l : List Nat) (f : Nat) (st : List (Nat × List Nat))
    (h : s.gos[i]? = some ⟨l, (f, []) :: st⟩) :
    Step prog s ⟨s.gos.set i ⟨l, st⟩, s.events ++ [(i, .finish f)]⟩

/-- Reachable from `s₀`. -/
inductive SeqSys.Reach (prog : Nat → List Nat) (s₀ : SeqSys) : SeqSys → Prop where
  | refl : Reach prog s₀ s₀
  | tail {s s'} (h : Reach prog s₀ s) (st : Step prog s s') : Reach prog s₀ s'

/-- What has happened in goroutine `i`. -/
def SeqSys.eventsOf (s : SeqSys) (i : Nat) : List RunEv :=
  (s.events.filter (fun p => p.1 == i)).map (·.2)

/-- A goroutine of a program that uses an `OnDemandRoutineRunner`: one of those that are there
from the start (`none`) or one that executes a function, with what it still has to submit;
`fresh` has been created by a `go` statement and has not called its function yet. -/
inductive DemandGo where
  | fresh (f : Nat)
  | live (f : Option Nat) (todo : List Nat)
  deriving DecidableEq, Repr

/-- Goroutines that share an `OnDemandRoutineRunner`, runner.go:17 (the runner itself has no
state), and, as history, the functions submitted, called and returned. -/
structure DemandSys where
  gos : List DemandGo
  submitted : List Nat
  called : List Nat
  returned : List Nat

/-- Goroutines about to submit the given functions. -/
def DemandSys.init (todo : List (List Nat)) : DemandSys := ⟨todo.map (.live none), [], [], []⟩

/-- One step of one goroutine. -/
inductive DemandSys.Step (prog : Nat → List Nat) : DemandSys → DemandSys → Prop where
  /-- `go fn()`, runner.go:22; `Run` returns -/
  | run (s : DemandSys) (a : List DemandGo) (x : Option Nat) (f : Nat) (l : List Nat) (b : List DemandGo)
    (h : s.gos = a ++ .live x (f :: l) :: b) :
    Step prog s { s with gos := a ++ .live x l :: b ++ [.fresh f], submitted := s.submitted ++ [f] }
  /-- the new goroutine calls the function -/
  | call (s : DemandSys) (a : List DemandGo) (f : Nat) (b : List DemandGo) (h : s.gos = a ++ .fresh f :: b) :
    Step prog s { s with gos := a ++ .live (some f) (prog f) :: b, called := s.called ++ [f] }
  /-- the function returns, and the goroutine ends -/
  | return (s : DemandSys) (a : List DemandGo) (f : Nat) (b : List DemandGo)
    (h : s.gos = a ++ .live (some f) [] :: b) :
    Step prog s { s with gos := a ++ b, returned := s.returned ++ [f] }

/-- Reachable from `s₀`. -/
inductive DemandSys.Reach (prog : Nat → List Nat) (s₀ : DemandSys) : DemandSys → Prop where
  | refl : Reach prog s₀ s₀
  | tail {s s'} (h : Reach prog s₀ s) (st : Step prog s s') : Reach prog s₀ s'

end Verif
