import Verif.Go.Bytes

/-!
# runner.go: `MultiRoutineRunner`

Functions are identified by numbers.  `prog f` are the functions that `f` itself submits to
the same runner while it runs.
-/

namespace Verif

/-- `NewMultiRoutineRunner`, runner.go:48-56: `none` is a panic, otherwise the number of
workers, which also is the capacity of the queue. -/
def newMultiRoutineRunner (num : Int) : Option Nat :=
  if num ≤ 0 then none else some num.toNat

/-- The state of a `MultiRoutineRunner`, runner.go:39-43, of its workers and of the
goroutines that call `Run`.  Workers and callers are interchangeable, so they are not named:

* `started`: `once` has been used;
* `idle`: the number of workers waiting in `range mrr.q`;
* `q`: the contents of the channel;
* `held`: functions received by a worker that has not called them yet (runner.go:66-67);
* `running`: functions being executed, with the submissions they still have to make;
* `todo`: what every calling goroutine still has to submit, in order.

The last four fields are history: in which order functions were sent to the channel,
received from it, called, and have returned. -/
structure RunnerSys where
  started : Bool
  idle : Nat
  q : List Nat
  held : List Nat
  running : List (Nat × List Nat)
  todo : List (List Nat)
  sent : List Nat
  received : List Nat
  called : List Nat
  returned : List Nat

/-- A new runner, and goroutines about to call `Run` for the given functions. -/
def RunnerSys.init (todo : List (List Nat)) : RunnerSys :=
  ⟨false, 0, [], [], [], todo, [], [], [], []⟩

/-- One step.  Simplifications: `once.Do(mrr.init)` (runner.go:74, 59-63) is one step, as
other callers wait for it; a send to a channel with a waiting receiver is a send followed by
a receive. -/
inductive RunnerSys.Step (n : Nat) (prog : Nat → List Nat) : RunnerSys → RunnerSys → Prop where
  /-- `mrr.once.Do(mrr.init)`, runner.go:74 -/
  | once (s) (hs : s.started = false) (ht : ∃ l ∈ s.todo, l ≠ []) :
    Step n prog s { s with started := true, idle := n }
  /-- `mrr.q <- fn`, runner.go:75 -/
  | send (s a f l b) (hs : s.started = true) (ht : s.todo = a ++ (f :: l) :: b)
    (hq : s.q.length < n) :
    Step n prog s { s with todo := a ++ l :: b, q := s.q ++ [f], sent := s.sent ++ [f] }
  /-- `mrr.q <- fn` in a function that is running -/
  | nested (s a g f l b) (ht : s.running = a ++ (g, f :: l) :: b) (hq : s.q.length < n) :
    Step n prog s
      { s with running := a ++ (g, l) :: b, q := s.q ++ [f], sent := s.sent ++ [f] }
  /-- `for fn := range mrr.q`, runner.go:66 -/
  | receive (s f q) (hi : 0 < s.idle) (hq : s.q = f :: q) :
    Step n prog s { s with idle := s.idle - 1, q := q, held := s.held ++ [f],
                           received := s.received ++ [f] }
  /-- the call of `fn()`, runner.go:67 -/
  | call (s a f b) (hh : s.held = a ++ f :: b) :
    Step n prog s { s with held := a ++ b, running := s.running ++ [(f, prog f)],
                           called := s.called ++ [f] }
  /-- the return of `fn()`, runner.go:67 -/
  | return (s a f b) (hr : s.running = a ++ (f, []) :: b) :
    Step n prog s { s with running := a ++ b, idle := s.idle + 1, returned := s.returned ++ [f] }

/-- Reachable from `s₀`. -/
inductive RunnerSys.Reach (n : Nat) (prog : Nat → List Nat) (s₀ : RunnerSys) : RunnerSys → Prop where
  | refl : Reach n prog s₀ s₀
  | tail {s s'} (h : Reach n prog s₀ s) (st : Step n prog s s') : Reach n prog s₀ s'

/-! ## Invariants -/

structure RunnerSys.Inv (n : Nat) (s : RunnerSys) : Prop where
  fifo : s.sent = s.received ++ s.q
  calls : List.Perm s.received (s.called ++ s.held)
  returns : List.Perm s.called (s.returned ++ s.running.map (·.1))
  workers : s.idle + s.held.length + s.running.length = if s.started then n else 0
  cap : s.q.length ≤ n
  idleEmpty : s.started = false → s.q = [] ∧ s.held = [] ∧ s.running = []

theorem RunnerSys.inv {n : Nat} {prog : Nat → List Nat} {todo : List (List Nat)} {s : RunnerSys}
    (h : Reach n prog (.init todo) s) : s.Inv n := by
  induction h with
  | refl => constructor <;> simp [RunnerSys.init]
  | @tail s s' _ st ih =>
    obtain ⟨i1, i2, i3, i4, i5, i6⟩ := ih
    cases st with
    | once hs ht =>
      obtain ⟨h1, h2, h3⟩ := i6 hs
      exact ⟨i1, i2, i3, by simp [h2, h3], i5, by simp⟩
    | send a f l b hs ht hq =>
      refine ⟨?_, i2, i3, i4, ?_, ?_⟩
      · simp only; rw [i1, List.append_assoc]
      · simp only [List.length_append, List.length_cons, List.length_nil]; omega
      · intro h; rw [hs] at h; simp at h
    | nested a g f l b ht hq =>
      have hst : s.started = true := by
        cases hs : s.started with
        | true => rfl
        | false => have := (i6 hs).2.2; rw [ht] at this; simp at this
      refine ⟨?_, i2, ?_, ?_, ?_, ?_⟩
      · simp only; rw [i1, List.append_assoc]
      · rw [ht] at i3; simpa using i3
      · rw [ht] at i4; simpa using i4
      · simp only [List.length_append, List.length_cons, List.length_nil]; omega
      · intro h; simp only at h; rw [hst] at h; simp at h
    | receive f q hi hq =>
      have hst : s.started = true := by
        cases hs : s.started with
        | true => rfl
        | false => have := (i6 hs).1; rw [hq] at this; simp at this
      refine ⟨?_, ?_, i3, ?_, ?_, ?_⟩
      · simp only; rw [i1, hq]; simp
      · simp only; rw [← List.append_assoc]; exact i2.append_right [f]
      · simp only [List.length_append, List.length_cons, List.length_nil]; rw [← i4]; omega
      · rw [hq] at i5; simp at i5 ⊢; omega
      · intro h; simp only at h; rw [hst] at h; simp at h
    | call a f b hh =>
      have hst : s.started = true := by
        cases hs : s.started with
        | true => rfl
        | false => have := (i6 hs).2.1; rw [hh] at this; simp at this
      refine ⟨i1, ?_, ?_, ?_, i5, ?_⟩
      · simp only
        rw [hh] at i2
        refine i2.trans ?_
        rw [List.append_assoc]
        refine List.Perm.append_left _ ?_
        exact List.perm_middle
      · simp only [List.map_append, List.map_cons, List.map_nil]
        rw [← List.append_assoc]; exact i3.append_right [f]
      · rw [hh] at i4; simp only [List.length_append, List.length_cons, List.length_nil] at i4 ⊢
        rw [← i4]; omega
      · intro h; simp only at h; rw [hst] at h; simp at h
    | «return» a f b hr =>
      have hst : s.started = true := by
        cases hs : s.started with
        | true => rfl
        | false => have := (i6 hs).2.2; rw [hr] at this; simp at this
      refine ⟨i1, i2, ?_, ?_, i5, ?_⟩
      · simp only
        rw [hr] at i3
        refine i3.trans ?_
        rw [List.append_assoc]
        refine List.Perm.append_left _ ?_
        simp only [List.map_append, List.map_cons, List.singleton_append]
        exact List.perm_middle
      · rw [hr] at i4; simp only [List.length_append, List.length_cons] at i4 ⊢
        rw [← i4]; omega
      · intro h; simp only at h; rw [hst] at h; simp at h

end Verif
