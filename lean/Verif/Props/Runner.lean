import Verif.Runner

/-!
# Property C23: MultiRoutineRunner
-/

namespace Verif.Props

open Verif

/-- C23.  `NewMultiRoutineRunner` panics iff the number is not positive. -/
theorem runner_new (num : Int) : newMultiRoutineRunner num = none ↔ num ≤ 0 := by
  unfold newMultiRoutineRunner; split <;> simp_all

/-- C23.  At no time are more than `n` functions running: called and not returned.  For all
functions, also ones that submit to the same runner. -/
theorem runner_bound (n : Nat) (prog : Nat → List Nat) (todo : List (List Nat)) (s : RunnerSys)
    (h : RunnerSys.Reach n prog (.init todo) s) : s.called.length ≤ s.returned.length + n := by
  have inv := RunnerSys.inv h
  have h1 := inv.returns.length_eq
  have h2 := inv.workers
  simp only [List.length_append, List.length_map] at h1
  split at h2 <;> omega

/-- C23.  No function is called more often than it was submitted, or returns more often than
it was called.  For all functions. -/
theorem runner_at_most_once (n : Nat) (prog : Nat → List Nat) (todo : List (List Nat))
    (s : RunnerSys) (h : RunnerSys.Reach n prog (.init todo) s) (f : Nat) :
    s.returned.count f ≤ s.called.count f ∧ s.called.count f ≤ s.sent.count f := by
  have inv := RunnerSys.inv h
  have h1 := inv.returns.count_eq f
  have h2 := inv.calls.count_eq f
  have h3 := congrArg (List.count f) inv.fifo
  simp only [List.count_append] at h1 h2 h3
  omega

/-- C23, the order.  Workers take the functions in the order of submission. -/
theorem runner_fifo (n : Nat) (prog : Nat → List Nat) (todo : List (List Nat)) (s : RunnerSys)
    (h : RunnerSys.Reach n prog (.init todo) s) : s.received <+: s.sent :=
  ⟨s.q, (RunnerSys.inv h).fifo.symm⟩

/-- C23, the order, for one worker: functions are called in the order of submission, each
after the previous one has returned.  Missing: more than one worker, see
`runner_order_false`. -/
theorem runner_order_partial (prog : Nat → List Nat) (todo : List (List Nat)) (s : RunnerSys)
    (h : RunnerSys.Reach 1 prog (.init todo) s) :
    s.called <+: s.sent ∧ s.returned <+: s.called := by
  have key : s.received = s.called ++ s.held ∧ s.called = s.returned ++ s.running.map (·.1) := by
    induction h with
    | refl => simp [RunnerSys.init]
    | @tail s s' h st ih =>
      have hw := (RunnerSys.inv h).workers
      have hw : s.idle + s.held.length + s.running.length ≤ 1 := by
        rw [hw]; split <;> omega
      obtain ⟨i1, i2⟩ := ih
      cases st with
      | once => exact ⟨i1, i2⟩
      | send => exact ⟨i1, i2⟩
      | nested a g f l b ht hq => rw [ht] at i2; exact ⟨i1, by simpa using i2⟩
      | receive f q hi hq => exact ⟨by simp only; rw [i1, List.append_assoc], i2⟩
      | call a f b hh =>
        rw [hh] at i1 hw
        simp only [List.length_append, List.length_cons] at hw
        have ha : a = [] := List.length_eq_zero_iff.mp (by omega)
        have hb : b = [] := List.length_eq_zero_iff.mp (by omega)
        subst ha hb
        refine ⟨by simpa using i1, ?_⟩
        simp only [List.map_append, List.map_cons, List.map_nil]
        rw [← List.append_assoc, ← i2]
      | «return» a f b hr =>
        rw [hr] at i2 hw
        simp only [List.length_append, List.length_cons] at hw
        have ha : a = [] := List.length_eq_zero_iff.mp (by omega)
        have hb : b = [] := List.length_eq_zero_iff.mp (by omega)
        subst ha hb
        exact ⟨i1, by simpa using i2⟩
  have inv := RunnerSys.inv h
  refine ⟨⟨s.held ++ s.q, ?_⟩, ⟨_, key.2.symm⟩⟩
  rw [inv.fifo, key.1, List.append_assoc]

/-- C23, the order, is false as soon as there are two workers: the second function can be
called before the first one. -/
theorem runner_order_false (n : Nat) (hn : 2 ≤ n) (prog : Nat → List Nat) : ∃ s,
    RunnerSys.Reach n prog (.init [[1, 2]]) s ∧ s.sent = [1, 2] ∧ s.called = [2, 1] := by
  have h : RunnerSys.Reach n prog (.init [[1, 2]])
      ⟨true, n - 1 - 1, [], [] ++ [], [(2, prog 2), (1, prog 1)], [[]], [1, 2], [1, 2], [2, 1], []⟩ :=
    .tail (.tail (.tail (.tail (.tail (.tail (.tail .refl
      (.once _ rfl ⟨[1, 2], by simp [RunnerSys.init], by simp⟩))
      (.send _ [] 1 [2] [] rfl rfl (by simp [RunnerSys.init]; omega)))
      (.send _ [] 2 [] [] rfl rfl (by simp [RunnerSys.init]; omega)))
      (.receive _ 1 [2] (by simp only; omega) rfl))
      (.receive _ 2 [] (by simp only; omega) rfl))
      (.call _ [1] 2 [] rfl))
      (.call _ [] 1 [] rfl)
  exact ⟨_, h, rfl, rfl⟩

/-- Nothing is left to do. -/
def RunnerDone (s : RunnerSys) : Prop :=
  (∀ l ∈ s.todo, l = []) ∧ s.q = [] ∧ s.held = [] ∧ s.running = []

/-- C23, progress.  If the functions do not submit to the same runner, the system never gets
stuck: as long as something is left to do, some goroutine can take a step (functions
terminate: the step that ends one is always possible). -/
theorem runner_progress (n : Nat) (hn : 0 < n) (prog : Nat → List Nat) (hp : ∀ f, prog f = [])
    (todo : List (List Nat)) (s : RunnerSys) (h : RunnerSys.Reach n prog (.init todo) s) :
    RunnerDone s ∨ ∃ s', RunnerSys.Step n prog s s' := by
  have hrun : ∀ p ∈ s.running, p.2 = [] := by
    induction h with
    | refl => simp [RunnerSys.init]
    | tail _ st ih =>
      cases st with
      | once => exact ih
      | send => exact ih
      | nested a g f l b ht hq =>
        have := ih (g, f :: l) (by rw [ht]; simp)
        simp at this
      | receive => exact ih
      | call a f b hh =>
        intro p hpm
        simp only [List.mem_append, List.mem_singleton] at hpm
        rcases hpm with hpm | rfl
        · exact ih p hpm
        · exact hp f
      | «return» a f b hr =>
        intro p hpm
        refine ih p ?_
        rw [hr]
        simp only [List.mem_append, List.mem_cons] at hpm ⊢
        rcases hpm with h | h
        · exact .inl h
        · exact .inr (.inr h)
  have inv := RunnerSys.inv h
  by_cases hr : s.running = []
  · by_cases hh : s.held = []
    · cases hs : s.started with
      | false =>
        by_cases ht : ∃ l ∈ s.todo, l ≠ []
        · exact .inr ⟨_, .once s hs ht⟩
        · refine .inl ⟨fun l hl => ?_, (inv.idleEmpty hs).1, hh, hr⟩
          apply Classical.byContradiction
          intro hne
          exact ht ⟨l, hl, hne⟩
      | true =>
        have hw := inv.workers
        rw [hh, hr, hs] at hw
        simp at hw
        cases hq : s.q with
        | cons f q => exact .inr ⟨_, .receive s f q (by omega) hq⟩
        | nil =>
          by_cases ht : ∃ l ∈ s.todo, l ≠ []
          · obtain ⟨l, hl, hne⟩ := ht
            obtain ⟨a, b, hab⟩ := List.append_of_mem hl
            cases l with
            | nil => exact absurd rfl hne
            | cons f l => exact .inr ⟨_, .send s a f l b hs hab (by simp [hq, hn])⟩
          · refine .inl ⟨fun l hl => ?_, hq, hh, hr⟩
            apply Classical.byContradiction
            intro hne
            exact ht ⟨l, hl, hne⟩
    · cases hh' : s.held with
      | nil => exact absurd hh' hh
      | cons f b => exact .inr ⟨_, .call s [] f b hh'⟩
  · cases hr' : s.running with
    | nil => exact absurd hr' hr
    | cons p b =>
      obtain ⟨f, l⟩ := p
      have := hrun (f, l) (by rw [hr']; simp)
      simp only at this
      subst this
      exact .inr ⟨_, .return s [] f b hr'⟩

private theorem todo_perm {n : Nat} {prog : Nat → List Nat} (hp : ∀ f, prog f = [])
    {todo : List (List Nat)} {s : RunnerSys} (h : RunnerSys.Reach n prog (.init todo) s) :
    List.Perm todo.flatten (s.sent ++ s.todo.flatten) ∧ ∀ p ∈ s.running, p.2 = [] := by
  induction h with
  | refl => simp [RunnerSys.init]
  | @tail s s' _ st ih =>
    obtain ⟨i1, i2⟩ := ih
    cases st with
    | once => exact ⟨i1, i2⟩
    | send a f l b hs ht hq =>
      refine ⟨i1.trans ?_, i2⟩
      rw [ht]
      simp only [List.flatten_append, List.flatten_cons, List.append_assoc, List.cons_append,
        List.nil_append]
      exact List.Perm.append_left _ List.perm_middle
    | nested a g f l b ht hq =>
      have := i2 (g, f :: l) (by rw [ht]; simp)
      simp at this
    | receive => exact ⟨i1, i2⟩
    | call a f b hh =>
      refine ⟨i1, fun p hpm => ?_⟩
      simp only [List.mem_append, List.mem_singleton] at hpm
      rcases hpm with hpm | rfl
      · exact i2 p hpm
      · exact hp f
    | «return» a f b hr =>
      refine ⟨i1, fun p hpm => i2 p ?_⟩
      rw [hr]
      simp only [List.mem_append, List.mem_cons] at hpm ⊢
      rcases hpm with h | h
      · exact .inl h
      · exact .inr (.inr h)

/-- C23.  When nothing is left to do, exactly the submitted functions have been called and
have returned, each as often as it was submitted. -/
theorem runner_exactly_once (n : Nat) (prog : Nat → List Nat) (hp : ∀ f, prog f = [])
    (todo : List (List Nat)) (s : RunnerSys) (h : RunnerSys.Reach n prog (.init todo) s)
    (hd : RunnerDone s) : List.Perm s.called todo.flatten ∧ List.Perm s.returned todo.flatten := by
  obtain ⟨d1, d2, d3, d4⟩ := hd
  have inv := RunnerSys.inv h
  have ht : s.todo.flatten = [] := List.flatten_eq_nil_iff.mpr d1
  have h1 := (todo_perm hp h).1
  rw [ht, List.append_nil] at h1
  have h2 := inv.fifo
  rw [d2, List.append_nil] at h2
  have h3 := inv.calls
  rw [d3, List.append_nil] at h3
  have h4 := inv.returns
  rw [d4] at h4
  simp only [List.map_nil, List.append_nil] at h4
  have h5 : List.Perm s.called todo.flatten := (h3.symm.trans (h2 ▸ .refl _)).trans h1.symm
  exact ⟨h5, h4.symm.trans h5⟩

/-- How much work is left. -/
def runnerWork (s : RunnerSys) : Nat :=
  4 * s.todo.flatten.length + 3 * s.q.length + 2 * s.held.length + s.running.length +
    (if s.started then 0 else 1)

/-- C23, termination.  Every step reduces the work that is left, so every execution ends,
after at most `runnerWork` steps; by `runner_progress` it ends with nothing left to do. -/
theorem runner_terminates (n : Nat) (prog : Nat → List Nat) (hp : ∀ f, prog f = [])
    (todo : List (List Nat)) (s s' : RunnerSys) (h : RunnerSys.Reach n prog (.init todo) s)
    (st : RunnerSys.Step n prog s s') : runnerWork s' < runnerWork s := by
  have hrun := (todo_perm hp h).2
  cases st with
  | once hs ht => simp [runnerWork, hs]
  | send a f l b hs ht hq =>
    simp only [runnerWork, ht, List.flatten_append, List.flatten_cons, List.length_append,
      List.length_cons, List.length_nil]
    omega
  | nested a g f l b ht hq =>
    have := hrun (g, f :: l) (by rw [ht]; simp)
    simp at this
  | receive f q hi hq =>
    simp only [runnerWork, hq, List.length_append, List.length_cons, List.length_nil]; omega
  | call a f b hh =>
    simp only [runnerWork, hh, List.length_append, List.length_cons, List.length_nil]; omega
  | «return» a f b hr =>
    simp only [runnerWork, hr, List.length_append, List.length_cons]; omega

/-- The restriction is needed: a function that submits two more to its own runner, with one
worker, blocks for ever. -/
theorem runner_nested_stuck : ∃ (prog : Nat → List Nat) (s : RunnerSys),
    RunnerSys.Reach 1 prog (.init [[1]]) s ∧ ¬ RunnerDone s ∧
    ∀ s', ¬ RunnerSys.Step 1 prog s s' := by
  let prog : Nat → List Nat := fun f => if f = 1 then [2, 3] else []
  have h : RunnerSys.Reach 1 prog (.init [[1]])
      ⟨true, 0, [2], [], [(1, [3])], [[]], [1, 2], [1], [1], []⟩ :=
    .tail (.tail (.tail (.tail (.tail .refl
      (.once _ rfl ⟨[1], by simp [RunnerSys.init], by simp⟩))
      (.send _ [] 1 [] [] rfl rfl (by simp [RunnerSys.init])))
      (.receive _ 1 [] (by simp) rfl))
      (.call _ [] 1 [] rfl))
      (.nested _ [] 1 2 [3] [] rfl (by simp))
  refine ⟨prog, _, h, by simp [RunnerDone], ?_⟩
  intro s' st
  cases st with
  | once hs ht => simp at hs
  | send a f l b hs ht hq => simp at hq
  | nested a g f l b ht hq => simp at hq
  | receive f q hi hq => simp at hi
  | call a f b hh => simp at hh
  | «return» a f b hr =>
    have hm : ((f, []) : Nat × List Nat) ∈ a ++ (f, []) :: b := by simp
    rw [← hr] at hm
    simp at hm

/-- Non-vacuity: one worker, two goroutines, all done. -/
example : ∃ s, RunnerSys.Reach 1 (fun _ => []) (.init [[1], [2]]) s ∧ RunnerDone s ∧
    s.called = [2, 1] := by
  have h : RunnerSys.Reach 1 (fun _ => []) (.init [[1], [2]])
      ⟨true, 1, [], [], [], [[], []], [2, 1], [2, 1], [2, 1], [2, 1]⟩ :=
    .tail (.tail (.tail (.tail (.tail (.tail (.tail (.tail (.tail .refl
      (.once _ rfl ⟨[1], by simp [RunnerSys.init], by simp⟩))
      (.send _ [[1]] 2 [] [] rfl rfl (by simp [RunnerSys.init])))
      (.receive _ 2 [] (by simp) rfl))
      (.send _ [] 1 [] [[]] rfl rfl (by simp)))
      (.call _ [] 2 [] rfl))
      (.return _ [] 2 [] rfl))
      (.receive _ 1 [] (by simp) rfl))
      (.call _ [] 1 [] rfl))
      (.return _ [] 1 [] rfl)
  exact ⟨_, h, by simp [RunnerDone], rfl⟩

end Verif.Props
