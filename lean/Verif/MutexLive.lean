import Verif.Mutex

/-!
# Goroutines sharing an object guarded by a mutex: they finish
-/

namespace Verif

variable {S M K R ω : Type}

/-- Exactly `n` steps. -/
inductive Machine.RunsIn (a : Machine S M K R) : Nat → M → S → M → S → Prop where
  | refl (m b) : Machine.RunsIn a 0 m b m b
  | head {n m b m' b' m'' b''} (h : a.step m b = some (m', b')) (t : Machine.RunsIn a n m' b' m'' b'') :
    Machine.RunsIn a (n + 1) m b m'' b''

theorem Machine.Runs.counted {a : Machine S M K R} {m b m' b'} (h : a.Runs m b m' b') :
    ∃ n, a.RunsIn n m b m' b' := by
  induction h with
  | refl => exact ⟨0, .refl _ _⟩
  | head s _ ih => obtain ⟨n, hn⟩ := ih; exact ⟨n + 1, .head s hn⟩

/-- What the goroutines below `N` have still to start. -/
def GoSys.left (N : Nat) (c : GoSys ω S M R) : Nat :=
  ((List.range N).map fun i => (c.th i).todo.length).sum

theorem sum_range_lt {f g : Nat → Nat} {N i : Nat} (hi : i < N) (h : ∀ j, j ≠ i → f j = g j) (hl : f i < g i) :
    ((List.range N).map f).sum < ((List.range N).map g).sum := by
  induction N with
  | zero => omega
  | succ N ih =>
    simp only [List.range_succ, List.map_append, List.map_cons, List.map_nil, List.sum_append, List.sum_cons,
      List.sum_nil]
    by_cases hN : i = N
    · subst hN
      have : (List.range i).map f = (List.range i).map g :=
        List.map_congr_left fun j hj => h j (by have := List.mem_range.1 hj; omega)
      rw [this]; omega
    · have := ih (by omega)
      rw [h N (by omega)]; omega

/-- Every execution from a state that satisfies the invariant is finite. -/
theorem GoSys.acc {a : Machine S M K R} {run : S → K → R × S} (ha : a.Sound run) (call : ω → K ⊕ R) (s₀ : S)
    (progs : Nat → List ω) (N : Nat) (hN : ∀ i, N ≤ i → progs i = []) :
    ∀ (t : Nat) (c : GoSys ω S M R), GoSys.Reach a true call (.init s₀ progs) c → c.left N = t →
      Acc (fun c' c => GoSys.Step a true call c c') c := by
  have hlt : ∀ (c : GoSys ω S M R), GoSys.Reach a true call (.init s₀ progs) c → ∀ i op rest pc,
      c.th i = ⟨op :: rest, pc⟩ → i < N := by
    intro c hc i op rest pc ht
    have := (GoSys.inv ha call s₀ progs c hc).order i
    rw [ht] at this
    by_cases h : i < N
    · exact h
    · rw [hN i (by omega)] at this; simp at this
  have hset : ∀ (c c' : GoSys ω S M R) i op rest pc pc', c.th i = ⟨op :: rest, pc⟩ → i < N →
      c'.th = c.set i ⟨rest, pc'⟩ → c'.left N < c.left N := by
    intro c c' i op rest pc pc' ht hi hth
    refine sum_range_lt hi (fun j hj => ?_) ?_
    · rw [hth]; simp [GoSys.set, hj]
    · rw [hth]; simp [GoSys.set, ht]
  have hsame : ∀ (c c' : GoSys ω S M R) i todo pc pc', c.th i = ⟨todo, pc⟩ →
      c'.th = c.set i ⟨todo, pc'⟩ → c'.left N = c.left N := by
    intro c c' i todo pc pc' ht hth
    unfold GoSys.left
    congr 1
    refine List.map_congr_left fun j _ => ?_
    rw [hth]
    by_cases hj : j = i
    · subst hj; simp [GoSys.set, ht]
    · simp [GoSys.set, hj]
  intro t
  induction t using Nat.strongRecOn with
  | ind t ih =>
    -- nobody holds the lock
    have hfree : ∀ c, GoSys.Reach a true call (.init s₀ progs) c → c.left N = t → c.mu = none →
        Acc (fun c' c => GoSys.Step a true call c c') c := by
      intro c hc ht hm
      have inv := GoSys.inv ha call s₀ progs c hc
      refine Acc.intro _ fun c' hs => ?_
      have hc' := GoSys.Reach.tail hc hs
      cases hs with
      | skip i op rest e hth hcl =>
        exact ih _ (by rw [← ht]; exact hset _ _ i op rest none none hth (hlt c hc i op rest _ hth) rfl) _ hc' rfl
      | lock i op rest k hth hcl hm =>
        exact ih _ (by rw [← ht]; exact hset _ _ i op rest none _ hth (hlt c hc i op rest _ hth) rfl) _ hc' rfl
      | step i todo op m m' sh' hth hs => have := (inv.free hm).1 i; rw [hth] at this; simp at this
      | unlock i todo op m e hth he => have := (inv.free hm).1 i; rw [hth] at this; simp at this
    -- somebody does, and is `n` steps from the end of the call
    have hheld : ∀ n c j op m mf sf r, GoSys.Reach a true call (.init s₀ progs) c → c.left N = t → c.mu = some j →
        (c.th j).pc = some (op, m) → a.RunsIn n m c.sh mf sf → a.stop mf = some r →
        Acc (fun c' c => GoSys.Step a true call c c') c := by
      intro n
      induction n with
      | zero =>
        intro c j op m mf sf r hc ht hm hpc hrun hr
        cases hrun
        have inv := GoSys.inv ha call s₀ progs c hc
        refine Acc.intro _ fun c' hs => ?_
        have hc' := GoSys.Reach.tail hc hs
        cases hs with
        | skip i op rest e hth hcl =>
          exact ih _ (by rw [← ht]; exact hset _ _ i op rest none none hth (hlt c hc i op rest _ hth) rfl) _ hc' rfl
        | lock i op rest k hth hcl hm' => rw [hm' rfl] at hm; simp at hm
        | step i todo op' m1 m' sh' hth hs =>
          have hij := (inv.exclusive i (by rw [hth]; simp)).1
          rw [hm] at hij
          simp only [Option.some.injEq] at hij
          subst hij
          rw [hth] at hpc
          simp only [Option.some.injEq, Prod.mk.injEq] at hpc
          obtain ⟨-, rfl⟩ := hpc
          rw [ha.last _ _ _ hr] at hs; simp at hs
        | unlock i todo op' m1 e hth he =>
          exact hfree _ hc' (by rw [← ht]; exact hsame _ _ i todo _ _ hth rfl) rfl
      | succ n ihn =>
        intro c j op m mf sf r hc ht hm hpc hrun hr
        have inv := GoSys.inv ha call s₀ progs c hc
        refine Acc.intro _ fun c' hs => ?_
        have hc' := GoSys.Reach.tail hc hs
        cases hs with
        | skip i op rest e hth hcl =>
          exact ih _ (by rw [← ht]; exact hset _ _ i op rest none none hth (hlt c hc i op rest _ hth) rfl) _ hc' rfl
        | lock i op rest k hth hcl hm' => rw [hm' rfl] at hm; simp at hm
        | step i todo op' m1 m' sh' hth hs =>
          have hij := (inv.exclusive i (by rw [hth]; simp)).1
          rw [hm] at hij
          simp only [Option.some.injEq] at hij
          subst hij
          rw [hth] at hpc
          simp only [Option.some.injEq, Prod.mk.injEq] at hpc
          obtain ⟨-, rfl⟩ := hpc
          cases hrun with
          | head h1 t1 =>
            rw [hs] at h1
            simp only [Option.some.injEq, Prod.mk.injEq] at h1
            obtain ⟨rfl, rfl⟩ := h1
            exact ihn _ j op' m' mf sf r hc' (by rw [← ht]; exact hsame _ _ j todo _ _ hth rfl) hm
              (by simp [GoSys.set]) t1 hr
        | unlock i todo op' m1 e hth he =>
          exact hfree _ hc' (by rw [← ht]; exact hsame _ _ i todo _ _ hth rfl) rfl
    intro c hc ht
    have inv := GoSys.inv ha call s₀ progs c hc
    cases hm : c.mu with
    | none => exact hfree c hc ht hm
    | some j =>
      obtain ⟨_, op, k, m, h1, h2, h3⟩ := inv.held j hm
      obtain ⟨mf, g1, g2⟩ := ha.runs k (runSeq run call s₀ (c.log.map (·.2.1))).2
      obtain ⟨n, hn⟩ := (h3.toward g1 (ha.last _ _ _ g2)).counted
      exact hheld n c j op m mf _ _ hc ht hm h1 hn g2

/-- There is no infinite execution. -/
theorem GoSys.terminates {a : Machine S M K R} {run : S → K → R × S} (ha : a.Sound run) (call : ω → K ⊕ R) (s₀ : S)
    (progs : Nat → List ω) (N : Nat) (hN : ∀ i, N ≤ i → progs i = []) (ex : Nat → GoSys ω S M R)
    (h0 : ex 0 = .init s₀ progs) : ¬ ∀ n, GoSys.Step a true call (ex n) (ex (n + 1)) := by
  intro h
  have hreach : ∀ n, GoSys.Reach a true call (.init s₀ progs) (ex n) := by
    intro n
    induction n with
    | zero => rw [h0]; exact .refl
    | succ n ih => exact .tail ih (h n)
  have key : ∀ c, Acc (fun c' c => GoSys.Step a true call c c') c → ∀ n, ex n ≠ c := by
    intro c hc
    induction hc with
    | intro c _ ih =>
      intro n hn
      exact ih (ex (n + 1)) (by rw [← hn]; exact h n) (n + 1) rfl
  exact key _ (GoSys.acc ha call s₀ progs N hN _ (ex 0) (hreach 0) rfl) 0 rfl

/-- When nothing more can happen, everything is done and the lock is free. -/
theorem GoSys.final {a : Machine S M K R} {run : S → K → R × S} (ha : a.Sound run) (call : ω → K ⊕ R) (s₀ : S)
    (progs : Nat → List ω) (hlive : ∀ m s, a.step m s = none → ∃ r, a.stop m = some r) (c : GoSys ω S M R)
    (hc : GoSys.Reach a true call (.init s₀ progs) c) (hf : ∀ c', ¬ GoSys.Step a true call c c') :
    c.mu = none ∧ ∀ i, (c.log.filter (·.1 = i)).map (·.2.1) = progs i := by
  have inv := GoSys.inv ha call s₀ progs c hc
  have hdone : ∀ i, (c.th i).pc = none ∧ (c.th i).todo = [] := by
    intro i
    refine ⟨?_, ?_⟩
    · cases h : (c.th i).pc with
      | none => rfl
      | some x =>
        obtain ⟨c', hs⟩ := inv.progress hlive i (.inl (by rw [h]; simp))
        exact absurd hs (hf c')
    · cases h : (c.th i).todo with
      | nil => rfl
      | cons x y =>
        obtain ⟨c', hs⟩ := inv.progress hlive i (.inr (by rw [h]; simp))
        exact absurd hs (hf c')
  refine ⟨?_, fun i => ?_⟩
  · cases hm : c.mu with
    | none => rfl
    | some j =>
      obtain ⟨_, op, k, m, h1, _⟩ := inv.held j hm
      rw [(hdone j).1] at h1; simp at h1
  · have := inv.order i
    rw [(hdone i).2] at this
    simpa [GoThread.current, (hdone i).1] using this

end Verif
