/-!
# Goroutines sharing an object, with or without a mutex

The methods of the object are split into atomic steps; the steps of different goroutines
interleave arbitrarily.  Memory is sequentially consistent (Go's guarantee for programs
without data races).
-/

namespace Verif

/-- An object with state `S` whose calls `K` run through positions `M` and return `R`:
the position right after entry, one step inside a call, and the result at the end. -/
structure Machine (S M K R : Type) where
  start : K → M
  step : M → S → Option (M × S)
  stop : M → Option R

variable {S M K R : Type}

/-- Zero or more steps. -/
inductive Machine.Runs (a : Machine S M K R) : M → S → M → S → Prop where
  | refl (m b) : Machine.Runs a m b m b
  | head {m b m' b' m'' b''} (h : a.step m b = some (m', b')) (t : Machine.Runs a m' b' m'' b'') :
    Machine.Runs a m b m'' b''

theorem Machine.Runs.trans {a : Machine S M K R} {m b m' b' m'' b''} (h : a.Runs m b m' b')
    (g : a.Runs m' b' m'' b'') : a.Runs m b m'' b'' := by
  induction h with
  | refl => exact g
  | head s _ ih => exact .head s (ih g)

theorem Machine.Runs.snoc {a : Machine S M K R} {m b m' b' m'' b''} (h : a.Runs m b m' b')
    (g : a.step m' b' = some (m'', b'')) : a.Runs m b m'' b'' :=
  h.trans (.head g (.refl _ _))

/-- The steps are deterministic: every state on the way reaches the end. -/
theorem Machine.Runs.toward {a : Machine S M K R} {m b m' b' mf bf} (h : a.Runs m b m' b')
    (g : a.Runs m b mf bf) (hf : a.step mf bf = none) : a.Runs m' b' mf bf := by
  induction h with
  | refl => exact g
  | head s _ ih =>
    cases g with
    | refl => rw [hf] at s; simp at s
    | head s' t =>
      rw [s] at s'
      cases s'
      exact ih t

/-- The calls executed alone do what `run` says. -/
structure Machine.Sound (a : Machine S M K R) (run : S → K → R × S) : Prop where
  last : ∀ m r s, a.stop m = some r → a.step m s = none
  runs : ∀ k s, ∃ m, a.Runs (a.start k) s m (run s k).2 ∧ a.stop m = some (run s k).1

/-- A goroutine: the operations it has still to do, and its position inside the current
operation if it is inside a call. -/
structure GoThread (ω M : Type) where
  todo : List ω
  pc : Option (ω × M)

/-- The object with all goroutines.  `ω` is the type of operations; `log` is not part of the
program: it records the operations that returned, with their results, in the order of
returning. -/
structure GoSys (ω S M R : Type) where
  mu : Option Nat
  sh : S
  th : Nat → GoThread ω M
  log : List (Nat × ω × R)

variable {ω : Type}

/-- Replace one goroutine. -/
def GoSys.set (c : GoSys ω S M R) (i : Nat) (t : GoThread ω M) : Nat → GoThread ω M :=
  fun j => if j = i then t else c.th j

/-- One step of some goroutine.  `call op` says what the operation does: it calls the object
once, or returns without touching it.  Only `lock` looks at the mutex (`sync.Mutex.Lock`, if
the object is `guarded` by one); the steps inside a call do not. -/
inductive GoSys.Step (a : Machine S M K R) (guarded : Bool) (call : ω → K ⊕ R) :
    GoSys ω S M R → GoSys ω S M R → Prop where
  | skip (c i op rest e) (ht : c.th i = ⟨op :: rest, none⟩) (hc : call op = .inr e) :
    GoSys.Step a guarded call c
      { c with th := c.set i ⟨rest, none⟩, log := c.log ++ [(i, op, e)] }
  | lock (c i op rest k) (ht : c.th i = ⟨op :: rest, none⟩) (hc : call op = .inl k)
    (hm : guarded = true → c.mu = none) :
    GoSys.Step a guarded call c
      { c with th := c.set i ⟨rest, some (op, a.start k)⟩, mu := some i }
  | step (c i todo op m m' sh') (ht : c.th i = ⟨todo, some (op, m)⟩)
    (hs : a.step m c.sh = some (m', sh')) :
    GoSys.Step a guarded call c { c with th := c.set i ⟨todo, some (op, m')⟩, sh := sh' }
  | unlock (c i todo op m e) (ht : c.th i = ⟨todo, some (op, m)⟩) (he : a.stop m = some e) :
    GoSys.Step a guarded call c
      { c with th := c.set i ⟨todo, none⟩, mu := none, log := c.log ++ [(i, op, e)] }

/-- Reachable states. -/
inductive GoSys.Reach (a : Machine S M K R) (guarded : Bool) (call : ω → K ⊕ R)
    (c₀ : GoSys ω S M R) : GoSys ω S M R → Prop where
  | refl : GoSys.Reach a guarded call c₀ c₀
  | tail {c c'} (h : GoSys.Reach a guarded call c₀ c) (s : GoSys.Step a guarded call c c') :
    GoSys.Reach a guarded call c₀ c'

/-- A fresh object used by goroutines with the given programs. -/
def GoSys.init (s : S) (progs : Nat → List ω) : GoSys ω S M R :=
  ⟨none, s, fun i => ⟨progs i, none⟩, []⟩

/-- The operation a goroutine is executing. -/
def GoThread.current (t : GoThread ω M) : List ω :=
  match t.pc with
  | some (op, _) => [op]
  | none => []

/-- The effect of an operation executed alone. -/
def runCall (run : S → K → R × S) (call : ω → K ⊕ R) (b : S) (op : ω) : R × S :=
  match call op with
  | .inl k => run b k
  | .inr e => (e, b)

/-- Operations one after another. -/
def runSeq (run : S → K → R × S) (call : ω → K ⊕ R) : S → List ω → List R × S
  | b, [] => ([], b)
  | b, op :: t =>
    match runCall run call b op with
    | (e, b') => let o := runSeq run call b' t; (e :: o.1, o.2)

theorem runSeq_snoc (run : S → K → R × S) (call : ω → K ⊕ R) (b : S) (ops : List ω) (op : ω) :
    runSeq run call b (ops ++ [op]) =
      ((runSeq run call b ops).1 ++ [(runCall run call (runSeq run call b ops).2 op).1],
        (runCall run call (runSeq run call b ops).2 op).2) := by
  induction ops generalizing b with
  | nil => simp [runSeq]
  | cons a t ih => simp [runSeq, ih]

/-- The invariant of a guarded object. -/
structure GoSys.Inv (a : Machine S M K R) (run : S → K → R × S) (call : ω → K ⊕ R) (s₀ : S)
    (progs : Nat → List ω) (c : GoSys ω S M R) : Prop where
  order : ∀ i, (c.log.filter (·.1 = i)).map (·.2.1) ++ (c.th i).current ++ (c.th i).todo = progs i
  res : c.log.map (·.2.2) = (runSeq run call s₀ (c.log.map (·.2.1))).1
  free : c.mu = none → (∀ i, (c.th i).pc = none) ∧
    c.sh = (runSeq run call s₀ (c.log.map (·.2.1))).2
  held : ∀ i, c.mu = some i → (∀ j, j ≠ i → (c.th j).pc = none) ∧
    ∃ op k m, (c.th i).pc = some (op, m) ∧ call op = .inl k ∧
      a.Runs (a.start k) (runSeq run call s₀ (c.log.map (·.2.1))).2 m c.sh

theorem GoSys.inv {a : Machine S M K R} {run : S → K → R × S} (ha : a.Sound run)
    (call : ω → K ⊕ R) (s₀ : S) (progs : Nat → List ω) (c : GoSys ω S M R)
    (h : GoSys.Reach a true call (.init s₀ progs) c) : c.Inv a run call s₀ progs := by
  induction h with
  | refl =>
    refine ⟨fun i => by simp [GoSys.init, GoThread.current], by simp [GoSys.init, runSeq], fun _ => ?_, ?_⟩
    · simp [GoSys.init, runSeq]
    · simp [GoSys.init]
  | @tail c c' _ s ih =>
    cases s with
    | skip i op rest e ht hc =>
      have hr : runCall run call (runSeq run call s₀ (c.log.map (·.2.1))).2 op =
          (e, (runSeq run call s₀ (c.log.map (·.2.1))).2) := by
        simp [runCall, hc]
      have hseq : runSeq run call s₀ ((c.log ++ [(i, op, e)]).map (·.2.1)) =
          ((runSeq run call s₀ (c.log.map (·.2.1))).1 ++ [e],
            (runSeq run call s₀ (c.log.map (·.2.1))).2) := by
        rw [List.map_append]; simp only [List.map_cons, List.map_nil]
        rw [runSeq_snoc, hr]
      constructor
      · intro j
        have := ih.order j
        by_cases hj : j = i
        · subst hj
          rw [ht] at this
          simp [GoSys.set, GoThread.current] at this ⊢
          exact this
        · have hj' : ¬ i = j := fun h => hj h.symm
          simp [GoSys.set, hj, List.filter_append, hj', decide_eq_false] at this ⊢
          exact this
      · simp only
        rw [hseq, List.map_append, ih.res]; rfl
      · intro hm
        obtain ⟨f1, f2⟩ := ih.free hm
        simp only
        rw [hseq]
        refine ⟨fun j => ?_, f2⟩
        by_cases hj : j = i
        · simp [GoSys.set, hj]
        · simpa [GoSys.set, hj] using f1 j
      · intro j hm
        obtain ⟨f1, f2⟩ := ih.held j hm
        simp only
        rw [hseq]
        have hji : j ≠ i := by
          rintro rfl
          obtain ⟨_, _, _, f3, _⟩ := f2
          rw [ht] at f3; simp at f3
        refine ⟨fun l hl => ?_, ?_⟩
        · by_cases hli : l = i
          · simp [GoSys.set, hli]
          · simpa [GoSys.set, hli] using f1 l hl
        · simpa [GoSys.set, hji] using f2
    | lock i op rest k ht hc hm =>
      obtain ⟨f1, f2⟩ := ih.free (hm rfl)
      constructor
      · intro j
        have := ih.order j
        by_cases hj : j = i
        · subst hj
          rw [ht] at this
          simpa [GoSys.set, GoThread.current] using this
        · simpa [GoSys.set, hj] using this
      · exact ih.res
      · intro h; simp at h
      · intro j hj
        simp only [Option.some.injEq] at hj
        subst hj
        refine ⟨fun l hl => by simpa [GoSys.set, hl] using f1 l, op, k, a.start k, by simp [GoSys.set], hc, ?_⟩
        simp only
        rw [← f2]
        exact .refl _ _
    | step i todo op m m' sh' ht hs =>
      have hmu : c.mu = some i := by
        cases hmu : c.mu with
        | none => have := (ih.free hmu).1 i; rw [ht] at this; simp at this
        | some j =>
          by_cases hj : i = j
          · rw [hj]
          · have := (ih.held j hmu).1 i hj; rw [ht] at this; simp at this
      constructor
      · intro j
        have := ih.order j
        by_cases hj : j = i
        · subst hj
          rw [ht] at this
          simpa [GoSys.set, GoThread.current] using this
        · simpa [GoSys.set, hj] using this
      · exact ih.res
      · intro h; simp only [hmu] at h; simp at h
      · intro j hj
        simp only [hmu, Option.some.injEq] at hj
        subst hj
        obtain ⟨f1, op', k, m0, f2, f3, f4⟩ := ih.held i hmu
        rw [ht] at f2
        simp only [Option.some.injEq, Prod.mk.injEq] at f2
        obtain ⟨rfl, rfl⟩ := f2
        exact ⟨fun l hl => by simpa [GoSys.set, hl] using f1 l hl, op, k, m', by simp [GoSys.set],
          f3, f4.snoc hs⟩
    | unlock i todo op mf e ht he =>
      have hmu : c.mu = some i := by
        cases hmu : c.mu with
        | none => have := (ih.free hmu).1 i; rw [ht] at this; simp at this
        | some j =>
          by_cases hj : i = j
          · rw [hj]
          · have := (ih.held j hmu).1 i hj; rw [ht] at this; simp at this
      obtain ⟨f1, op', k, m0, f2, f3, f4⟩ := ih.held i hmu
      rw [ht] at f2
      simp only [Option.some.injEq, Prod.mk.injEq] at f2
      obtain ⟨rfl, rfl⟩ := f2
      have hr : runCall run call (runSeq run call s₀ (c.log.map (·.2.1))).2 op = (e, c.sh) := by
        simp only [runCall, f3]
        obtain ⟨m1, g1, g2⟩ := ha.runs k (runSeq run call s₀ (c.log.map (·.2.1))).2
        have := f4.toward g1 (ha.last _ _ _ g2)
        have last : ∀ {m s m' s'}, a.Runs m s m' s' → a.step m s = none → m' = m ∧ s' = s := by
          intro m s m' s' h hn
          cases h with
          | refl => exact ⟨rfl, rfl⟩
          | head s _ => rw [hn] at s; simp at s
        obtain ⟨l1, l2⟩ := last this (ha.last _ _ _ he)
        rw [l1, he] at g2
        simp only [Option.some.injEq] at g2
        rw [g2, ← l2]
      have hseq : runSeq run call s₀ ((c.log ++ [(i, op, e)]).map (·.2.1)) =
          ((runSeq run call s₀ (c.log.map (·.2.1))).1 ++ [e], c.sh) := by
        rw [List.map_append]; simp only [List.map_cons, List.map_nil]
        rw [runSeq_snoc, hr]
      constructor
      · intro j
        have := ih.order j
        by_cases hj : j = i
        · subst hj
          rw [ht] at this
          simp [GoSys.set, GoThread.current] at this ⊢
          exact this
        · have hj' : ¬ i = j := fun h => hj h.symm
          simp [GoSys.set, hj, List.filter_append, hj', decide_eq_false] at this ⊢
          exact this
      · simp only
        rw [hseq, List.map_append, ih.res]; rfl
      · intro _
        simp only
        rw [hseq]
        refine ⟨fun j => ?_, rfl⟩
        by_cases hj : j = i
        · simp [GoSys.set, hj]
        · simpa [GoSys.set, hj] using f1 j hj
      · intro j hj; simp at hj


theorem GoSys.Inv.exclusive {a : Machine S M K R} {run : S → K → R × S} {call : ω → K ⊕ R} {s₀ : S}
    {progs : Nat → List ω} {c : GoSys ω S M R} (inv : c.Inv a run call s₀ progs) (i : Nat)
    (hi : (c.th i).pc ≠ none) : c.mu = some i ∧ ∀ j, j ≠ i → (c.th j).pc = none := by
  cases hm : c.mu with
  | none => exact absurd ((inv.free hm).1 i) hi
  | some j =>
    by_cases hj : i = j
    · subst hj; exact ⟨rfl, (inv.held i hm).1⟩
    · exact absurd ((inv.held j hm).1 i hj) hi

/-- Some goroutine can go on as long as one has something to do. -/
theorem GoSys.Inv.progress {a : Machine S M K R} {run : S → K → R × S} {call : ω → K ⊕ R} {s₀ : S}
    {progs : Nat → List ω} {c : GoSys ω S M R} (inv : c.Inv a run call s₀ progs)
    (hlive : ∀ m s, a.step m s = none → ∃ r, a.stop m = some r) (i : Nat)
    (hi : (c.th i).pc ≠ none ∨ (c.th i).todo ≠ []) : ∃ c', GoSys.Step a true call c c' := by
  cases hm : c.mu with
  | some j =>
    obtain ⟨_, op, k, m, h1, h2, h3⟩ := inv.held j hm
    have hj : c.th j = ⟨(c.th j).todo, some (op, m)⟩ := by rw [← h1]
    cases hs : a.step m c.sh with
    | some x => obtain ⟨m', sh'⟩ := x; exact ⟨_, .step c j _ op m m' sh' hj hs⟩
    | none =>
      obtain ⟨r, hr⟩ := hlive m c.sh hs
      exact ⟨_, .unlock c j _ op m r hj hr⟩
  | none =>
    have hp := (inv.free hm).1 i
    rcases hi with hi | hi
    · exact absurd hp hi
    · cases ht : (c.th i).todo with
      | nil => exact absurd ht hi
      | cons op rest =>
        have hth : c.th i = ⟨op :: rest, none⟩ := by rw [← ht, ← hp]
        cases hc : call op with
        | inl k => exact ⟨_, .lock c i op rest k hth hc (fun _ => hm)⟩
        | inr e => exact ⟨_, .skip c i op rest e hth hc⟩

end Verif
