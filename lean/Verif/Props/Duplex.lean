import Verif.Duplex

/-!
# C107: two programs that answer each other do not block each other
-/

namespace Verif.Props

open Verif

variable {α : Type}

/-- Nothing is left to do, on either side and in between. -/
def BothDone (s : Bool → Side α) : Prop :=
  ∀ x, (s x).own = [] ∧ (s x).tasks = [] ∧ (s x).wr = none ∧ (s x).out = [] ∧ (s x).slot = none

private theorem set_at (s : Bool → Side α) (x : Bool) (p : Side α) : Side.set s x p x = p := by simp [Side.set]

private theorem set_not (s : Bool → Side α) (x : Bool) (p : Side α) : Side.set s x p (!x) = s (!x) := by
  cases x <;> simp [Side.set]

private theorem set_not' (s : Bool → Side α) (x : Bool) (p : Side α) : Side.set s (!x) p x = s x := by
  cases x <;> simp [Side.set]

private theorem put_mem {tasks : List (List α)} {t u : List α} (h : u ∈ Side.put tasks t) : u ∈ tasks ∨ (u = t ∧ t ≠ []) := by
  simp only [Side.put] at h
  split at h
  · exact .inl h
  · simp only [List.mem_append, List.mem_singleton] at h
    rcases h with h | h
    · exact .inl h
    · exact .inr ⟨h, by assumption⟩

/-- Handlers that have returned are gone. -/
private theorem tasks_open {cap : Bool → Nat} {lim : Bool → Option Nat} {ans : Bool → α → List α} {size : α → Nat}
    {own : Bool → List α} {s : Bool → Side α} (h : Side.Steps cap lim ans size (.init own) s) :
    ∀ y, ∀ t ∈ (s y).tasks, t ≠ [] := by
  induction h with
  | refl => intro y t ht; simp [Side.init] at ht
  | tail _ st ih =>
    intro y t ht
    cases st with
    | send x m t' ho hw => by_cases hy : y = x <;> simp [Side.set, hy] at ht <;> exact ih _ t ht
    | answer x a r t' b hx hw =>
      by_cases hy : y = x
      · subst hy
        simp only [Side.set, if_true, List.mem_append] at ht
        refine ih y t ?_
        rw [hx]
        rcases ht with ht | ht <;> simp [ht]
      · simp only [Side.set, hy, if_false] at ht; exact ih y t ht
    | write x m k h hw hc => by_cases hy : y = x <;> simp [Side.set, hy] at ht <;> exact ih _ t ht
    | wrote x m h hw hc =>
      by_cases hy : y = x
      · subst hy
        simp only [Side.set, if_true] at ht
        rcases put_mem ht with ht | ⟨rfl, hne⟩
        · exact ih y t ht
        · exact hne
      · simp only [Side.set, hy, if_false] at ht; exact ih y t ht
    | read x b t' hs ho =>
      refine ih y t ?_
      by_cases hy : y = x
      · simpa [Side.set, hy] using ht
      · have : y = !x := by cases x <;> cases y <;> simp_all
        subst this
        cases x <;> simpa [Side.set] using ht
    | deliver x m hs hg =>
      by_cases hy : y = x
      · subst hy
        simp only [Side.set, if_true] at ht
        rcases put_mem ht with ht | ⟨rfl, hne⟩
        · exact ih y t ht
        · exact hne
      · simp only [Side.set, hy, if_false] at ht; exact ih y t ht

/-- A handler that sends nothing never occupies the runner. -/
private theorem silent_idle {cap : Bool → Nat} {lim : Bool → Option Nat} {ans : Bool → α → List α} {size : α → Nat}
    {own : Bool → List α} {y : Bool} (hy : ∀ m, ans y m = []) {s : Bool → Side α}
    (h : Side.Steps cap lim ans size (.init own) s) : (s y).inFlight = 0 := by
  suffices hh : (s y).tasks = [] ∧ ∀ m k t, (s y).wr ≠ some (m, k, some t) by
    obtain ⟨h1, h2⟩ := hh
    unfold Side.inFlight
    rw [h1]
    split
    · rename_i e; exact absurd e (h2 _ _ _)
    · rfl
  induction h with
  | refl => simp [Side.init]
  | tail _ st ih =>
    obtain ⟨i1, i2⟩ := ih
    cases st with
    | send x m t' ho hw => by_cases hx : y = x <;> simp [Side.set, hx] <;> simp_all
    | answer x a r t' b ht hw =>
      by_cases hx : y = x
      · subst hx; rw [i1] at ht; simp at ht
      · simp [Side.set, hx]; exact ⟨i1, i2⟩
    | write x m k h hw hc =>
      by_cases hx : y = x
      · subst hx
        simp only [Side.set, if_true]
        refine ⟨i1, fun m' k' t e => ?_⟩
        simp only [Option.some.injEq, Prod.mk.injEq] at e
        exact i2 m (k + 1) t (by rw [hw, e.2.2])
      · simp [Side.set, hx]; exact ⟨i1, i2⟩
    | wrote x m h hw hc =>
      by_cases hx : y = x
      · subst hx
        cases h with
        | none => simp [Side.set, Side.put, i1]
        | some t => exact absurd hw (i2 _ _ _)
      · simp [Side.set, hx]; exact ⟨i1, i2⟩
    | read x b t' hs ho =>
      by_cases hx : y = x
      · simp only [Side.set, hx, if_true] at i1 i2 ⊢; exact ⟨i1, i2⟩
      · have : y = !x := by cases x <;> cases y <;> simp_all
        subst this
        cases x <;> simpa [Side.set] using And.intro i1 i2
    | deliver x m hs hg =>
      by_cases hx : y = x
      · subst hx; simp [Side.set, Side.put, i1, hy]; simpa using i2
      · simp [Side.set, hx]; exact ⟨i1, i2⟩

/-- C107.  If one of the two programs uses the default runner, or answers nothing, the two never
block each other: whatever they send and answer, however small the buffers between them are, and
whatever has happened so far, one of them can go on until everything has been said. -/
theorem duplex_progress_partial (cap : Bool → Nat) (hcap : ∀ x, 0 < cap x) (lim : Bool → Option Nat)
    (hlim : ∀ x, lim x ≠ some 0) (ans : Bool → α → List α) (size : α → Nat) (own : Bool → List α) (y : Bool)
    (hy : lim y = none ∨ ∀ m, ans y m = []) (s : Bool → Side α) (h : Side.Steps cap lim ans size (.init own) s) :
    BothDone s ∨ ∃ s', Side.Step cap lim ans size s s' := by
  have hopen := tasks_open h
  -- a program that holds the mutex, waits for it, or has something to send can go on if nothing is under way
  have out : ∀ x, (s x).out = [] → ((s x).own = [] ∧ (s x).tasks = [] ∧ (s x).wr = none) ∨
      ∃ s', Side.Step cap lim ans size s s' := by
    intro x hx
    rcases hw : (s x).wr with _ | ⟨m, k, hd⟩
    · rcases ho : (s x).own with _ | ⟨m, t⟩
      · rcases ht : (s x).tasks with _ | ⟨t, ts⟩
        · exact .inl ⟨rfl, rfl, rfl⟩
        · cases t with
          | nil => exact absurd rfl (hopen x [] (by simp [ht]))
          | cons r t => exact .inr ⟨_, .answer s x [] r t ts ht hw⟩
      · exact .inr ⟨_, .send s x m t ho hw⟩
    · have hc : (s x).out.length < cap x := by rw [hx]; exact hcap x
      cases k with
      | zero => exact .inr ⟨_, .wrote s x m hd hw hc⟩
      | succ k => exact .inr ⟨_, .write s x m k hd hw hc⟩
  -- `y` takes whatever comes
  rcases hs : (s y).slot with _ | m
  rotate_left
  · refine .inr ⟨_, .deliver s y m hs fun n hn => ?_⟩
    rcases hy with hy | hy
    · rw [hy] at hn; simp at hn
    · rw [silent_idle hy h]
      have := hlim y
      rw [hn] at this
      exact Nat.pos_of_ne_zero fun h0 => this (by rw [h0])
  rcases ho : (s (!y)).out with _ | ⟨b, t⟩
  rotate_left
  · exact .inr ⟨_, .read s y b t hs ho⟩
  rcases out (!y) ho with ⟨a1, a2, a3⟩ | hstep
  rotate_left
  · exact .inr hstep
  rcases hs' : (s (!y)).slot with _ | m
  rotate_left
  · refine .inr ⟨_, .deliver s (!y) m hs' fun n hn => ?_⟩
    have := hlim (!y)
    rw [hn] at this
    simp only [Side.inFlight, a2, a3, List.length_nil]
    exact Nat.pos_of_ne_zero fun h0 => this (by rw [h0])
  rcases ho' : (s y).out with _ | ⟨b, t⟩
  rotate_left
  · exact .inr ⟨_, .read s (!y) b t hs' (by rw [Bool.not_not]; exact ho')⟩
  rcases out y ho' with ⟨b1, b2, b3⟩ | hstep
  rotate_left
  · exact .inr hstep
  refine .inl fun x => ?_
  by_cases hx : x = y
  · subst hx; exact ⟨b1, b2, b3, ho', hs⟩
  · have : x = !y := by cases x <;> cases y <;> simp_all
    subst this
    exact ⟨a1, a2, a3, ho, hs'⟩

/-! ## Everything is said sooner or later -/

/-- What remains to be done for a message of `x` that the receiver of the other holds. -/
private def due (cost : Bool → α → Nat) (ans : Bool → α → List α) (x : Bool) (m : α) : Nat :=
  1 + ((ans (!x) m).map (cost (!x))).sum

private def byteDue (cost : Bool → α → Nat) (ans : Bool → α → List α) (x : Bool) : Option α → Nat
  | none => 1
  | some m => 1 + due cost ans x m

private def wrDue (cost : Bool → α → Nat) (ans : Bool → α → List α) (x : Bool) : Option (α × Nat × Option (List α)) → Nat
  | none => 0
  | some (m, k, h) => 2 * (k + 1) + due cost ans x m + ((h.getD []).map (cost x)).sum

private def slotDue (cost : Bool → α → Nat) (ans : Bool → α → List α) (x : Bool) : Option α → Nat
  | none => 0
  | some m => due cost ans (!x) m

private def sideDue (cost : Bool → α → Nat) (ans : Bool → α → List α) (x : Bool) (p : Side α) : Nat :=
  (p.own.map (cost x)).sum + (p.tasks.flatten.map (cost x)).sum + wrDue cost ans x p.wr +
  (p.out.map (byteDue cost ans x)).sum + slotDue cost ans x p.slot

private def allDue (cost : Bool → α → Nat) (ans : Bool → α → List α) (s : Bool → Side α) : Nat :=
  sideDue cost ans true (s true) + sideDue cost ans false (s false)

private theorem allDue_at (cost : Bool → α → Nat) (ans : Bool → α → List α) (s : Bool → Side α) (x : Bool) :
    allDue cost ans s = sideDue cost ans x (s x) + sideDue cost ans (!x) (s (!x)) := by
  cases x <;> simp [allDue]; omega

private theorem put_flatten (tasks : List (List α)) (t : List α) : (Side.put tasks t).flatten = tasks.flatten ++ t := by
  simp only [Side.put]
  split
  · rename_i h; simp [h]
  · simp

private theorem due_less {cap : Bool → Nat} {lim : Bool → Option Nat} {ans : Bool → α → List α} {size : α → Nat}
    (hsize : ∀ m, 0 < size m) {cost : Bool → α → Nat}
    (hcost : ∀ x m, 2 * size m + 2 + ((ans (!x) m).map (cost (!x))).sum ≤ cost x m)
    {s s' : Bool → Side α} (st : Side.Step cap lim ans size s s') : allDue cost ans s' < allDue cost ans s := by
  cases st with
  | send x m t ho hw =>
    have h1 := hsize m; have h2 := hcost x m
    rw [allDue_at cost ans _ x, allDue_at cost ans s x, set_at, set_not]
    simp [sideDue, ho, hw, wrDue, due] at h2 ⊢
    omega
  | answer x a r t b ht hw =>
    have h1 := hsize r; have h2 := hcost x r
    rw [allDue_at cost ans _ x, allDue_at cost ans s x, set_at, set_not]
    simp [sideDue, ht, hw, wrDue, due] at h2 ⊢
    omega
  | write x m k h hw hc =>
    rw [allDue_at cost ans _ x, allDue_at cost ans s x, set_at, set_not]
    simp [sideDue, hw, wrDue, byteDue]
    omega
  | wrote x m h hw hc =>
    rw [allDue_at cost ans _ x, allDue_at cost ans s x, set_at, set_not]
    simp [sideDue, hw, wrDue, byteDue, put_flatten]
    omega
  | read x b t hs ho =>
    rw [allDue_at cost ans _ x, allDue_at cost ans s x, set_at, set_not, set_at]
    cases b <;> simp [sideDue, hs, ho, slotDue, byteDue] <;> omega
  | deliver x m hs hg =>
    rw [allDue_at cost ans _ x, allDue_at cost ans s x, set_at, set_not]
    simp [sideDue, hs, slotDue, due, put_flatten]
    omega

/-- C107.  If the conversation is finite, i.e. each message can be given a cost that pays for its
bytes and for its answers, the two programs do not go on for ever, whatever their runners are. -/
theorem duplex_finite (cap : Bool → Nat) (lim : Bool → Option Nat) (ans : Bool → α → List α) (size : α → Nat)
    (hsize : ∀ m, 0 < size m) (cost : Bool → α → Nat)
    (hcost : ∀ x m, 2 * size m + 2 + ((ans (!x) m).map (cost (!x))).sum ≤ cost x m) (own : Bool → List α)
    (f : Nat → Bool → Side α) (k : Nat) (h0 : f 0 = .init own)
    (hf : ∀ i < k, Side.Step cap lim ans size (f i) (f (i + 1))) :
    k ≤ ((own true).map (cost true)).sum + ((own false).map (cost false)).sum := by
  have key : ∀ i ≤ k, allDue cost ans (f i) + i ≤ allDue cost ans (f 0) := by
    intro i
    induction i with
    | zero => simp
    | succ i ih =>
      intro hi
      have := ih (by omega)
      have := due_less hsize hcost (hf i (by omega))
      omega
  have h1 := key k (Nat.le_refl k)
  have h2 : allDue cost ans (f 0) = ((own true).map (cost true)).sum + ((own false).map (cost false)).sum := by
    rw [h0]; simp [allDue, sideDue, Side.init, wrDue, slotDue]
  omega

/-! ## Nothing is lost -/

private def wrMsgs : Option (α × Nat × Option (List α)) → List α
  | none => []
  | some (m, _, h) => m :: h.getD []

/-- The messages of `x` that the other has not been given. -/
private def undelivered (s : Bool → Side α) (x : Bool) : List α :=
  (s x).own ++ (s x).tasks.flatten ++ wrMsgs (s x).wr ++ (s x).out.filterMap id ++ (s (!x)).slot.toList

private theorem kept [DecidableEq α] {cap : Bool → Nat} {lim : Bool → Option Nat} {ans : Bool → α → List α} {size : α → Nat}
    {own : Bool → List α} {s : Bool → Side α} (h : Side.Steps cap lim ans size (.init own) s) (y : Bool) (z : α) :
    (undelivered s y ++ (s (!y)).got).count z = (own y ++ (s y).got.flatMap (ans y)).count z := by
  induction h with
  | refl => simp [undelivered, Side.init, wrMsgs]
  | @tail s s' _ st ih =>
    simp only [undelivered, List.count_append] at ih ⊢
    have two : ∀ x, y = x ∨ y = !x := fun x => by cases x <;> cases y <;> simp
    cases st with
    | send x m t ho hw =>
      rcases two x with rfl | rfl
      · simp only [set_at, set_not]
        simp [ho, hw, wrMsgs, List.count_cons] at ih ⊢
        omega
      · simp only [Bool.not_not, set_at, set_not] at ih ⊢
        exact ih
    | answer x a r t b ht hw =>
      rcases two x with rfl | rfl
      · simp only [set_at, set_not]
        simp [ht, hw, wrMsgs, List.count_cons, List.count_append] at ih ⊢
        omega
      · simp only [Bool.not_not, set_at, set_not] at ih ⊢
        exact ih
    | write x m k h hw hc =>
      rcases two x with rfl | rfl
      · simp only [set_at, set_not]
        simp [hw, wrMsgs, List.count_cons, List.filterMap_append] at ih ⊢
        omega
      · simp only [Bool.not_not, set_at, set_not] at ih ⊢
        exact ih
    | wrote x m h hw hc =>
      rcases two x with rfl | rfl
      · simp only [set_at, set_not]
        simp [hw, wrMsgs, List.count_cons, put_flatten, List.filterMap_append, List.count_append] at ih ⊢
        omega
      · simp only [Bool.not_not, set_at, set_not] at ih ⊢
        exact ih
    | read x b t hs ho =>
      rcases two x with rfl | rfl
      · simp only [set_at, set_not]
        exact ih
      · simp only [Bool.not_not, set_at, set_not] at ih ⊢
        cases b <;> simp [hs, ho, List.count_cons] at ih ⊢ <;> omega
    | deliver x m hs hg =>
      rcases two x with rfl | rfl
      · simp only [set_at, set_not]
        simp [put_flatten, List.count_append] at ih ⊢
        omega
      · simp only [Bool.not_not, set_at, set_not] at ih ⊢
        simp [hs, List.count_cons, List.count_append] at ih ⊢
        omega

/-- C107.  When nothing is left to do, each program has been given what the other sent unasked and
all answers to what the other was given, each once. -/
theorem duplex_answered (cap : Bool → Nat) (lim : Bool → Option Nat) (ans : Bool → α → List α) (size : α → Nat)
    (own : Bool → List α) (s : Bool → Side α) (h : Side.Steps cap lim ans size (.init own) s) (hd : BothDone s) (x : Bool) :
    (s (!x)).got.Perm (own x ++ (s x).got.flatMap (ans x)) := by
  classical
  rw [List.perm_iff_count]
  intro z
  have := kept h x z
  obtain ⟨h1, h2, h3, h4, h5⟩ := hd x
  obtain ⟨_, _, _, _, h6⟩ := hd (!x)
  rw [List.count_append] at this
  simpa [undelivered, h1, h2, h3, h4, h6, wrMsgs] using this

/-! ## In which order -/

private def wrFirst : Option (α × Nat × Option (List α)) → List α
  | none => []
  | some (m, _, _) => [m]

private def wrRest : Option (α × Nat × Option (List α)) → List α
  | none => []
  | some (_, _, h) => h.getD []

/-- What `x` has begun to write, in order. -/
private def trail (s : Bool → Side α) (x : Bool) : List α :=
  (s (!x)).got ++ (s (!x)).slot.toList ++ (s x).out.filterMap id ++ wrFirst (s x).wr

/-- How a step changes what `x` has begun to write. -/
private theorem trail_step {cap : Bool → Nat} {lim : Bool → Option Nat} {ans : Bool → α → List α} {size : α → Nat}
    {s s' : Bool → Side α} (st : Side.Step cap lim ans size s s') (y : Bool) :
    (∃ m, trail s' y = trail s y ++ [m] ∧ (s y).own = m :: (s' y).own ∧ (s' y).tasks = (s y).tasks ∧ wrRest (s y).wr = [] ∧
      wrRest (s' y).wr = [] ∧ (s' y).got = (s y).got ∧ (s' y).inFlight = (s y).inFlight) ∨
    (∃ a r t b, trail s' y = trail s y ++ [r] ∧ (s' y).own = (s y).own ∧ (s y).tasks = a ++ (r :: t) :: b ∧
      (s' y).tasks = a ++ b ∧ (s y).wr = none ∧ wrRest (s' y).wr = t ∧ (s' y).got = (s y).got ∧
      (s' y).inFlight = (s y).inFlight) ∨
    (trail s' y = trail s y ∧ (s' y).own = (s y).own ∧ (s' y).got = (s y).got ∧
      (s' y).inFlight ≤ (s y).inFlight ∧
      ((s' y).tasks.flatten ++ wrRest (s' y).wr = (s y).tasks.flatten ++ wrRest (s y).wr)) ∨
    (∃ m, trail s' y = trail s y ∧ (s' y).own = (s y).own ∧ (s' y).got = (s y).got ++ [m] ∧
      (∀ n, lim y = some n → (s y).inFlight < n) ∧ (s' y).inFlight ≤ (s y).inFlight + 1 ∧
      (s' y).tasks.flatten = (s y).tasks.flatten ++ ans y m ∧ (s' y).wr = (s y).wr) := by
  have two : ∀ x, y = x ∨ y = !x := fun x => by cases x <;> cases y <;> simp
  cases st with
  | send x m t ho hw =>
    rcases two x with rfl | rfl
    · refine .inl ⟨m, ?_⟩
      simp [trail, set_at, set_not, hw, ho, wrFirst, wrRest, Side.inFlight]
    · refine .inr (.inr (.inl ?_))
      simp [trail, set_at, set_not]
  | answer x a r t b ht hw =>
    rcases two x with rfl | rfl
    · refine .inr (.inl ⟨a, r, t, b, ?_⟩)
      simp [trail, set_at, set_not, hw, ht, wrFirst, wrRest, Side.inFlight]
      omega
    · refine .inr (.inr (.inl ?_))
      simp [trail, set_at, set_not]
  | write x m k h hw hc =>
    refine .inr (.inr (.inl ?_))
    rcases two x with rfl | rfl
    · simp only [trail, set_at, set_not]
      cases h <;> simp [hw, wrFirst, wrRest, Side.inFlight]
    · simp [trail, set_at, set_not]
  | wrote x m h hw hc =>
    refine .inr (.inr (.inl ?_))
    rcases two x with rfl | rfl
    · simp only [trail, set_at, set_not]
      cases h with
      | none => simp [hw, wrFirst, wrRest, Side.inFlight, Side.put]
      | some t =>
        by_cases ht : t = [] <;> simp [hw, wrFirst, wrRest, Side.inFlight, Side.put, ht]
    · simp [trail, set_at, set_not]
  | read x b t hs ho =>
    refine .inr (.inr (.inl ?_))
    rcases two x with rfl | rfl
    · simp [trail, set_at, set_not, Side.inFlight]
    · simp only [trail, Bool.not_not, set_at, set_not]
      cases b <;> simp [hs, ho, Side.inFlight]
  | deliver x m hs hg =>
    rcases two x with rfl | rfl
    · refine .inr (.inr (.inr ⟨m, ?_⟩))
      by_cases ht : ans y m = []
      · simp [trail, set_at, set_not, Side.inFlight, Side.put, ht]
        exact hg
      · simp [trail, set_at, set_not, Side.inFlight, Side.put, ht]
        refine ⟨hg, by omega⟩
    · refine .inr (.inr (.inl ?_))
      simp [trail, set_at, set_not, hs]

private theorem own_order {cap : Bool → Nat} {lim : Bool → Option Nat} {ans : Bool → α → List α} {size : α → Nat}
    {own : Bool → List α} {s : Bool → Side α} (h : Side.Steps cap lim ans size (.init own) s) (y : Bool) :
    ∃ d, own y = d ++ (s y).own ∧ d.Sublist (trail s y) := by
  induction h with
  | refl => exact ⟨[], by simp [Side.init], by simp⟩
  | tail _ st ih =>
    obtain ⟨d, e, hd⟩ := ih
    rcases trail_step st y with ⟨m, h1, h2, _⟩ | ⟨a, r, t, b, h1, h2, _⟩ | ⟨h1, h2, _⟩ | ⟨m, h1, h2, _⟩
    · exact ⟨d ++ [m], by rw [e, h2]; simp, by rw [h1]; exact hd.append (List.Sublist.refl _)⟩
    · exact ⟨d, by rw [h2]; exact e, by rw [h1]; exact hd.trans (List.sublist_append_left _ _)⟩
    · exact ⟨d, by rw [h2]; exact e, by rw [h1]; exact hd⟩
    · exact ⟨d, by rw [h2]; exact e, by rw [h1]; exact hd⟩

private theorem seq_order {cap : Bool → Nat} {lim : Bool → Option Nat} {ans : Bool → α → List α} {size : α → Nat}
    {own : Bool → List α} {s : Bool → Side α} (h : Side.Steps cap lim ans size (.init own) s) (y : Bool)
    (hy : lim y = some 1) :
    (s y).inFlight ≤ 1 ∧ ∃ d, (s y).got.flatMap (ans y) = d ++ ((s y).tasks.flatten ++ wrRest (s y).wr) ∧
      d.Sublist (trail s y) := by
  induction h with
  | refl => exact ⟨by simp [Side.init, Side.inFlight], [], by simp [Side.init, wrRest], by simp⟩
  | @tail s s' _ st ih =>
    obtain ⟨hn, d, e, hd⟩ := ih
    rcases trail_step st y with ⟨m, h1, _, h3, h4, h5, h6, h7⟩ | ⟨a, r, t, b, h1, _, h3, h4, h5, h6, h7, h8⟩ |
      ⟨h1, _, h3, h4, h5⟩ | ⟨m, h1, _, h3, h4, h5, h6, h7⟩
    · refine ⟨by omega, d, by rw [h6, h3, h5, e, h4], by rw [h1]; exact hd.trans (List.sublist_append_left _ _)⟩
    · have hl : (s y).tasks.length ≤ 1 := by simp only [Side.inFlight] at hn; omega
      rw [h3] at hl
      simp only [List.length_append, List.length_cons] at hl
      have ha : a = [] := List.eq_nil_of_length_eq_zero (by omega)
      have hb : b = [] := List.eq_nil_of_length_eq_zero (by omega)
      subst ha hb
      refine ⟨by omega, d ++ [r], ?_, by rw [h1]; exact hd.append (List.Sublist.refl _)⟩
      rw [h7, h4, h6, e, h3, h5]
      simp [wrRest]
    · exact ⟨by omega, d, by rw [h3, h5]; exact e, by rw [h1]; exact hd⟩
    · have h0 := h4 1 hy
      have ht : (s y).tasks = [] := List.eq_nil_of_length_eq_zero (by simp only [Side.inFlight] at h0; omega)
      have hw : wrRest (s y).wr = [] := by
        simp only [Side.inFlight] at h0
        cases hwr : (s y).wr with
        | none => rfl
        | some p =>
          obtain ⟨q, k, o⟩ := p
          cases o with
          | none => rfl
          | some t => rw [hwr] at h0; simp at h0
      refine ⟨by omega, d, ?_, by rw [h1]; exact hd⟩
      rw [h3, h6, h7, hw, ht]
      rw [hw, ht] at e
      simp at e ⊢
      rw [e]

/-- C107.  When nothing is left to do, each program has been given what the other sent unasked in
the order it was sent; and if the other uses `SequentialRunner`, its answers in the order of the
messages they answer. -/
theorem duplex_order (cap : Bool → Nat) (lim : Bool → Option Nat) (ans : Bool → α → List α) (size : α → Nat)
    (own : Bool → List α) (s : Bool → Side α) (h : Side.Steps cap lim ans size (.init own) s) (hd : BothDone s) (x : Bool) :
    (own x).Sublist (s (!x)).got ∧ (lim x = some 1 → ((s x).got.flatMap (ans x)).Sublist (s (!x)).got) := by
  obtain ⟨h1, h2, h3, h4, h5⟩ := hd x
  obtain ⟨_, _, _, _, h6⟩ := hd (!x)
  have ht : trail s x = (s (!x)).got := by simp [trail, h6, h4, h3, wrFirst]
  refine ⟨?_, fun hl => ?_⟩
  · obtain ⟨d, e, hs⟩ := own_order h x
    rw [ht] at hs
    rw [e, h1]
    simpa using hs
  · obtain ⟨_, d, e, hs⟩ := seq_order h x hl
    rw [ht] at hs
    rw [e, h2, h3]
    simpa [wrRest] using hs

private theorem dtrans {cap : Bool → Nat} {lim : Bool → Option Nat} {ans : Bool → α → List α} {size : α → Nat}
    {a b c : Bool → Side α} (h1 : Side.Steps cap lim ans size a b) (h2 : Side.Steps cap lim ans size b c) :
    Side.Steps cap lim ans size a c := by
  induction h2 with
  | refl => exact h1
  | tail _ st ih => exact .tail ih st

/-- C107.  Under the hypotheses of `duplex_progress_partial` and `duplex_finite`, whatever has
happened so far: the conversation can be finished, and then each program has been given all that
the other sent, unasked and in answer. -/
theorem duplex_completes_partial (cap : Bool → Nat) (hcap : ∀ x, 0 < cap x) (lim : Bool → Option Nat)
    (hlim : ∀ x, lim x ≠ some 0) (ans : Bool → α → List α) (size : α → Nat) (hsize : ∀ m, 0 < size m)
    (cost : Bool → α → Nat) (hcost : ∀ x m, 2 * size m + 2 + ((ans (!x) m).map (cost (!x))).sum ≤ cost x m)
    (own : Bool → List α) (y : Bool) (hy : lim y = none ∨ ∀ m, ans y m = []) (s : Bool → Side α)
    (h : Side.Steps cap lim ans size (.init own) s) :
    ∃ s', Side.Steps cap lim ans size s s' ∧ BothDone s' ∧
      ∀ x, (s' (!x)).got.Perm (own x ++ (s' x).got.flatMap (ans x)) := by
  generalize hn : allDue cost ans s = n
  induction n using Nat.strongRecOn generalizing s with
  | _ n ih =>
    rcases duplex_progress_partial cap hcap lim hlim ans size own y hy s h with hd | ⟨s1, st⟩
    · exact ⟨s, .refl, hd, fun x => duplex_answered cap lim ans size own s h hd x⟩
    · have hlt := due_less hsize hcost st
      rw [hn] at hlt
      obtain ⟨s', h1, h2, h3⟩ := ih _ hlt s1 (.tail h st) rfl
      exact ⟨s', dtrans (.tail .refl st) h1, h2, h3⟩

/-! ## Runners with a limit -/

private theorem done_of_stuck {cap : Bool → Nat} {lim : Bool → Option Nat} {ans : Bool → α → List α} {size : α → Nat}
    {s : Bool → Side α} (hw : ∀ x, ∃ m k h, (s x).wr = some (m, k, h)) (hc : ∀ x, (s x).out.length = cap x)
    (hs : ∀ x, ∃ m, (s x).slot = some m) (hn : ∀ x, ∃ n, lim x = some n ∧ n ≤ (s x).inFlight) :
    ¬ ∃ s', Side.Step cap lim ans size s s' := by
  rintro ⟨s', st⟩
  cases st with
  | send x m t ho h => obtain ⟨_, _, _, e⟩ := hw x; rw [h] at e; simp at e
  | answer x a r t b ht h => obtain ⟨_, _, _, e⟩ := hw x; rw [h] at e; simp at e
  | write x m k h hw' h' => have := hc x; omega
  | wrote x m h hw' h' => have := hc x; omega
  | read x b t h ho => obtain ⟨_, e⟩ := hs x; rw [h] at e; simp at e
  | deliver x m h hg => obtain ⟨n, e, hle⟩ := hn x; have := hg n e; omega

section Load

variable {cap : Bool → Nat} {lim : Bool → Option Nat} {ans : Bool → α → List α} {size : α → Nat}

private theorem xsend (s : Bool → Side α) (x : Bool) (m : α) (t : List α) (ho : (s x).own = m :: t) (hw : (s x).wr = none) :
    ∃ s', Side.Steps cap lim ans size s s' ∧ s' x = { s x with own := t, wr := some (m, size m - 1, none) } ∧ s' (!x) = s (!x) :=
  ⟨_, .tail .refl (.send s x m t ho hw), set_at _ _ _, set_not _ _ _⟩

private theorem xwrite (s : Bool → Side α) (x : Bool) (m : α) (k : Nat) (hw : (s x).wr = some (m, k + 1, none))
    (hc : (s x).out.length < cap x) :
    ∃ s', Side.Steps cap lim ans size s s' ∧ s' x = { s x with out := (s x).out ++ [none], wr := some (m, k, none) } ∧
      s' (!x) = s (!x) :=
  ⟨_, .tail .refl (.write s x m k none hw hc), set_at _ _ _, set_not _ _ _⟩

private theorem xwrote (s : Bool → Side α) (x : Bool) (m : α) (hw : (s x).wr = some (m, 0, none))
    (hc : (s x).out.length < cap x) :
    ∃ s', Side.Steps cap lim ans size s s' ∧ s' x = { s x with out := (s x).out ++ [some m], wr := none } ∧
      s' (!x) = s (!x) :=
  ⟨_, .tail .refl (.wrote s x m none hw hc), by rw [set_at]; simp [Side.put], set_not _ _ _⟩

private theorem xread (s : Bool → Side α) (x : Bool) (b : Option α) (t : List (Option α)) (hs : (s (!x)).slot = none)
    (ho : (s x).out = b :: t) :
    ∃ s', Side.Steps cap lim ans size s s' ∧ s' x = { s x with out := t } ∧ s' (!x) = { s (!x) with slot := b } :=
  ⟨_, .tail .refl (.read s (!x) b t hs (by rw [Bool.not_not]; exact ho)), by rw [set_not', Bool.not_not, set_at], by rw [set_at]⟩

/-- A message that is being written reaches the receiver of the other. -/
private theorem fly {x : Bool} (hcap : 0 < cap x) (m : α) (k : Nat) (s : Bool → Side α) (hw : (s x).wr = some (m, k, none))
    (ho : (s x).out = []) (hs : (s (!x)).slot = none) :
    ∃ s', Side.Steps cap lim ans size s s' ∧ s' x = { s x with wr := none } ∧ s' (!x) = { s (!x) with slot := some m } := by
  induction k generalizing s with
  | zero =>
    obtain ⟨s1, a1, a2, a3⟩ := xwrote (cap := cap) (lim := lim) (ans := ans) (size := size) s x m hw (by rw [ho]; exact hcap)
    obtain ⟨s2, b1, b2, b3⟩ := xread (cap := cap) (lim := lim) (ans := ans) (size := size) s1 x (some m) []
      (by rw [a3]; exact hs) (by rw [a2]; simp [ho])
    refine ⟨s2, dtrans a1 b1, by rw [b2, a2]; simp [ho], by rw [b3, a3]⟩
  | succ k ih =>
    obtain ⟨s1, a1, a2, a3⟩ := xwrite (cap := cap) (lim := lim) (ans := ans) (size := size) s x m k hw (by rw [ho]; exact hcap)
    obtain ⟨s2, b1, b2, b3⟩ := xread (cap := cap) (lim := lim) (ans := ans) (size := size) s1 x none []
      (by rw [a3]; exact hs) (by rw [a2]; simp [ho])
    obtain ⟨s', h1, h2, h3⟩ := ih s2 (by rw [b2, a2]) (by rw [b2]) (by rw [b3])
    exact ⟨s', dtrans (dtrans a1 b1) h1, by rw [h2, b2, a2]; simp [ho], by rw [h3, b3, a3]⟩

private theorem toss {x : Bool} (hcap : 0 < cap x) (m : α) (t : List α) (s : Bool → Side α) (hown : (s x).own = m :: t)
    (hw : (s x).wr = none) (ho : (s x).out = []) (hs : (s (!x)).slot = none) :
    ∃ s', Side.Steps cap lim ans size s s' ∧ s' x = { s x with own := t } ∧ s' (!x) = { s (!x) with slot := some m } := by
  obtain ⟨s1, a1, a2, a3⟩ := xsend (cap := cap) (lim := lim) (ans := ans) (size := size) s x m t hown hw
  obtain ⟨s', h1, h2, h3⟩ := fly (lim := lim) (ans := ans) (size := size) hcap m (size m - 1) s1 (by rw [a2])
    (by rw [a2]; exact ho) (by rw [a3]; exact hs)
  exact ⟨s', dtrans a1 h1, by rw [h2, a2]; simp [← hw], by rw [h3, a3]⟩

/-- The runner of the other is given handlers up to its limit. -/
private theorem load {x : Bool} (hcap : 0 < cap x) {n : Nat} (hlim : lim (!x) = some n) (m : α) (hm : ans (!x) m ≠ [])
    (t : List α) (i : Nat) (s : Bool → Side α) (hown : (s x).own = List.replicate i m ++ t) (hw : (s x).wr = none)
    (ho : (s x).out = []) (hs : (s (!x)).slot = none) (hw' : (s (!x)).wr = none) (hi : (s (!x)).tasks.length + i ≤ n) :
    ∃ s', Side.Steps cap lim ans size s s' ∧ s' x = { s x with own := t } ∧
      (s' (!x)).tasks.length = (s (!x)).tasks.length + i ∧ (s' (!x)).own = (s (!x)).own ∧ (s' (!x)).wr = none ∧
      (s' (!x)).out = (s (!x)).out ∧ (s' (!x)).slot = none := by
  induction i generalizing s with
  | zero => exact ⟨s, .refl, by rw [← (show (s x).own = t by simpa using hown)], rfl, rfl, hw', rfl, hs⟩
  | succ i ih =>
    obtain ⟨s1, h1, h2, h3⟩ := toss (lim := lim) (ans := ans) (size := size) hcap m (List.replicate i m ++ t) s
      (by rw [hown, List.replicate_succ, List.cons_append]) hw ho hs
    have ex : ∃ s2, Side.Steps cap lim ans size s1 s2 ∧ s2 x = s1 x ∧ s2 (!x) = { s1 (!x) with
        slot := none, tasks := Side.put (s1 (!x)).tasks (ans (!x) m), got := (s1 (!x)).got ++ [m] } := by
      refine ⟨_, .tail .refl (.deliver s1 (!x) m (by rw [h3]) ?_), set_not' _ _ _, set_at _ _ _⟩
      intro n' hn'
      rw [hlim] at hn'
      simp only [Option.some.injEq] at hn'
      rw [h3]
      simp only [Side.inFlight, hw']
      omega
    obtain ⟨s2, e1, e2, e3⟩ := ex
    have hl : (s2 (!x)).tasks.length = (s (!x)).tasks.length + 1 := by
      rw [e3, h3]; simp [Side.put, hm]
    obtain ⟨s', g1, g2, g3, g4, g5, g6, g7⟩ := ih s2 (by rw [e2, h2]) (by rw [e2, h2]; exact hw)
      (by rw [e2, h2]; exact ho) (by rw [e3]) (by rw [e3, h3]; exact hw') (by rw [hl]; omega)
    refine ⟨s', dtrans (dtrans h1 e1) g1, by rw [g2, e2, h2], by rw [g3, hl]; omega, by rw [g4, e3, h3], g5,
      by rw [g6, e3, h3], g7⟩

/-- A program sends until there is no more room. -/
private theorem fill {x : Bool} (room : Nat) (m : α) (k : Nat) (s : Bool → Side α)
    (hr : (s x).out.length + room = cap x) (hw : (s x).wr = some (m, k, none)) (hown : room ≤ (s x).own.length) :
    ∃ s', Side.Steps cap lim ans size s s' ∧ (s' x).out.length = cap x ∧ (∃ m k, (s' x).wr = some (m, k, none)) ∧
      (s' x).tasks = (s x).tasks ∧ (s' x).slot = (s x).slot ∧ s' (!x) = s (!x) := by
  induction room generalizing s m k with
  | zero => exact ⟨s, .refl, by omega, ⟨m, k, hw⟩, rfl, rfl, rfl⟩
  | succ room ih =>
    cases k with
    | succ k =>
      obtain ⟨s1, a1, a2, a3⟩ := xwrite (cap := cap) (lim := lim) (ans := ans) (size := size) s x m k hw (by omega)
      obtain ⟨s', g1, g2, g3, g4, g5, g6⟩ := ih m k s1 (by rw [a2]; simp; omega) (by rw [a2]) (by rw [a2]; simp; omega)
      exact ⟨s', dtrans a1 g1, g2, g3, by rw [g4, a2], by rw [g5, a2], by rw [g6, a3]⟩
    | zero =>
      cases ho : (s x).own with
      | nil => rw [ho] at hown; simp at hown
      | cons m' t =>
        obtain ⟨s1, a1, a2, a3⟩ := xwrote (cap := cap) (lim := lim) (ans := ans) (size := size) s x m hw (by omega)
        obtain ⟨s2, b1, b2, b3⟩ := xsend (cap := cap) (lim := lim) (ans := ans) (size := size) s1 x m' t
          (by rw [a2]; exact ho) (by rw [a2])
        rw [ho] at hown
        simp only [List.length_cons] at hown
        obtain ⟨s', g1, g2, g3, g4, g5, g6⟩ := ih m' (size m' - 1) s2 (by rw [b2, a2]; simp; omega)
          (by rw [b2]) (by rw [b2]; simp; omega)
        exact ⟨s', dtrans (dtrans a1 b1) g1, g2, g3, by rw [g4, b2, a2], by rw [g5, b2, a2], by rw [g6, b3, a3]⟩

end Load

/-- C107, false as stated: if both programs use runners with a limit (`SequentialRunner`, or a
`MultiRoutineRunner` with any number of workers), and each answers some message of the other, the
two can block each other for ever, however large the limits and the buffers between them are:
each waits for the other to read, with messages unread and requests unanswered. -/
theorem duplex_false (cap : Bool → Nat) (hcap : ∀ x, 0 < cap x) (n : Bool → Nat) (ans : Bool → α → List α)
    (size : α → Nat) (q : Bool → α) (hq : ∀ x, ans (!x) (q x) ≠ []) :
    ∃ (own : Bool → List α) (s : Bool → Side α), (∀ x, ∀ m ∈ own x, m = q x) ∧
      Side.Steps cap (fun x => some (n x)) ans size (.init own) s ∧
      (∀ x, (s x).inFlight = n x ∧ (s x).slot = some (q (!x)) ∧ (s x).out.length = cap x ∧ (s x).wr ≠ none) ∧
      ¬ ∃ s', Side.Step cap (fun x => some (n x)) ans size s s' := by
  let own : Bool → List α := fun x => List.replicate (n (!x)) (q x) ++ (q x :: q x :: List.replicate (cap x) (q x))
  let s0 : Bool → Side α := .init own
  obtain ⟨s1, a1, a2, a3, a4, a5, a6, a7⟩ := load (cap := cap) (lim := fun x => some (n x)) (ans := ans) (size := size)
    (x := true) (hcap true) (n := n false) rfl (q true) (hq true) (q true :: q true :: List.replicate (cap true) (q true))
    (n false) s0 rfl rfl rfl rfl rfl (by simp [s0, Side.init])
  simp only [Bool.not_true] at a3 a4 a5 a6 a7
  obtain ⟨s2, b1, b2, b3, b4, b5, b6, b7⟩ := load (cap := cap) (lim := fun x => some (n x)) (ans := ans) (size := size)
    (x := false) (hcap false) (n := n true) rfl (q false) (hq false)
    (q false :: q false :: List.replicate (cap false) (q false))
    (n true) s1 (by rw [a4]; rfl) a5 (by rw [a6]; rfl) (by rw [Bool.not_false, a2]; rfl) (by rw [Bool.not_false, a2]; rfl)
    (by rw [Bool.not_false, a2]; simp [s0, Side.init])
  simp only [Bool.not_false] at b3 b4 b5 b6 b7
  obtain ⟨s3, c1, c2, c3⟩ := toss (cap := cap) (lim := fun x => some (n x)) (ans := ans) (size := size)
    (x := true) (hcap true) (q true) (q true :: List.replicate (cap true) (q true)) s2 (by rw [b4, a2]) b5
    (by rw [b6, a2]; rfl) (by rw [Bool.not_true, b2]; exact a7)
  rw [Bool.not_true] at c3
  obtain ⟨s4, d1, d2, d3⟩ := toss (cap := cap) (lim := fun x => some (n x)) (ans := ans) (size := size)
    (x := false) (hcap false) (q false) (q false :: List.replicate (cap false) (q false)) s3 (by rw [c3, b2]) (by rw [c3, b2]; exact a5)
    (by rw [c3, b2]; simp [a6, s0, Side.init]) (by rw [Bool.not_false, c2]; exact b7)
  rw [Bool.not_false] at d3
  obtain ⟨s4', e1, e1a, e1b⟩ := xsend (cap := cap) (lim := fun x => some (n x)) (ans := ans) (size := size) s4 true (q true)
    (List.replicate (cap true) (q true)) (by rw [d3, c2]) (by rw [d3, c2]; exact b5)
  obtain ⟨s5, f1, f2, ⟨m5, k5, f3⟩, f4, f5, f6⟩ := fill (cap := cap) (lim := fun x => some (n x)) (ans := ans) (size := size)
    (x := true) (cap true) (q true) (size (q true) - 1) s4' (by rw [e1a, d3, c2]; simp [b6, a2, s0, Side.init])
    (by rw [e1a]) (by rw [e1a]; simp)
  rw [e1a] at f4 f5
  rw [e1b, Bool.not_true] at f6
  obtain ⟨s5', e2, e2a, e2b⟩ := xsend (cap := cap) (lim := fun x => some (n x)) (ans := ans) (size := size) s5 false (q false)
    (List.replicate (cap false) (q false)) (by rw [f6, d2]) (by rw [f6, d2, c3, b2]; exact a5)
  obtain ⟨s6, g1, g2, ⟨m6, k6, g3⟩, g4, g5, g6⟩ := fill (cap := cap) (lim := fun x => some (n x)) (ans := ans) (size := size)
    (x := false) (cap false) (q false) (size (q false) - 1) s5' (by rw [e2a, f6, d2, c3, b2]; simp [a6, s0, Side.init])
    (by rw [e2a]) (by rw [e2a]; simp)
  rw [e2a] at g4 g5
  rw [e2b, Bool.not_false] at g6
  have run : Side.Steps cap (fun x => some (n x)) ans size s0 s6 :=
    dtrans (dtrans (dtrans (dtrans (dtrans (dtrans (dtrans a1 b1) c1) d1) e1) f1) e2) g1
  have t6 : (s6 false).tasks.length = n false := by
    simp only at g4
    rw [g4, f6, d2, c3, b2]
    simpa [s0, Side.init] using a3
  have t5 : (s6 true).tasks.length = n true := by
    simp only at f4
    rw [g6, f4, d3, c2]
    rw [show (s2 true).tasks.length = _ from b3, a2]
    simp [s0, Side.init]
  have l6 : (s6 false).slot = some (q true) := by
    simp only at g5
    rw [g5, f6, d2, c3]
  have l5 : (s6 true).slot = some (q false) := by
    simp only at f5
    rw [g6, f5, d3]
  have all : ∀ x, (s6 x).inFlight = n x ∧ (s6 x).slot = some (q (!x)) ∧ (s6 x).out.length = cap x ∧ ∃ m k, (s6 x).wr = some (m, k, none) := by
    intro x
    cases x with
    | true => exact ⟨by rw [Side.inFlight, t5, g6, f3]; simp, l5, by rw [g6]; exact f2, m5, k5, by rw [g6]; exact f3⟩
    | false => exact ⟨by rw [Side.inFlight, t6, g3]; simp, l6, g2, m6, k6, g3⟩
  refine ⟨own, s6, ?_, run, fun x => ?_, ?_⟩
  · intro x m hm
    simp only [own, List.mem_append, List.mem_replicate, List.mem_cons] at hm
    rcases hm with hm | hm | hm | hm
    · exact hm.2
    · exact hm
    · exact hm
    · exact hm.2
  · obtain ⟨h1, h2, h3, m, k, h4⟩ := all x
    exact ⟨h1, h2, h3, by rw [h4]; simp⟩
  · refine done_of_stuck (fun x => ?_) (fun x => (all x).2.2.1) (fun x => ⟨_, (all x).2.1⟩)
      (fun x => ⟨n x, rfl, Nat.le_of_eq (all x).1.symm⟩)
    obtain ⟨_, _, _, m, k, h4⟩ := all x
    exact ⟨m, k, none, h4⟩

/-- Non-vacuity: two programs that send each other an echo request (`true`) and answer it (`false`). -/
example : ∃ (ans : Bool → Bool → List Bool) (cost : Bool → Bool → Nat),
    (∀ x, ans (!x) true ≠ []) ∧
    ∀ x m, 2 * 8 + 2 + ((ans (!x) m).map (cost (!x))).sum ≤ cost x m :=
  ⟨fun _ m => if m then [false] else [], fun _ m => if m then 36 else 18, by simp, by intro x m; cases m <;> simp⟩

/-! ## C109: barriers -/

private theorem ans_order {cap : Bool → Nat} {lim : Bool → Option Nat} {ans : Bool → α → List α} {size : α → Nat}
    {own : Bool → List α} {s : Bool → Side α} (h : Side.Steps cap lim ans size (.init own) s) (y : Bool)
    (hy : lim y = some 1) (p : α → Bool) (hown : ∀ m ∈ own y, p m = false) (hans : ∀ m, ∀ r ∈ ans y m, p r = true) :
    (s y).got.flatMap (ans y) = (trail s y).filter p ++ ((s y).tasks.flatten ++ wrRest (s y).wr) := by
  induction h with
  | refl => simp [Side.init, wrRest, trail, wrFirst]
  | @tail s s' h0 st ih =>
    obtain ⟨hn, _⟩ := seq_order h0 y hy
    obtain ⟨d, hd, _⟩ := own_order h0 y
    rcases trail_step st y with ⟨m, h1, h2, h3, h4, h5, h6, h7⟩ | ⟨a, r, t, b, h1, _, h3, h4, h5, h6, h7, h8⟩ |
      ⟨h1, _, h3, h4, h5⟩ | ⟨m, h1, _, h3, h4, h5, h6, h7⟩
    · have hm : p m = false := hown m (by rw [hd, h2]; simp)
      rw [h6, h3, h5, ih, h4, h1]
      simp [hm]
    · have hl : (s y).tasks.length ≤ 1 := by simp only [Side.inFlight] at hn; omega
      rw [h3] at hl
      simp only [List.length_append, List.length_cons] at hl
      have ha : a = [] := List.eq_nil_of_length_eq_zero (by omega)
      have hb : b = [] := List.eq_nil_of_length_eq_zero (by omega)
      subst ha hb
      have hr : p r = true := by
        have : r ∈ (s y).got.flatMap (ans y) := by rw [ih, h3]; simp
        obtain ⟨m, _, hm⟩ := List.mem_flatMap.1 this
        exact hans m r hm
      rw [h7, h4, h6, ih, h3, h5, h1]
      simp [wrRest, hr]
    · rw [h3, h5, h1, ih]
    · have h0 := h4 1 hy
      have ht : (s y).tasks = [] := List.eq_nil_of_length_eq_zero (by simp only [Side.inFlight] at h0; omega)
      have hw : wrRest (s y).wr = [] := by
        simp only [Side.inFlight] at h0
        cases hwr : (s y).wr with
        | none => rfl
        | some p =>
          obtain ⟨q, k, o⟩ := p
          cases o with
          | none => rfl
          | some t => rw [hwr] at h0; simp at h0
      rw [hw, ht] at ih
      rw [h3, h6, h7, hw, ht, h1, List.flatMap_append, ih]
      simp

/-- C109, what holds: if program `x` uses `SequentialRunner`, then at any time: when the other has
been given a message `r` that answers something, but none of the messages `a`, then it has been
given all answers to the messages `a` before, in their order.  (`x` has been given `a`, then `m`,
then `b`; `p` tells answers from what `x` sends unasked.)  With `r` the answer to a barrier request
`m`: everything before the barrier has been answered when the barrier is.
Missing: the default runner and pools (`barrier_false`, `pools_reorder`). -/
theorem barrier_partial (cap : Bool → Nat) (lim : Bool → Option Nat) (ans : Bool → α → List α) (size : α → Nat)
    (own : Bool → List α) (s : Bool → Side α) (h : Side.Steps cap lim ans size (.init own) s) (x : Bool)
    (hx : lim x = some 1) (p : α → Bool) (hown : ∀ m ∈ own x, p m = false) (hans : ∀ m, ∀ r ∈ ans x m, p r = true)
    (a b : List α) (m : α) (hg : (s x).got = a ++ m :: b) (u v : List α) (r : α) (hr : (s (!x)).got = u ++ r :: v)
    (hp : p r = true) (hra : r ∉ a.flatMap (ans x)) : a.flatMap (ans x) <+: u.filter p := by
  have e := ans_order h x hx p hown hans
  rw [hg] at e
  simp only [trail, hr, List.append_assoc, List.filter_append, List.cons_append, List.filter_cons, hp, if_true] at e
  rw [List.flatMap_append] at e
  have h1 : a.flatMap (ans x) <+: u.filter p ++ r :: _ := ⟨_, e⟩
  by_cases hl : (a.flatMap (ans x)).length ≤ (u.filter p).length
  · exact List.prefix_of_prefix_length_le h1 (List.prefix_append _ _) hl
  · have h2 := List.prefix_of_prefix_length_le (l₁ := u.filter p ++ [r]) (l₃ := u.filter p ++ r :: _)
      ⟨_, by rw [List.append_assoc]; rfl⟩ h1 (by rw [List.length_append, List.length_singleton]; omega)
    exact absurd (h2.subset (by simp)) hra

section Overtake

variable {cap : Bool → Nat} {lim : Bool → Option Nat} {ans : Bool → α → List α} {size : α → Nat}

private theorem flyH {x : Bool} (hcap : 0 < cap x) (m : α) (h : Option (List α)) (k : Nat) (s : Bool → Side α)
    (hw : (s x).wr = some (m, k, h)) (ho : (s x).out = []) (hs : (s (!x)).slot = none) :
    ∃ s', Side.Steps cap lim ans size s s' ∧ s' x = { s x with wr := none, tasks := Side.put (s x).tasks (h.getD []) } ∧
      s' (!x) = { s (!x) with slot := some m } := by
  induction k generalizing s with
  | zero =>
    have w1 : ∃ s', Side.Steps cap lim ans size s s' ∧ s' x = { s x with out := (s x).out ++ [some m], wr := none, tasks := Side.put (s x).tasks (h.getD []) } ∧
      s' (!x) = s (!x) := ⟨_, .tail .refl (.wrote s x m h hw (by rw [ho]; exact hcap)), set_at _ _ _, set_not _ _ _⟩
    obtain ⟨s1, a1, a2, a3⟩ := w1
    obtain ⟨s2, b1, b2, b3⟩ := xread (cap := cap) (lim := lim) (ans := ans) (size := size) s1 x (some m) []
      (by rw [a3]; exact hs) (by rw [a2]; simp [ho])
    refine ⟨s2, dtrans a1 b1, by rw [b2, a2]; simp [ho], by rw [b3, a3]⟩
  | succ k ih =>
    have w1 : ∃ s', Side.Steps cap lim ans size s s' ∧ s' x = { s x with out := (s x).out ++ [none], wr := some (m, k, h) } ∧
      s' (!x) = s (!x) := ⟨_, .tail .refl (.write s x m k h hw (by rw [ho]; exact hcap)), set_at _ _ _, set_not _ _ _⟩
    obtain ⟨s1, a1, a2, a3⟩ := w1
    obtain ⟨s2, b1, b2, b3⟩ := xread (cap := cap) (lim := lim) (ans := ans) (size := size) s1 x none []
      (by rw [a3]; exact hs) (by rw [a2]; simp [ho])
    obtain ⟨s', h1, h2, h3⟩ := ih s2 (by rw [b2, a2]) (by rw [b2]) (by rw [b3])
    exact ⟨s', dtrans (dtrans a1 b1) h1, by rw [h2, b2, a2]; simp [ho], by rw [h3, b3, a3]⟩

private theorem xdeliver (s : Bool → Side α) (x : Bool) (m : α) (hs : (s x).slot = some m)
    (hg : ∀ n, lim x = some n → (s x).inFlight < n) :
    ∃ s', Side.Steps cap lim ans size s s' ∧ s' x = { s x with
        slot := none, tasks := Side.put (s x).tasks (ans x m), got := (s x).got ++ [m] } ∧ s' (!x) = s (!x) :=
  ⟨_, .tail .refl (.deliver s x m hs hg), set_at _ _ _, set_not _ _ _⟩

end Overtake

/-- C109, false as stated: with the default runner the answer to a barrier `m` can overtake the
answers to what was sent before it (`q`): the other is given an answer to `m` when it has been
given none to `q`; for all messages, sizes and buffers. -/
theorem barrier_false (cap : Bool → Nat) (hcap : ∀ x, 0 < cap x) (lim : Bool → Option Nat) (x : Bool)
    (hx : lim x = none) (hlim : lim (!x) ≠ some 0) (ans : Bool → α → List α) (size : α → Nat) (q m c r : α)
    (ct rt : List α) (hq : ans x q = c :: ct) (hm : ans x m = r :: rt) :
    ∃ (own : Bool → List α) (s : Bool → Side α), own x = [] ∧ own (!x) = [q, m] ∧
      Side.Steps cap lim ans size (.init own) s ∧ (s x).got = [q, m] ∧ (s (!x)).got = [r] := by
  let own : Bool → List α := fun y => if y = x then [] else [q, m]
  have o1 : own x = [] := by simp [own]
  have o2 : own (!x) = [q, m] := by cases x <;> simp [own]
  have n1 : ∀ n, lim x = some n → False := by intro n hn; rw [hx] at hn; simp at hn
  obtain ⟨s1, a1, a2, a3⟩ := toss (cap := cap) (lim := lim) (ans := ans) (size := size) (x := !x) (hcap _) q [m] (.init own)
    o2 rfl rfl rfl
  rw [Bool.not_not] at a3
  obtain ⟨s2, b1, b2, b3⟩ := xdeliver (cap := cap) (lim := lim) (ans := ans) (size := size) s1 x q (by rw [a3])
    (fun n hn => (n1 n hn).elim)
  obtain ⟨s3, c1, c2, c3⟩ := toss (cap := cap) (lim := lim) (ans := ans) (size := size) (x := !x) (hcap _) m [] s2
    (by rw [b3, a2]) (by rw [b3, a2]; rfl) (by rw [b3, a2]; rfl) (by rw [Bool.not_not, b2])
  rw [Bool.not_not] at c3
  obtain ⟨s4, d1, d2, d3⟩ := xdeliver (cap := cap) (lim := lim) (ans := ans) (size := size) s3 x m (by rw [c3])
    (fun n hn => (n1 n hn).elim)
  have t4 : (s4 x).tasks = [c :: ct] ++ (r :: rt) :: [] := by
    rw [d2, c3, b2, a3]; simp [Side.put, hq, hm, Side.init]
  have w4 : (s4 x).wr = none := by rw [d2, c3, b2, a3]; rfl
  have ex : ∃ s5, Side.Steps cap lim ans size s4 s5 ∧ s5 x = { s4 x with tasks := [c :: ct] ++ [], wr := some (r, size r - 1, some rt) } ∧
      s5 (!x) = s4 (!x) := ⟨_, .tail .refl (.answer s4 x [c :: ct] r rt [] t4 w4), set_at _ _ _, set_not _ _ _⟩
  obtain ⟨s5, e1, e2, e3⟩ := ex
  obtain ⟨s6, f1, f2, f3⟩ := flyH (cap := cap) (lim := lim) (ans := ans) (size := size) (hcap x) r (some rt) (size r - 1) s5
    (by rw [e2]) (by rw [e2, d2, c3, b2, a3]; rfl) (by rw [e3, d3, c2, b3, a2]; rfl)
  obtain ⟨s7, g1, g2, g3⟩ := xdeliver (cap := cap) (lim := lim) (ans := ans) (size := size) s6 (!x) r (by rw [f3]) (by
    intro n hn
    have : n ≠ 0 := by rintro rfl; exact hlim hn
    rw [f3, e3, d3, c2, b3, a2]
    simp [Side.inFlight, Side.init]
    omega)
  rw [Bool.not_not] at g3
  refine ⟨own, s7, o1, o2, dtrans (dtrans (dtrans (dtrans (dtrans (dtrans a1 b1) c1) d1) e1) f1) g1, ?_, ?_⟩
  · rw [g3, f2, e2, d2, c3, b2, a3]; rfl
  · rw [g2, f3, e3, d3, c2, b3, a2]; rfl

private def exAns : Bool → Nat → List Nat := fun x m => if x && m % 2 == 0 then [m + 1] else []

/-- Non-vacuity of `barrier_partial`: even numbers are answered with the next one; `true` is given 0
and then 2, the other 1 and then 3. -/
example : ∃ s, Side.Steps (fun _ => 1) (fun x => if x then some 1 else none) exAns (fun _ => 1)
      (.init fun x => if x then [] else [0, 2]) s ∧ (s true).got = [0] ++ 2 :: [] ∧ (s false).got = [1] ++ 3 :: [] ∧
    (∀ m, ∀ r ∈ exAns true m, (r % 2 == 1) = true) ∧ 3 ∉ [0].flatMap (exAns true) := by
  obtain ⟨s, h1, h2, h3⟩ := duplex_completes_partial (α := Nat) (fun _ => 1) (by simp) (fun x => if x then some 1 else none)
    (by intro x; cases x <;> simp) exAns (fun _ => 1) (by simp) (fun x _ => if x then 4 else 8)
    (by intro x m; cases x <;> simp [exAns]; split <;> simp) (fun x => if x then [] else [0, 2]) false (.inl rfl) _ .refl
  have a1 : [0, 2].Sublist (s true).got := (duplex_order _ _ _ _ _ s h1 h2 false).1
  have a2 := h3 false
  have a3 : (s false).got.flatMap (exAns false) = [] := by simp [exAns]
  rw [a3] at a2
  have e1 : [0, 2] = (s true).got := a1.eq_of_length (by have := a2.length_eq; simpa [exAns] using this.symm)
  have b1 := (duplex_order _ _ _ _ _ s h1 h2 true).2 rfl
  have b2 := h3 true
  rw [← e1] at b1 b2
  have e2 : [1, 3] = (s false).got := by
    refine List.Sublist.eq_of_length (by simpa [exAns] using b1) ?_
    have := b2.length_eq
    simpa [exAns] using this.symm
  refine ⟨s, h1, e1.symm, e2.symm, ?_, by decide⟩
  intro m r hr
  simp [exAns] at hr
  obtain ⟨h, rfl⟩ := hr
  simp
  omega

end Verif.Props
