import Verif.Props.MuxConc

/-!
# C66: matchers that use the multiplexer

`Handler` calls the matchers with the read lock held (mux.go:120-131).  A matcher that itself
uses the multiplexer, which `Verif/MuxConc.lean` leaves out, then takes the lock a second time.
Here only the lock is modelled, and every call is the list of the operations on it.
-/

namespace Verif.Props

open Verif

/-- Operations on the `sync.RWMutex` of mux.go:60. -/
inductive LockOp where
  | rlock | runlock | lock | unlock
  deriving DecidableEq, Repr

/-- Calls on the multiplexer.  `handler once inner`: `Handler` (mux.go:115-162), whose matchers
make the calls `inner`; `once`: the entry that is found is disposable.  `handle`: `Handle`,
`HandleOnce`, `HandleFunc` (mux.go:75-112). -/
inductive MuxCall where
  | handler (once : Bool) (inner : List MuxCall)
  | handle

mutual
/-- What a call does with the lock, mux.go:120, 131, 150-151, 76-77. -/
def MuxCall.ops : MuxCall → List LockOp
  | .handler once inner => .rlock :: (MuxCall.opsAll inner ++ .runlock :: if once then [.lock, .unlock] else [])
  | .handle => [.lock, .unlock]
/-- Several calls, one after another. -/
def MuxCall.opsAll : List MuxCall → List LockOp
  | [] => []
  | c :: cs => c.ops ++ MuxCall.opsAll cs
end

/-- The lock and the goroutines: `readers`, one entry for each `RLock` without its `RUnlock`;
`writer`, who has called `Lock` and not `Unlock`; `held`, whether that `Lock` has returned;
`todo`, what each goroutine still does with the lock. -/
structure RW where
  readers : List Nat
  writer : Option Nat
  held : Bool
  todo : Nat → List LockOp

def RW.init (progs : Nat → List MuxCall) : RW := ⟨[], none, false, fun i => MuxCall.opsAll (progs i)⟩

/-- Goroutine `i` has `l` left to do. -/
def RW.left (c : RW) (i : Nat) (l : List LockOp) : RW := { c with todo := fun j => if j = i then l else c.todo j }

/-- `sync.RWMutex`: `RLock` waits while a goroutine is in `Lock` or has the write lock; `Lock`
keeps others out at once and then waits for the readers. -/
inductive RW.Step (i : Nat) : RW → RW → Prop where
  | rlock (c t) (h : c.todo i = .rlock :: t) (hw : c.writer = none) :
    Step i c { c.left i t with readers := i :: c.readers }
  | runlock (c t) (h : c.todo i = .runlock :: t) (hr : i ∈ c.readers) :
    Step i c { c.left i t with readers := c.readers.erase i }
  | announce (c t) (h : c.todo i = .lock :: t) (hw : c.writer = none) : Step i c { c with writer := some i }
  | locked (c t) (h : c.todo i = .lock :: t) (hw : c.writer = some i) (hh : c.held = false) (hr : c.readers = []) :
    Step i c { c.left i t with held := true }
  | unlock (c t) (h : c.todo i = .unlock :: t) (hw : c.writer = some i) (hh : c.held = true) :
    Step i c { c.left i t with writer := none, held := false }

/-- Zero or more steps of any goroutines. -/
inductive RW.Steps (c₀ : RW) : RW → Prop where
  | refl : RW.Steps c₀ c₀
  | tail {c c'} (i : Nat) (h : RW.Steps c₀ c) (st : RW.Step i c c') : RW.Steps c₀ c'

/-- C66 is false for matchers that register: a goroutine that has the read lock and calls
`Lock` never gets it; nobody else does either; and once somebody is in `Lock`, nobody gets the
read lock any more. -/
theorem mux_nested_blocks (c c' : RW) (i : Nat) (t : List LockOp) (hi : c.todo i = .lock :: t) (hr : i ∈ c.readers)
    (hh : c.held = false) (h : RW.Steps c c') :
    c'.todo i = .lock :: t ∧ i ∈ c'.readers ∧ c'.held = false ∧
      (∀ j u, c.todo j = .lock :: u → c'.todo j = .lock :: u) ∧
      ∀ w, c.writer = some w → c'.writer = some w ∧ ∀ j u, c.todo j = .rlock :: u → c'.todo j = .rlock :: u := by
  induction h with
  | refl => exact ⟨hi, hr, hh, fun _ _ h => h, fun w hw => ⟨hw, fun _ _ h => h⟩⟩
  | tail j _ st ih =>
    obtain ⟨h1, h2, h3, h4, h5⟩ := ih
    have hne : ∀ (c₁ : RW) (op : LockOp) (u : List LockOp), c₁.todo j = op :: u → ∀ k (op' : LockOp) v,
        c₁.todo k = op' :: v → op' ≠ op → k ≠ j := by
      rintro c₁ op u e1 k op' v e2 hn rfl
      rw [e1] at e2
      exact hn (List.cons.inj e2).1.symm
    cases st with
    | rlock u e hw =>
      refine ⟨?_, by simp [h2], h3, fun k v hk => ?_, fun w hw' => ?_⟩
      · simp [RW.left, hne _ _ _ e _ _ _ h1 (by simp), h1]
      · have := h4 k v hk
        simp [RW.left, hne _ _ _ e _ _ _ this (by simp), this]
      · rw [(h5 w hw').1] at hw; cases hw
    | runlock u e hr' =>
      have hij := hne _ _ _ e _ _ _ h1 (by simp)
      refine ⟨by simp [RW.left, hij, h1], (List.mem_erase_of_ne hij).mpr h2, h3, fun k v hk => ?_, fun w hw' => ?_⟩
      · have := h4 k v hk
        simp [RW.left, hne _ _ _ e _ _ _ this (by simp), this]
      · refine ⟨(h5 w hw').1, fun k v hk => ?_⟩
        have := (h5 w hw').2 k v hk
        simp [RW.left, hne _ _ _ e _ _ _ this (by simp), this]
    | announce u e hw =>
      refine ⟨h1, h2, h3, h4, fun w hw' => ?_⟩
      rw [(h5 w hw').1] at hw; cases hw
    | locked u e hw hh' hr' => rw [hr'] at h2; cases h2
    | unlock u e hw hh' => rw [h3] at hh'; cases hh'

private theorem held_inv {progs : Nat → List MuxCall} {c : RW} (h : RW.Steps (.init progs) c) :
    c.held = true → c.readers = [] ∧ c.writer ≠ none := by
  induction h with
  | refl => intro h; cases h
  | tail j _ st ih =>
    cases st with
    | rlock u e hw => intro h; exact absurd hw (ih h).2
    | runlock u e hr => intro h; rw [(ih h).1] at hr; cases hr
    | announce u e hw => intro h; exact ⟨(ih h).1, by simp⟩
    | locked u e hw hh hr => intro _; exact ⟨hr, by simp [RW.left, hw]⟩
    | unlock u e hw hh => intro h; cases h

/-- C66 is false: a dispatch whose matcher registers a handler never returns.  In every
execution, with any other goroutines, it gets at most as far as its `RLock`. -/
theorem mux_nested_register_false (progs : Nat → List MuxCall) (i : Nat) (once : Bool) (inner rest : List MuxCall)
    (hp : progs i = .handler once (.handle :: inner) :: rest) (c : RW) (h : RW.Steps (.init progs) c) :
    c.todo i = MuxCall.opsAll (progs i) ∨ c.todo i = (MuxCall.opsAll (progs i)).tail := by
  obtain ⟨t, ht⟩ : ∃ t, MuxCall.opsAll (progs i) = .rlock :: .lock :: t := by
    rw [hp]; simp only [MuxCall.opsAll, MuxCall.ops, List.cons_append]; exact ⟨_, rfl⟩
  rw [ht]
  suffices hk : c.todo i = .rlock :: .lock :: t ∨ (c.todo i = .lock :: t ∧ i ∈ c.readers) by
    rcases hk with hk | hk
    · exact .inl hk
    · exact .inr hk.1
  induction h with
  | refl => exact .inl ht
  | @tail c c' j hs st ih =>
    rcases ih with ih | ⟨ih, hr⟩
    · by_cases hj : i = j
      · subst hj
        cases st with
        | rlock u e hw =>
          rw [ih] at e
          obtain ⟨_, rfl⟩ := List.cons.inj e
          exact .inr ⟨by simp [RW.left], by simp⟩
        | runlock u e => rw [ih] at e; cases e
        | announce u e => rw [ih] at e; cases e
        | locked u e => rw [ih] at e; cases e
        | unlock u e => rw [ih] at e; cases e
      · left
        cases st <;> simp [RW.left, hj, ih]
    · have hh : c.held = false := by
        cases he : c.held with
        | false => rfl
        | true => rw [(held_inv hs he).1] at hr; cases hr
      obtain ⟨h1, h2, _⟩ := mux_nested_blocks c c' i t ih hr hh (.tail j .refl st)
      exact .inr ⟨h1, h2⟩

/-- C66 is false for matchers that dispatch: when another goroutine registers a handler at the
wrong moment, the inner `RLock` waits for that goroutine, which waits for the outer one. -/
theorem mux_nested_dispatch_false : ∃ c : RW,
    RW.Steps (.init fun i => if i = 0 then [.handler false [.handler false []]] else if i = 1 then [.handle] else []) c ∧
    ∀ c', RW.Steps c c' → c'.todo 0 ≠ [] ∧ c'.todo 1 ≠ [] ∧ c' = c := by
  let progs : Nat → List MuxCall :=
    fun i => if i = 0 then [.handler false [.handler false []]] else if i = 1 then [.handle] else []
  let c0 : RW := .init progs
  let c1 : RW := { c0.left 0 [.rlock, .runlock, .runlock] with readers := [0] }
  let c2 : RW := { c1 with writer := some 1 }
  have s1 : RW.Step 0 c0 c1 := .rlock c0 _ rfl rfl
  have s2 : RW.Step 1 c1 c2 := .announce c1 [.unlock] rfl rfl
  have t0 : c2.todo 0 = [.rlock, .runlock, .runlock] := rfl
  have t1 : c2.todo 1 = [.lock, .unlock] := rfl
  have tn : ∀ i, i ≠ 0 → i ≠ 1 → c2.todo i = [] := by
    intro i h0 h1
    show (if i = 0 then _ else MuxCall.opsAll (progs i)) = _
    rw [if_neg h0]
    show MuxCall.opsAll (if i = 0 then _ else if i = 1 then _ else []) = _
    rw [if_neg h0, if_neg h1]; rfl
  refine ⟨c2, .tail 1 (.tail 0 .refl s1) s2, fun c' h => ?_⟩
  have key : c' = c2 := by
    induction h with
    | refl => rfl
    | @tail c c' j _ st ih =>
      subst ih
      exfalso
      by_cases h0 : j = 0
      · subst h0
        cases st with
        | rlock u e hw => cases hw
        | runlock u e => rw [t0] at e; cases e
        | announce u e => rw [t0] at e; cases e
        | locked u e => rw [t0] at e; cases e
        | unlock u e => rw [t0] at e; cases e
      · by_cases h1 : j = 1
        · subst h1
          cases st with
          | rlock u e => rw [t1] at e; cases e
          | runlock u e => rw [t1] at e; cases e
          | announce u e hw => cases hw
          | locked u e hw hh hr => cases hr
          | unlock u e => rw [t1] at e; cases e
        · have := tn j h0 h1
          cases st with
          | rlock u e => rw [this] at e; cases e
          | runlock u e => rw [this] at e; cases e
          | announce u e => rw [this] at e; cases e
          | locked u e => rw [this] at e; cases e
          | unlock u e => rw [this] at e; cases e
  subst key
  exact ⟨by rw [t0]; simp, by rw [t1]; simp, rfl⟩

/-- In every part of the list that is left, at least as many `RUnlock`s as `RLock`s. -/
private def Nested (l : List LockOp) : Prop := ∀ a b, l = a ++ b → b.count .rlock ≤ b.count .runlock

private theorem nested_append {l l' : List LockOp} (h : Nested l) (h' : Nested l') : Nested (l ++ l') := by
  intro a b e
  rcases List.append_eq_append_iff.mp e with ⟨x, rfl, rfl⟩ | ⟨x, rfl, rfl⟩
  · exact h' _ _ rfl
  · have := h a x rfl
    have := h' [] l' rfl
    simp only [List.count_append]; omega

mutual
private theorem ops_nested : ∀ c : MuxCall, Nested c.ops ∧ c.ops.count .rlock = c.ops.count .runlock
  | .handle => by
    refine ⟨fun a b e => ?_, by simp [MuxCall.ops]⟩
    have : b.count LockOp.rlock ≤ (MuxCall.ops .handle).count .rlock := by
      rw [e, List.count_append]; omega
    simp [MuxCall.ops] at this
    omega
  | .handler once inner => by
    obtain ⟨h1, h2⟩ := opsAll_nested inner
    have h3 : Nested (.runlock :: if once then [.lock, .unlock] else []) := by
      intro a b e
      have : b.count LockOp.rlock ≤ (LockOp.runlock :: if once then [LockOp.lock, .unlock] else []).count .rlock := by
        rw [e, List.count_append]; omega
      cases once <;> simp at this <;> omega
    have hb : ((LockOp.rlock :: (MuxCall.opsAll inner ++ .runlock :: if once then [.lock, .unlock] else [])).count .rlock) =
        ((LockOp.rlock :: (MuxCall.opsAll inner ++ .runlock :: if once then [.lock, .unlock] else [])).count .runlock) := by
      cases once <;> simp [h2]
    refine ⟨fun a b e => ?_, hb⟩
    cases a with
    | nil =>
      simp only [List.nil_append] at e
      rw [← e]
      exact Nat.le_of_eq hb
    | cons x a =>
      simp only [MuxCall.ops, List.cons_append, List.cons.injEq] at e
      exact nested_append h1 h3 a b e.2
private theorem opsAll_nested : ∀ cs : List MuxCall, Nested (MuxCall.opsAll cs) ∧
    (MuxCall.opsAll cs).count .rlock = (MuxCall.opsAll cs).count .runlock
  | [] => ⟨fun a b e => by
      simp only [MuxCall.opsAll] at e
      have := List.append_eq_nil_iff.mp e.symm
      simp [this.2], rfl⟩
  | c :: cs => by
    obtain ⟨h1, h2⟩ := ops_nested c
    obtain ⟨h3, h4⟩ := opsAll_nested cs
    exact ⟨by simp only [MuxCall.opsAll]; exact nested_append h1 h3, by simp [MuxCall.opsAll, h2, h4]⟩
end

mutual
private theorem ops_locks : ∀ c : MuxCall, c.ops.count .lock = c.ops.count .unlock
  | .handle => rfl
  | .handler once inner => by
    have := opsAll_locks inner
    cases once <;> simp [MuxCall.ops, this]
private theorem opsAll_locks : ∀ cs : List MuxCall, (MuxCall.opsAll cs).count .lock = (MuxCall.opsAll cs).count .unlock
  | [] => rfl
  | c :: cs => by simp [MuxCall.opsAll, ops_locks c, opsAll_locks cs]
end

/-- C66, partial: matchers may dispatch, to any depth, as long as no goroutine registers
handlers or has disposable ones: then whoever has something to do can do it. -/
theorem mux_nested_dispatch_partial (progs : Nat → List MuxCall) (hl : ∀ i, .lock ∉ MuxCall.opsAll (progs i)) (c : RW)
    (h : RW.Steps (.init progs) c) (i : Nat) (hi : c.todo i ≠ []) : ∃ c', RW.Step i c c' := by
  have hu : ∀ j, .unlock ∉ MuxCall.opsAll (progs j) := by
    intro j
    rw [← List.count_eq_zero, ← opsAll_locks, List.count_eq_zero]
    exact hl j
  have inv : c.writer = none ∧ ∀ j, (∃ a, MuxCall.opsAll (progs j) = a ++ c.todo j) ∧
      c.readers.count j + (c.todo j).count .rlock = (c.todo j).count .runlock := by
    clear hi
    induction h with
    | refl => exact ⟨rfl, fun j => ⟨⟨[], rfl⟩, by simpa [RW.init] using (opsAll_nested (progs j)).2⟩⟩
    | @tail c c' k _ st ih =>
      obtain ⟨hw, ih⟩ := ih
      have hmem : ∀ op u, c.todo k = op :: u → op ∈ MuxCall.opsAll (progs k) := by
        intro op u e
        obtain ⟨a, ha⟩ := (ih k).1
        rw [ha, e]; simp
      cases st with
      | rlock u e _ =>
        refine ⟨hw, fun j => ?_⟩
        obtain ⟨⟨a, ha⟩, hc⟩ := ih j
        by_cases hj : j = k
        · subst hj
          rw [e] at ha hc
          refine ⟨⟨a ++ [.rlock], by simp [RW.left, ha]⟩, ?_⟩
          simp [RW.left] at hc ⊢
          omega
        · refine ⟨⟨a, by simp [RW.left, hj, ha]⟩, ?_⟩
          simp only [RW.left, hj, if_false, List.count_cons, beq_iff_eq]
          rw [if_neg (fun h => hj h.symm)]
          exact hc
      | runlock u e hr =>
        refine ⟨hw, fun j => ?_⟩
        obtain ⟨⟨a, ha⟩, hc⟩ := ih j
        by_cases hj : j = k
        · subst hj
          rw [e] at ha hc
          refine ⟨⟨a ++ [.runlock], by simp [RW.left, ha]⟩, ?_⟩
          have := List.count_pos_iff.mpr hr
          simp [RW.left, List.count_erase_self] at hc ⊢
          omega
        · refine ⟨⟨a, by simp [RW.left, hj, ha]⟩, ?_⟩
          simp only [RW.left, hj, if_false]
          rw [List.count_erase_of_ne hj]
          exact hc
      | announce u e => exact absurd (hmem _ _ e) (hl k)
      | locked u e => exact absurd (hmem _ _ e) (hl k)
      | unlock u e => exact absurd (hmem _ _ e) (hu k)
  obtain ⟨hw, inv⟩ := inv
  obtain ⟨⟨a, ha⟩, hc⟩ := inv i
  cases ht : c.todo i with
  | nil => exact absurd ht hi
  | cons op u =>
    rw [ht] at ha hc
    cases op with
    | rlock => exact ⟨_, .rlock c u ht hw⟩
    | runlock =>
      refine ⟨_, .runlock c u ht (List.count_pos_iff.mp ?_)⟩
      have := (opsAll_nested (progs i)).1 (a ++ [.runlock]) u (by simp [ha])
      simp at hc
      omega
    | lock => exact absurd (show LockOp.lock ∈ MuxCall.opsAll (progs i) by rw [ha]; simp) (hl i)
    | unlock => exact absurd (show LockOp.unlock ∈ MuxCall.opsAll (progs i) by rw [ha]; simp) (hu i)

/-- Non-vacuity: three dispatches inside each other, on two goroutines. -/
example : ∀ i : Nat, LockOp.lock ∉ MuxCall.opsAll
    ((fun i => if i < 2 then [.handler false [.handler false [.handler false []]]] else [] : Nat → List MuxCall) i) := by
  intro i
  by_cases h : i < 2 <;> simp [h, MuxCall.opsAll, MuxCall.ops]

/-- Non-vacuity: a goroutine that has the read lock and calls `Lock`. -/
example : ∃ c : RW, RW.Steps (.init fun i => if i = 0 then [.handler false [.handle]] else []) c ∧
    c.todo 0 = [.lock, .unlock, .runlock] ∧ 0 ∈ c.readers ∧ c.held = false :=
  ⟨_, .tail 0 .refl (.rlock (.init fun i => if i = 0 then [.handler false [.handle]] else [])
    [.lock, .unlock, .runlock] rfl rfl), rfl, by simp, rfl⟩

end Verif.Props
