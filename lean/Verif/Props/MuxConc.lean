import Verif.MuxConc
import Verif.Props.Mux

/-!
# C66: the multiplexer under its lock, and C13 and C14 once more

The executions here are those of `MuxGo`: any number of goroutines with any programs, one
matcher asked per step, the lock taken and released in steps of its own, matchers that may
panic, handlers that may use the multiplexer that called them.
-/

namespace Verif.Props

/-! ## C13 and C14 for these executions -/

/-- C14, as `once_distinct_partial`, with the lock as part of the model: when every matcher is
registered at most once, then in every interleaving a disposable handler is selected at most
once and stays registered until then, and a permanent one stays registered.  Missing: matchers
registered again (`once_false`). -/
theorem once_steps_partial (env : Nat → MatchFn?) (reqs : Nat → Request) (dflt : Handler) (nested : List MuxOp → Prop)
    (progs : Nat → List MuxOp) (c : MuxGo) (h : MuxGo.Steps env reqs dflt nested (.init progs) c)
    (hd : (registeredMatchers c.log).Nodup) (m : Matcher) (e : MuxEntry) (hr : .registered m e ∈ c.log) :
    (e.once = true → timesSelected c.log e ≤ 1 ∧ (timesSelected c.log e = 0 ↔ (m, e) ∈ c.hs)) ∧
    (e.once = false → (m, e) ∈ c.hs) :=
  once_distinct_partial (total env) reqs c.abs (MuxGo.abs_reach env reqs dflt nested progs c h) hd m e hr

/-- C13, C14, as `mux_concurrent_partial`, with the lock as part of the model.  Every result of a
dispatch agrees with the registrations before it.  Missing: matchers registered again
(`once_false`), matchers that change the request. -/
theorem mux_steps_partial (env : Nat → MatchFn?) (he : ∀ i r x, env i r = some x → x.2 = r) (reqs : Nat → Request)
    (dflt : Handler) (nested : List MuxOp → Prop) (progs : Nat → List MuxOp) (c : MuxGo)
    (h : MuxGo.Steps env reqs dflt nested (.init progs) c) (hd : (registeredMatchers c.log).Nodup)
    (pre post : List MuxEvent) (ev : MuxEvent) (hl : c.log = pre ++ ev :: post) :
    EventOk (total env) reqs pre ev := by
  refine mux_concurrent_partial (total env) ?_ reqs c.abs
    (calm_of_distinct (MuxGo.abs_reach env reqs dflt nested progs c h) hd) pre post ev hl
  intro i r
  unfold total
  rcases hx : env i r with _ | x
  · rfl
  · exact he i r x hx

/-- C13.  What a goroutine serves is what its last dispatch resulted in: the handler of the
entry it selected, the default handler, or nothing if the disposable entry was gone. -/
theorem mux_serves (env : Nat → MatchFn?) (reqs : Nat → Request) (dflt : Handler) (nested : List MuxOp → Prop)
    (progs : Nat → List MuxOp) (c : MuxGo) (h : MuxGo.Steps env reqs dflt nested (.init progs) c) (i : Nat)
    (hd : Handler) (hi : c.pc i = .serving hd) :
    ∃ ev, lastResult i c.log = some ev ∧
      ((∃ e, ev = .selected i e ∧ hd = e.handler) ∨ (ev = .default i ∧ hd = dflt) ∨
        (∃ e, ev = .lost i e ∧ hd = .discard)) := by
  obtain ⟨ev, h1, h2⟩ := MuxGo.chosen_last h i hd (by rw [hi]; rfl)
  refine ⟨ev, h1, ?_⟩
  have hab : ev.about i = true := by
    unfold lastResult at h1
    exact (List.mem_filter.1 (List.mem_of_getLast? h1)).2
  cases ev with
  | registered m e => simp [MuxEvent.about] at hab
  | selected j e =>
    simp only [MuxEvent.about, beq_iff_eq] at hab
    simp only [MuxEvent.handler, Option.some.injEq] at h2
    exact .inl ⟨e, by rw [hab], h2.symm⟩
  | default j =>
    simp only [MuxEvent.about, beq_iff_eq] at hab
    simp only [MuxEvent.handler, Option.some.injEq] at h2
    exact .inr (.inl ⟨by rw [hab], h2.symm⟩)
  | lost j e =>
    simp only [MuxEvent.about, beq_iff_eq] at hab
    simp only [MuxEvent.handler, Option.some.injEq] at h2
    exact .inr (.inr ⟨e, by rw [hab], h2.symm⟩)

/-! ## C66 -/

/-- C66.  While a goroutine is searching, nobody changes the registrations. -/
theorem mux_search_stable (env : Nat → MatchFn?) (reqs : Nat → Request) (dflt : Handler) (nested : List MuxOp → Prop)
    (progs : Nat → List MuxOp) (c c' : MuxGo) (h : MuxGo.Steps env reqs dflt nested (.init progs) c)
    (i : Nat) (seen : List Matcher) (r : Request) (hi : c.pc i = .search seen r)
    (st : MuxGo.Step env reqs dflt nested c c') : c'.hs = c.hs := by
  have inv := MuxGo.inv env reqs dflt nested progs c h
  obtain ⟨j, st⟩ := st
  cases st with
  | act k hp =>
    have := inv.quiet (i := j) (by rw [hp]; rfl) i
    rw [hi] at this
    simp [MuxPc.reading] at this
  | _ => rfl

/-- C66.  The registrations are changed by one goroutine at a time. -/
theorem mux_one_writer (env : Nat → MatchFn?) (reqs : Nat → Request) (dflt : Handler) (nested : List MuxOp → Prop)
    (progs : Nat → List MuxOp) (c : MuxGo) (h : MuxGo.Steps env reqs dflt nested (.init progs) c)
    (i j : Nat) (k k' : MuxWr) (hi : c.pc i = .hold k) (hj : c.pc j = .hold k') : i = j := by
  have inv := MuxGo.inv env reqs dflt nested progs c h
  have h1 := (inv.writer i).1 (by rw [hi]; rfl)
  have h2 := (inv.writer j).1 (by rw [hj]; rfl)
  rw [h1] at h2
  exact Option.some.inj h2

/-- C66.  Handlers run without the lock: a goroutine that serves is not the writer, and it is a
reader only as often as a matcher has panicked under it before. -/
theorem mux_handler_unlocked (env : Nat → MatchFn?) (reqs : Nat → Request) (dflt : Handler)
    (nested : List MuxOp → Prop) (progs : Nat → List MuxOp) (c : MuxGo)
    (h : MuxGo.Steps env reqs dflt nested (.init progs) c) (i : Nat) (hd : Handler) (hi : c.pc i = .serving hd) :
    c.writer ≠ some i ∧ c.readers.count i = c.leaked.count i ∧ (NoPanic env → i ∉ c.readers) := by
  have inv := MuxGo.inv env reqs dflt nested progs c h
  have hc := inv.count i
  rw [hi] at hc
  simp only [MuxPc.reading, Bool.toNat_false, Nat.add_zero] at hc
  refine ⟨fun hw => ?_, hc, fun he => ?_⟩
  · have := (inv.writer i).2 hw
    rw [hi] at this
    simp [MuxPc.writing] at this
  · rw [MuxGo.no_leak he h] at hc
    simpa using List.count_eq_zero.1 hc

/-- C66, the part that holds: no deadlock.  When no matcher panics and handlers may return, then
as long as a goroutine has something to do, some goroutine can go on, whatever handlers do with
the multiplexer.  Missing: matchers that panic (`mux_usable_false`). -/
theorem mux_no_deadlock_partial (env : Nat → MatchFn?) (he : NoPanic env) (reqs : Nat → Request) (dflt : Handler)
    (nested : List MuxOp → Prop) (hn : nested []) (progs : Nat → List MuxOp) (c : MuxGo)
    (h : MuxGo.Steps env reqs dflt nested (.init progs) c) (i : Nat)
    (hi : ¬ (c.pc i = .idle ∧ c.todo i = [])) : ∃ c', MuxGo.Step env reqs dflt nested c c' :=
  (MuxGo.inv env reqs dflt nested progs c h).progress dflt nested ⟨[], hn⟩ (MuxGo.no_leak he h) i
    (fun h1 h2 => hi ⟨h1, h2⟩)

/-- C66, the part that holds: all calls return.  Take any state that finitely many goroutines
have reached, with handlers that use the multiplexer as they like.  If the handlers do not use
it any more, every execution from there is finite; and if no matcher panics, it can only end
when every goroutine has done all it had to do and the lock is free. -/
theorem mux_calls_return_partial (env : Nat → MatchFn?) (reqs : Nat → Request) (dflt : Handler)
    (nested : List MuxOp → Prop) (progs : Nat → List MuxOp) (N : Nat) (hN : ∀ i, N ≤ i → progs i = []) (c : MuxGo)
    (h : MuxGo.Steps env reqs dflt nested (.init progs) c) :
    Acc (fun c' c => MuxGo.Step env reqs dflt (· = []) c c') c ∧
    (NoPanic env → ∀ c', MuxGo.Steps env reqs dflt (· = []) c c' →
      (∀ c'', ¬ MuxGo.Step env reqs dflt (· = []) c' c'') →
      (∀ i, c'.pc i = .idle ∧ c'.todo i = []) ∧ c'.readers = [] ∧ c'.writer = none) := by
  have inv := MuxGo.inv env reqs dflt nested progs c h
  refine ⟨inv.acc env reqs dflt N _ _ c (MuxGo.outside hN h) rfl rfl, fun he c' hs hend => ?_⟩
  have inv' := inv.steps hs
  have hl : c'.leaked = [] := by
    have h0 := MuxGo.no_leak he h
    clear hend inv'
    induction hs with
    | refl => exact h0
    | tail _ st ih =>
      obtain ⟨i, st⟩ := st
      cases st with
      | crash seen r m e hp hm hs hr => exact absurd hr (he.run m r)
      | act k hp => rw [(MuxGo.act_spec _ _ _).2.2.1]; exact ih
      | _ => exact ih
  have hall : ∀ i, c'.pc i = .idle ∧ c'.todo i = [] := by
    intro i
    by_cases hi : c'.pc i = .idle ∧ c'.todo i = []
    · exact hi
    · obtain ⟨c'', hc''⟩ := inv'.progress dflt (· = []) ⟨[], rfl⟩ hl i (fun h1 h2 => hi ⟨h1, h2⟩)
      exact absurd hc'' (hend c'')
  refine ⟨hall, ?_, ?_⟩
  · rcases hr : c'.readers with _ | ⟨a, t⟩
    · rfl
    · have := inv'.count a
      rw [hr, hl, (hall a).1] at this
      simp [MuxPc.reading] at this
  · cases hw : c'.writer with
    | none => rfl
    | some w =>
      have := (inv'.writer w).2 hw
      rw [(hall w).1] at this
      simp [MuxPc.writing] at this

/-- C66.  After a matcher has panicked, for ever: the registrations never change; a goroutine
that calls `Handle` or `HandleOnce`, or has found a disposable handler, stays where it is; and
once there is such a goroutine at the lock, a goroutine that is about to dispatch stays where
it is as well. -/
theorem mux_panic_blocks (env : Nat → MatchFn?) (reqs : Nat → Request) (dflt : Handler) (nested : List MuxOp → Prop)
    (progs : Nat → List MuxOp) (c c' : MuxGo) (h : MuxGo.Steps env reqs dflt nested (.init progs) c)
    (hl : c.leaked ≠ []) (h' : MuxGo.Steps env reqs dflt nested c c') :
    c'.hs = c.hs ∧
    (∀ i k, c.pc i = .want k ∨ c.pc i = .wait k → c'.pc i = .want k ∨ c'.pc i = .wait k) ∧
    (∀ w, c.writer = some w →
      ∀ i t, c.pc i = .idle → c.todo i = .dispatch :: t → c'.pc i = .idle ∧ c'.todo i = .dispatch :: t) := by
  have inv := MuxGo.inv env reqs dflt nested progs c h
  have key : c'.leaked ≠ [] ∧ c'.hs = c.hs ∧
    (∀ i k, c.pc i = .want k ∨ c.pc i = .wait k → c'.pc i = .want k ∨ c'.pc i = .wait k) ∧
    (∀ w, c.writer = some w → c'.writer = some w ∧
      ∀ i t, c.pc i = .idle → c.todo i = .dispatch :: t → c'.pc i = .idle ∧ c'.todo i = .dispatch :: t) := by
    induction h' with
    | refl => exact ⟨hl, rfl, fun _ _ h => h, fun w hw => ⟨hw, fun _ _ h1 h2 => ⟨h1, h2⟩⟩⟩
    | tail h1 st ih =>
      obtain ⟨a1, a2, a3, a4⟩ := ih
      obtain ⟨b1, b2, b3, b4⟩ := (inv.steps h1).stuck a1 st
      refine ⟨b1, b2.trans a2, fun i k hi => b3 i k (a3 i k hi), fun w hw => ?_⟩
      obtain ⟨w1, w2⟩ := a4 w hw
      obtain ⟨x1, x2⟩ := b4 w w1
      refine ⟨x1, fun i t h1 h2 => ?_⟩
      obtain ⟨y1, y2⟩ := w2 i t h1 h2
      exact x2 i t y1 y2
  exact ⟨key.2.1, key.2.2.1, fun w hw => (key.2.2.2 w hw).2⟩

/-- C66 is false: `Handler` does not defer the release of the read lock.  Goroutine 0 registers
a matcher that panics and dispatches (the panic is recovered, as `net/http` style servers do);
goroutine 1 registers another handler, goroutine 2 dispatches.  Then 1 and 2 hang for ever. -/
theorem mux_usable_false : ∃ (env : Nat → MatchFn?) (progs : Nat → List MuxOp) (c : MuxGo),
    MuxGo.Steps env (fun _ => Request.zero) .discard (fun _ => True) (.init progs) c ∧
    progs 1 = [.register (some (.typ 3)) (some (.user 2)) false] ∧ progs 2 = [.dispatch] ∧
    ∀ c', MuxGo.Steps env (fun _ => Request.zero) .discard (fun _ => True) c c' →
      (Matcher.typ 3 ∉ c'.hs.keys ∧ c'.pc 1 ≠ .idle) ∧ c'.todo 2 = [.dispatch] := by
  let env : Nat → MatchFn? := fun _ _ => none
  let m : Matcher := .ptr 0
  let progs : Nat → List MuxOp := fun i => match i with
    | 0 => [.register (some m) (some (.user 1)) false, .dispatch]
    | 1 => [.register (some (.typ 3)) (some (.user 2)) false]
    | 2 => [.dispatch]
    | _ => []
  let k : MuxWr := .register (some m) (some (.user 1)) false
  let k' : MuxWr := .register (some (.typ 3)) (some (.user 2)) false
  obtain ⟨c, hc, e1, e2, e3, e4, e5, e6⟩ : ∃ c : MuxGo,
      MuxGo.Steps env (fun _ => Request.zero) .discard (fun _ => True) (.init progs) c ∧ c.leaked = [0] ∧
      c.writer = some 1 ∧ c.pc 1 = .wait k' ∧ c.pc 2 = .idle ∧ c.todo 2 = [.dispatch] ∧ c.hs.keys = [m] :=
    ⟨_, .tail (.tail (.tail (.tail (.tail (.tail (.tail (.tail (.tail .refl
      ⟨0, .call _ (some m) (some (.user 1)) false [.dispatch] rfl rfl⟩)
      ⟨0, .lock _ k rfl rfl⟩)
      ⟨0, .locked _ k rfl rfl⟩)
      ⟨0, .act _ k rfl⟩)
      ⟨0, .unlock _ none rfl⟩)
      ⟨0, .rlock _ [] rfl rfl rfl⟩)
      ⟨0, .crash _ [] Request.zero m ⟨.user 1, false, 0⟩ rfl (List.mem_singleton.2 rfl) (by simp) rfl⟩)
      ⟨1, .call _ (some (.typ 3)) (some (.user 2)) false [] rfl rfl⟩)
      ⟨1, .lock _ k' rfl rfl⟩, rfl, rfl, rfl, rfl, rfl, rfl⟩
  refine ⟨env, progs, c, hc, rfl, rfl, fun c' h' => ?_⟩
  obtain ⟨h1, h2, h3⟩ := mux_panic_blocks env _ _ _ progs c c' hc (by simp [e1]) h'
  refine ⟨⟨?_, ?_⟩, (h3 1 e2 2 [] e4 e5).2⟩
  · rw [h1, e6]; decide
  · rcases h2 1 k' (.inr e3) with h | h <;> rw [h] <;> simp

/-- Non-vacuity: goroutine 0 registers a disposable handler and dispatches, and its handler runs. -/
example : ∃ (progs : Nat → List MuxOp) (c : MuxGo),
    MuxGo.Steps (fun _ r => some (true, r)) (fun _ => Request.zero) .discard (fun _ => True) (.init progs) c ∧
    NoPanic (fun _ r => some (true, r)) ∧ (∀ i, 1 ≤ i → progs i = []) ∧
    c.pc 0 = .serving (.user 1) ∧ (registeredMatchers c.log).Nodup ∧
    c.log = [.registered (.ptr 0) ⟨.user 1, true, 0⟩, .selected 0 ⟨.user 1, true, 0⟩] := by
  let m : Matcher := .ptr 0
  let e : MuxEntry := ⟨.user 1, true, 0⟩
  let progs : Nat → List MuxOp := fun i => match i with
    | 0 => [.register (some m) (some (.user 1)) true, .dispatch]
    | _ => []
  let k : MuxWr := .register (some m) (some (.user 1)) true
  refine ⟨progs, _, .tail (.tail (.tail (.tail (.tail (.tail (.tail (.tail (.tail (.tail (.tail (.tail .refl
      ⟨0, .call _ (some m) (some (.user 1)) true [.dispatch] rfl rfl⟩)
      ⟨0, .lock _ k rfl rfl⟩)
      ⟨0, .locked _ k rfl rfl⟩)
      ⟨0, .act _ k rfl⟩)
      ⟨0, .unlock _ none rfl⟩)
      ⟨0, .rlock _ [] rfl rfl rfl⟩)
      ⟨0, .hit _ [] Request.zero m e Request.zero rfl (List.mem_singleton.2 rfl) (by simp) rfl⟩)
      ⟨0, .unlockHit _ m e rfl⟩)
      ⟨0, .lock _ (.take m e) rfl rfl⟩)
      ⟨0, .locked _ (.take m e) rfl rfl⟩)
      ⟨0, .act _ (.take m e) rfl⟩)
      ⟨0, .unlock _ (some (.user 1)) rfl⟩, by simp [NoPanic], ?_, rfl, ?_, rfl⟩
  · intro i hi
    match i with
    | i + 1 => rfl
  · decide

end Verif.Props
