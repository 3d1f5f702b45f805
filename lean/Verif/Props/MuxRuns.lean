import Verif.MuxRuns

/-!
# C13, C66: every dispatched request is handled exactly once

`MuxGo.Ran … i c n l c'` is an execution in which goroutine `i` has started `n` dispatches and
the handlers `l`, called by it, have returned.
-/

namespace Verif.Props

/-- C13.  The handlers that a goroutine calls are the results of its dispatches, each called once
and in their order: for the selected entry its handler, without a match the default handler, and
for an entry that is gone the one that does nothing.  At most the last result waits for its call,
and only while the goroutine is on the way to it or in it. -/
theorem mux_runs_results (env : Nat → MatchFn?) (reqs : Nat → Request) (dflt : Handler) (nested : List MuxOp → Prop)
    (progs : Nat → List MuxOp) (c : MuxGo) (i n : Nat) (l : List Handler)
    (h : MuxGo.Ran env reqs dflt nested i (.init progs) n l c) :
    (c.pc i = .idle → handlersOf dflt i c.log = l) ∧
    (∀ hd, c.pc i = .serving hd → handlersOf dflt i c.log = l ++ [hd]) ∧
    (handlersOf dflt i c.log = l ∨ ∃ hd, handlersOf dflt i c.log = l ++ [hd]) := by
  obtain ⟨h1, -⟩ := MuxGo.ran_results h
  refine ⟨fun hp => ?_, fun hd hp => ?_, ?_⟩
  · simpa [hp, MuxPc.chosen] using h1
  · simpa [hp, MuxPc.chosen] using h1
  · cases hc : (c.pc i).chosen dflt with
    | none => left; simpa [hc] using h1
    | some hd => right; exact ⟨hd, by simpa [hc] using h1⟩

/-- C13, C66.  No dispatched request is dropped and none is handled twice: once a goroutine is
idle again, each dispatch that it has started has called exactly one handler or has died in a
matcher that panicked. -/
theorem mux_runs_all (env : Nat → MatchFn?) (reqs : Nat → Request) (dflt : Handler) (nested : List MuxOp → Prop)
    (progs : Nat → List MuxOp) (c : MuxGo) (i n : Nat) (l : List Handler)
    (h : MuxGo.Ran env reqs dflt nested i (.init progs) n l c) (hp : c.pc i = .idle) :
    n = l.length + c.leaked.count i ∧ (NoPanic env → n = l.length) := by
  obtain ⟨h1, h2⟩ := MuxGo.ran_results h
  have : n = l.length + c.leaked.count i := by
    simp only [hp, MuxPc.chosen, Option.toList_none, List.append_nil, MuxPc.open, Nat.add_zero] at h1 h2
    rw [h2, h1]
  exact ⟨this, fun he => by rw [this, MuxGo.no_leak he h.steps]; simp⟩

/-- C13, C66.  And every execution is of this kind, for every goroutine. -/
theorem mux_runs_exist (env : Nat → MatchFn?) (reqs : Nat → Request) (dflt : Handler) (nested : List MuxOp → Prop)
    (progs : Nat → List MuxOp) (c : MuxGo) (h : MuxGo.Steps env reqs dflt nested (.init progs) c) (i : Nat) :
    ∃ n l, MuxGo.Ran env reqs dflt nested i (.init progs) n l c := h.ran i

/-- Non-vacuity: a goroutine registers a handler that never matches and dispatches a request; the
default handler is called and returns. -/
example : ∃ (progs : Nat → List MuxOp) (c : MuxGo),
    MuxGo.Ran (fun _ r => some (false, r)) (fun _ => Request.zero) (.user 7) (fun _ => True) 0 (.init progs)
      1 [.user 7] c ∧ NoPanic (fun _ r => some (false, r)) ∧ c.pc 0 = .idle ∧
    c.log = [.registered (.ptr 0) ⟨.user 1, false, 0⟩, .default 0] := by
  let m : Matcher := .ptr 0
  let e : MuxEntry := ⟨.user 1, false, 0⟩
  let progs : Nat → List MuxOp := fun i => match i with
    | 0 => [.register (some m) (some (.user 1)) false, .dispatch]
    | _ => []
  let k : MuxWr := .register (some m) (some (.user 1)) false
  have no : ∀ {c c' : MuxGo} {p : MuxPc}, c.pc 0 = p → (p = .idle → (c'.pc 0).reading = false) →
      (∀ h, p ≠ .serving h) →
      ((0 : Nat) = 0 → ¬ (c.pc 0 = .idle ∧ (c'.pc 0).reading = true) ∧ ∀ h, c.pc 0 ≠ .serving h) := by
    intro c c' p hp h1 h2 _
    subst hp
    exact ⟨fun ⟨h3, h4⟩ => (by rw [h1 h3] at h4; cases h4), h2⟩
  have hreg : ∃ c : MuxGo, MuxGo.Ran (fun _ r => some (false, r)) (fun _ => Request.zero) (.user 7) (fun _ => True) 0
      (.init progs) 0 [] c ∧ c.pc 0 = .idle ∧ c.todo 0 = [.dispatch] ∧ c.writer = none ∧ c.hs = [(m, e)] ∧
      c.log = [.registered m e] :=
    ⟨_, .step (.step (.step (.step (.step .refl
      (no (p := .idle) rfl (fun _ => rfl) (by simp)) (.call _ (some m) (some (.user 1)) false [.dispatch] rfl rfl))
      (no (p := .want k) rfl (by simp) (by simp)) (.lock _ k rfl rfl))
      (no (p := .wait k) rfl (by simp) (by simp)) (.locked _ k rfl rfl))
      (no (p := .hold k) rfl (by simp) (by simp)) (.act _ k rfl))
      (no (p := .rel none) rfl (by simp) (by simp)) (.unlock _ none rfl), rfl, rfl, rfl, rfl, rfl⟩
  obtain ⟨c, hc, e1, e2, e3, e4, e5⟩ := hreg
  refine ⟨progs, _, .ran (h := .user 7) (.step (j := 0) (.step (j := 0) (.step (j := 0) (.began hc e1 ?_ (.rlock _ [] e1 e2 e3))
      ?_ (.next _ [] Request.zero m e Request.zero (by simp [MuxGo.goto]) ?_ (by simp) rfl))
      ?_ (.miss _ [m] Request.zero (by simp [MuxGo.goto]) ?_))
      ?_ (.unlockMiss _ (by simp [MuxGo.goto])))
      (by simp [MuxGo.goto]) (.serve _ (.user 7) [] (by simp [MuxGo.goto]) trivial), by simp [NoPanic],
      by simp [MuxGo.goto, MuxGo.setTodo], ?_⟩
  · simp [MuxGo.goto, MuxPc.reading]
  · exact no (p := .search [] Request.zero) (by simp [MuxGo.goto]) (by simp) (by simp)
  · simp [MuxGo.goto, MuxGo.setTodo, e4]
  · exact no (p := .search [m] Request.zero) (by simp [MuxGo.goto]) (by simp) (by simp)
  · intro m' e' hm
    simp [MuxGo.goto, MuxGo.setTodo, e4] at hm
    simp [hm.1]
  · exact no (p := .miss) (by simp [MuxGo.goto]) (by simp) (by simp)
  · simp [MuxGo.goto, MuxGo.setTodo, e5, m, e]

end Verif.Props
