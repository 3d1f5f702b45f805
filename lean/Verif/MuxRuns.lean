import Verif.MuxConc

/-! # What becomes of each dispatch of the multiplexer

An account of the requests that a goroutine dispatches through a `ServeMux`: how many it has started, what they
have come to and which handlers have been called (mux.go:113-169). -/

namespace Verif

/-- An execution of the multiplexer together with the number of requests that goroutine `i` has started to
dispatch (mux.go:120, `mux.mu.RLock()`) and the handlers that it has called and that have returned, in order
(mux.go:168, `h.Serve(rw, r)`). -/
inductive MuxGo.Ran (env : Nat → MatchFn?) (reqs : Nat → Request) (dflt : Handler) (nested : List MuxOp → Prop)
    (i : Nat) (c : MuxGo) : Nat → List Handler → MuxGo → Prop where
  | refl : Ran env reqs dflt nested i c 0 [] c
  | began {n : Nat} {l : List Handler} {c' c'' : MuxGo} : Ran env reqs dflt nested i c n l c' →
      c'.pc i = .idle → (c''.pc i).reading = true → MuxGo.StepOf env reqs dflt nested i c' c'' →
      Ran env reqs dflt nested i c (n + 1) l c''
  | ran {n : Nat} {l : List Handler} {c' c'' : MuxGo} {h : Handler} : Ran env reqs dflt nested i c n l c' →
      c'.pc i = .serving h → MuxGo.StepOf env reqs dflt nested i c' c'' →
      Ran env reqs dflt nested i c n (l ++ [h]) c''
  | step {n : Nat} {l : List Handler} {c' c'' : MuxGo} {j : Nat} : Ran env reqs dflt nested i c n l c' →
      (j = i → ¬ (c'.pc i = .idle ∧ (c''.pc i).reading = true) ∧ ∀ h, c'.pc i ≠ .serving h) →
      MuxGo.StepOf env reqs dflt nested j c' c'' → Ran env reqs dflt nested i c n l c''

/-- Every execution has such a count and such a list. -/
theorem MuxGo.Steps.ran {env : Nat → MatchFn?} {reqs : Nat → Request} {dflt : Handler} {nested : List MuxOp → Prop}
    {c c' : MuxGo} (h : MuxGo.Steps env reqs dflt nested c c') (i : Nat) :
    ∃ n l, MuxGo.Ran env reqs dflt nested i c n l c' := by
  induction h with
  | refl => exact ⟨0, [], .refl⟩
  | @tail c₁ c₂ _ st ih =>
    obtain ⟨n, l, hl⟩ := ih
    obtain ⟨j, st⟩ := st
    by_cases hc : j = i ∧ ∃ h, c₁.pc i = .serving h
    · obtain ⟨rfl, h, hh⟩ := hc
      exact ⟨_, _, .ran hl hh st⟩
    · by_cases hb : j = i ∧ c₁.pc i = .idle ∧ (c₂.pc i).reading = true
      · obtain ⟨rfl, h1, h2⟩ := hb
        exact ⟨_, _, .began hl h1 h2 st⟩
      · exact ⟨n, l, .step hl (fun hj => ⟨fun h => hb ⟨hj, h⟩, fun h hh => hc ⟨hj, h, hh⟩⟩) st⟩

theorem MuxGo.Ran.steps {env : Nat → MatchFn?} {reqs : Nat → Request} {dflt : Handler} {nested : List MuxOp → Prop}
    {c c' : MuxGo} {i n : Nat} {l : List Handler} (h : MuxGo.Ran env reqs dflt nested i c n l c') :
    MuxGo.Steps env reqs dflt nested c c' := by
  induction h with
  | refl => exact .refl
  | began _ _ _ st ih => exact .tail ih ⟨_, st⟩
  | ran _ _ st ih => exact .tail ih ⟨_, st⟩
  | step _ _ st ih => exact .tail ih ⟨_, st⟩

/-- The handlers that the dispatches of goroutine `i` have come to, in order. -/
def handlersOf (dflt : Handler) (i : Nat) (log : List MuxEvent) : List Handler :=
  (log.filter (·.about i)).filterMap (·.handler dflt)

theorem handlersOf_append (dflt : Handler) (i : Nat) (log : List MuxEvent) (ev : MuxEvent) :
    handlersOf dflt i (log ++ [ev]) =
      handlersOf dflt i log ++ (if ev.about i then (ev.handler dflt).toList else []) := by
  unfold handlersOf
  rw [List.filter_append, List.filterMap_append]
  by_cases h : ev.about i = true
  · simp only [h, if_true, List.filter_cons_of_pos, List.filter_nil]
    cases hh : ev.handler dflt <;> simp [hh]
  · simp [h]

theorem MuxGo.StepOf.handlersOf_eq {env : Nat → MatchFn?} {reqs : Nat → Request} {dflt : Handler}
    {nested : List MuxOp → Prop} {c c' : MuxGo} {i : Nat} (st : MuxGo.StepOf env reqs dflt nested i c c')
    (hs : ∀ h, c.pc i ≠ .serving h) {l : List Handler}
    (ih : handlersOf dflt i c.log = l ++ ((c.pc i).chosen dflt).toList) :
    handlersOf dflt i c'.log = l ++ ((c'.pc i).chosen dflt).toList := by
  cases st with
  | rlock t hp | next seen r m e r' hp | call m h once t hp | lock k hp | locked k hp | crash seen r m e hp =>
    simpa [MuxGo.goto, MuxGo.setTodo, MuxPc.chosen, hp] using ih
  | serve h l' hp => exact absurd hp (hs h)
  | hit seen r m e r' hp hm hs hr =>
    rw [hp] at ih
    cases ho : e.once with
    | true => simpa [MuxGo.goto, MuxPc.chosen, ho] using ih
    | false =>
      simp only [MuxGo.goto, MuxPc.chosen, ho, if_true, Bool.false_eq_true, if_false]
      rw [handlersOf_append, ih]
      simp [MuxPc.chosen, MuxEvent.about, MuxEvent.handler]
  | miss seen r hp hs =>
    rw [hp] at ih
    simp only [MuxGo.goto, MuxPc.chosen, if_true]
    rw [handlersOf_append, ih]
    simp [MuxPc.chosen, MuxEvent.about, MuxEvent.handler]
  | unlockHit m e hp =>
    rw [hp] at ih
    cases ho : e.once <;> simp_all [MuxGo.goto, MuxPc.chosen]
  | unlockMiss hp =>
    rw [hp] at ih
    simpa [MuxGo.goto, MuxPc.chosen] using ih
  | unlock o hp =>
    rw [hp] at ih
    cases o <;> simp_all [MuxGo.goto, MuxPc.chosen, MuxPc.after]
  | act k hp =>
    rw [hp] at ih
    cases k with
    | take m e =>
      simp only [MuxGo.act, MuxGo.goto, if_true, MuxPc.chosen]
      rw [handlersOf_append, ih]
      by_cases hk : m ∈ c.hs.keys <;> simp [hk, MuxEvent.about, MuxEvent.handler, MuxPc.chosen, MuxMap.take]
    | register m h once =>
      simp only [MuxGo.act]
      split
      · simp only [MuxGo.goto, if_true]
        rw [handlersOf_append, ih]
        simp [MuxEvent.about, MuxPc.chosen]
      · simpa [MuxGo.goto, MuxPc.chosen] using ih

theorem MuxGo.StepOf.handlersOf_other {env : Nat → MatchFn?} {reqs : Nat → Request} {dflt : Handler}
    {nested : List MuxOp → Prop} {c c' : MuxGo} {i j : Nat} (st : MuxGo.StepOf env reqs dflt nested j c c')
    (hji : ¬ j = i) : handlersOf dflt i c'.log = handlersOf dflt i c.log := by
  cases st with
  | hit seen r m e r' hp hm hs hr =>
    by_cases ho : e.once
    · simp [ho]
    · simp only [ho, if_false, Bool.false_eq_true]; rw [handlersOf_append]; simp [MuxEvent.about, hji]
  | miss seen r hp hs => simp only; rw [handlersOf_append]; simp [MuxEvent.about, hji]
  | act k hp =>
    cases k with
    | take m e =>
      simp only [MuxGo.act]
      rw [handlersOf_append]
      split <;> simp [MuxEvent.about, hji]
    | register m h once =>
      simp only [MuxGo.act]
      split
      · simp only; rw [handlersOf_append]; simp [MuxEvent.about]
      · rfl
  | _ => rfl

/-- The goroutine dispatches a request and has not yet come to a result. -/
def MuxPc.open : MuxPc → Nat
  | .search .. => 1
  | .hit _ e => if e.once then 1 else 0
  | .want (.take ..) | .wait (.take ..) | .hold (.take ..) => 1
  | _ => 0

theorem MuxGo.StepOf.other_log {env : Nat → MatchFn?} {reqs : Nat → Request} {dflt : Handler}
    {nested : List MuxOp → Prop} {c c' : MuxGo} {i j : Nat} (st : MuxGo.StepOf env reqs dflt nested j c c')
    (hji : ¬ j = i) : c'.leaked.count i = c.leaked.count i := by
  cases st with
  | crash => simp [hji]
  | act k hp => rw [(MuxGo.act_spec _ _ _).2.2.1]
  | _ => rfl

/-- What a step of goroutine `i` does to its account. -/
theorem MuxGo.StepOf.account {env : Nat → MatchFn?} {reqs : Nat → Request} {dflt : Handler}
    {nested : List MuxOp → Prop} {c c' : MuxGo} {i n : Nat} (st : MuxGo.StepOf env reqs dflt nested i c c')
    (hs : ¬ (c.pc i = .idle ∧ (c'.pc i).reading = true))
    (ih : n = (handlersOf dflt i c.log).length + c.leaked.count i + (c.pc i).open) :
    n = (handlersOf dflt i c'.log).length + c'.leaked.count i + (c'.pc i).open := by
  cases st with
  | rlock t hp => simp [hp, MuxGo.goto, MuxPc.reading] at hs
  | lock k hp | locked k hp =>
    rw [hp] at ih; cases k <;> simpa [MuxGo.goto, MuxPc.open] using ih
  | next seen r m e r' hp | call m h once t hp | serve h l hp =>
    rw [hp] at ih; simpa [MuxGo.goto, MuxGo.setTodo, MuxPc.open] using ih
  | crash seen r m e hp =>
    rw [hp] at ih
    simp [MuxGo.goto, MuxPc.open] at ih ⊢; omega
  | hit seen r m e r' hp hm hs hr =>
    rw [hp] at ih
    cases ho : e.once with
    | true => simpa [MuxGo.goto, MuxPc.open, ho] using ih
    | false =>
      simp only [MuxGo.goto, MuxPc.open, ho, if_true, Bool.false_eq_true, if_false]
      rw [handlersOf_append, ih]
      simp [MuxPc.open, MuxEvent.about, MuxEvent.handler]; omega
  | miss seen r hp hs =>
    rw [hp] at ih
    simp only [MuxGo.goto, MuxPc.open, if_true]
    rw [handlersOf_append, ih]
    simp [MuxPc.open, MuxEvent.about, MuxEvent.handler]; omega
  | unlockHit m e hp =>
    rw [hp] at ih
    cases ho : e.once <;> simp_all [MuxGo.goto, MuxPc.open]
  | unlockMiss hp =>
    rw [hp] at ih
    simpa [MuxGo.goto, MuxPc.open] using ih
  | unlock o hp =>
    rw [hp] at ih
    cases o <;> simp_all [MuxGo.goto, MuxPc.open, MuxPc.after]
  | act k hp =>
    rw [hp] at ih
    cases k with
    | take m e =>
      simp only [MuxGo.act, MuxGo.goto, if_true, MuxPc.open]
      rw [handlersOf_append, ih]
      by_cases hk : m ∈ c.hs.keys <;> simp [hk, MuxEvent.about, MuxEvent.handler, MuxPc.open] <;> omega
    | register m h once =>
      simp only [MuxGo.act]
      split
      · simp only [MuxGo.goto, if_true]
        rw [handlersOf_append, ih]
        simp [MuxEvent.about, MuxPc.open]
      · simpa [MuxGo.goto, MuxPc.open] using ih

/-- The account of a goroutine: the results of its dispatches are the handlers that it has run, followed by the
one that it has still to run, and the dispatches that it has started have come to a result, have died in a matcher
or are still open. -/
theorem MuxGo.ran_results {env : Nat → MatchFn?} {reqs : Nat → Request} {dflt : Handler} {nested : List MuxOp → Prop}
    {progs : Nat → List MuxOp} {c : MuxGo} {i n : Nat} {l : List Handler}
    (h : MuxGo.Ran env reqs dflt nested i (.init progs) n l c) :
    handlersOf dflt i c.log = l ++ ((c.pc i).chosen dflt).toList ∧
    n = (handlersOf dflt i c.log).length + c.leaked.count i + (c.pc i).open := by
  induction h with
  | refl => exact ⟨rfl, rfl⟩
  | @began n l c' c'' _ h1 h2 st ih =>
    refine ⟨st.handlersOf_eq (fun h hh => by rw [h1] at hh; cases hh) ih.1, ?_⟩
    cases st with
    | rlock t hp =>
      rw [h1] at ih
      have := ih.2
      simp [MuxGo.goto, MuxGo.setTodo, MuxPc.open] at this ⊢; omega
    | call m h once t hp' => simp [MuxGo.goto, MuxPc.reading] at h2
    | next seen r m e r' hp' | hit seen r m e r' hp' | crash seen r m e hp' | miss seen r hp'
    | unlockHit m e hp' | unlockMiss hp' | lock k hp' | locked k hp' | act k hp' | unlock o hp'
    | serve h l' hp' => rw [h1] at hp'; cases hp'
  | @ran n l c' c'' hd _ hp st ih =>
    refine ⟨?_, st.account (fun h => by rw [h.1] at hp; cases hp) ih.2⟩
    cases st with
    | serve h l' hp' =>
      rw [hp'] at hp ih
      cases hp
      have := ih.1
      simpa [MuxGo.goto, MuxGo.setTodo, MuxPc.chosen] using this
    | rlock t hp' | next seen r m e r' hp' | hit seen r m e r' hp' | crash seen r m e hp' | miss seen r hp'
    | unlockHit m e hp' | unlockMiss hp' | lock k hp' | locked k hp' | act k hp' | unlock o hp'
    | call m h once t hp' => rw [hp] at hp'; cases hp'
  | @step n l c' c'' j _ hs st ih =>
    by_cases hj : j = i
    · subst hj
      exact ⟨st.handlersOf_eq (hs rfl).2 ih.1, st.account (hs rfl).1 ih.2⟩
    · rw [st.handlersOf_other hj, (st.others i (Ne.symm hj)).1, st.other_log hj]
      exact ih

end Verif
