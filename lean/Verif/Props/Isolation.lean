import Verif.MuxConc

/-!
# C105: peers that share a multiplexer
-/

namespace Verif.Props

open Verif

/-- A multiplexer with the entries `hs`, which nobody is using, and goroutines that are going to dispatch one message or
more (`progs i` times the same) each. -/
def muxWith (hs : MuxMap) (next : Nat) (progs : Nat → Nat) : MuxGo :=
  ⟨hs, [], none, fun i => List.replicate (progs i) .dispatch, fun _ => .idle, next, [], []⟩

/-- The results of the dispatches of some of the goroutines. -/
def resultsOf (A : Nat → Bool) (log : List MuxEvent) : List MuxEvent :=
  log.filter (fun ev => match ev with
    | .registered _ _ => false
    | .selected i _ => A i
    | .default i => A i
    | .lost i _ => A i)

/-- Nobody registers or removes anything. -/
private structure Still (hs : MuxMap) (c : MuxGo) : Prop where
  same : c.hs = hs
  writer : c.writer = none
  todo : ∀ i, ∀ op ∈ c.todo i, op = .dispatch
  pc : ∀ i, match c.pc i with
    | .idle | .search _ _ | .miss | .serving _ => True
    | .hit m e => (m, e) ∈ hs
    | _ => False

private theorem Still.step {hs : MuxMap} (ho : ∀ x ∈ hs, x.2.once = false) {env : Nat → MatchFn?}
    {reqs : Nat → Request} {dflt : Handler} {nested : List MuxOp → Prop}
    (hn : ∀ l, nested l → ∀ op ∈ l, op = .dispatch) {i : Nat} {c c' : MuxGo} (h : Still hs c)
    (s : MuxGo.StepOf env reqs dflt nested i c c') : Still hs c' := by
  obtain ⟨h1, h2, h3, h4⟩ := h
  have hi := h4 i
  cases s with
  | rlock t hp ht hw =>
    refine ⟨h1, h2, fun j op hj => ?_, fun j => ?_⟩
    · simp only [MuxGo.goto, MuxGo.setTodo] at hj
      split at hj
      · exact h3 i op (by rw [ht]; simp [hj])
      · exact h3 j op hj
    · simp only [MuxGo.goto, MuxGo.setTodo]
      by_cases hj : j = i
      · simp [hj]
      · simpa [hj] using h4 j
  | next seen r m e r' hp hm hs' hr =>
    refine ⟨h1, h2, h3, fun j => ?_⟩
    simp only [MuxGo.goto]
    by_cases hj : j = i
    · simp [hj]
    · simpa [hj] using h4 j
  | hit seen r m e r' hp hm hs' hr =>
    refine ⟨h1, h2, h3, fun j => ?_⟩
    simp only [MuxGo.goto]
    by_cases hj : j = i
    · simp [hj, ← h1, hm]
    · simpa [hj] using h4 j
  | crash seen r m e hp hm hs' hr =>
    refine ⟨h1, h2, h3, fun j => ?_⟩
    simp only [MuxGo.goto]
    by_cases hj : j = i
    · simp [hj]
    · simpa [hj] using h4 j
  | miss seen r hp hs' =>
    refine ⟨h1, h2, h3, fun j => ?_⟩
    simp only [MuxGo.goto]
    by_cases hj : j = i
    · simp [hj]
    · simpa [hj] using h4 j
  | unlockHit m e hp =>
    rw [hp] at hi
    have he : e.once = false := ho _ hi
    refine ⟨h1, h2, h3, fun j => ?_⟩
    simp only [MuxGo.goto]
    by_cases hj : j = i
    · simp [hj, he]
    · simpa [hj] using h4 j
  | unlockMiss hp =>
    refine ⟨h1, h2, h3, fun j => ?_⟩
    simp only [MuxGo.goto]
    by_cases hj : j = i
    · simp [hj]
    · simpa [hj] using h4 j
  | call m h once t hp ht => exact absurd (h3 i (.register m h once) (by rw [ht]; simp)) (by simp)
  | lock k hp hw => rw [hp] at hi; exact hi.elim
  | locked k hp hr => rw [hp] at hi; exact hi.elim
  | act k hp => rw [hp] at hi; exact hi.elim
  | unlock o hp => rw [hp] at hi; exact hi.elim
  | serve h l hp hl =>
    refine ⟨h1, h2, fun j op hj => ?_, fun j => ?_⟩
    · simp only [MuxGo.goto, MuxGo.setTodo] at hj
      split at hj
      · rcases List.mem_append.mp hj with hj | hj
        · exact hn l hl op hj
        · exact h3 i op hj
      · exact h3 j op hj
    · simp only [MuxGo.goto, MuxGo.setTodo]
      by_cases hj : j = i
      · simp [hj]
      · simpa [hj] using h4 j

private theorem still_with (hs : MuxMap) (next : Nat) (progs : Nat → Nat) : Still hs (muxWith hs next progs) :=
  ⟨rfl, rfl, fun _ _ h => (List.mem_replicate.mp h).2, fun _ => trivial⟩

/-- Two multiplexers look the same to the goroutines of `A`. -/
private structure Alike (A : Nat → Bool) (c d : MuxGo) : Prop where
  pc : ∀ i, A i = true → d.pc i = c.pc i
  todo : ∀ i, A i = true → d.todo i = c.todo i
  log : resultsOf A d.log = resultsOf A c.log

private theorem resultsOf_append (A : Nat → Bool) (l l' : List MuxEvent) :
    resultsOf A (l ++ l') = resultsOf A l ++ resultsOf A l' := by simp [resultsOf]

/-- A step of another goroutine is not seen. -/
private theorem Alike.other {hs : MuxMap} {A : Nat → Bool} {c c' d : MuxGo} {env : Nat → MatchFn?}
    {reqs : Nat → Request} {dflt : Handler} {nested : List MuxOp → Prop} {i : Nat} (h : Still hs c) (ha : Alike A c d)
    (hi : A i = false) (s : MuxGo.StepOf env reqs dflt nested i c c') : Alike A c' d := by
  obtain ⟨a1, a2, a3⟩ := ha
  have hne : ∀ j, A j = true → j ≠ i := fun j hj he => by rw [he, hi] at hj; cases hj
  have hpi := h.pc i
  cases s with
  | rlock t hp ht hw => 
    exact ⟨fun j hj => by simp [MuxGo.goto, MuxGo.setTodo, hne j hj, a1 j hj],
      fun j hj => by simp [MuxGo.goto, MuxGo.setTodo, hne j hj, a2 j hj], a3⟩
  | next seen r m e r' hp hm hs' hr => exact ⟨fun j hj => by simp [MuxGo.goto, hne j hj, a1 j hj], a2, a3⟩
  | hit seen r m e r' hp hm hs' hr =>
    refine ⟨fun j hj => by simp [MuxGo.goto, hne j hj, a1 j hj], a2, ?_⟩
    rw [a3]
    simp only
    split
    · rfl
    · rw [resultsOf_append]; simp [resultsOf, hi]
  | crash seen r m e hp hm hs' hr => exact ⟨fun j hj => by simp [MuxGo.goto, hne j hj, a1 j hj], a2, a3⟩
  | miss seen r hp hs' =>
    refine ⟨fun j hj => by simp [MuxGo.goto, hne j hj, a1 j hj], a2, ?_⟩
    rw [a3, resultsOf_append]; simp [resultsOf, hi]
  | unlockHit m e hp => exact ⟨fun j hj => by simp [MuxGo.goto, hne j hj, a1 j hj], a2, a3⟩
  | unlockMiss hp => exact ⟨fun j hj => by simp [MuxGo.goto, hne j hj, a1 j hj], a2, a3⟩
  | call m x once t hp ht => exact absurd (h.todo i (.register m x once) (by rw [ht]; simp)) (by simp)
  | lock k hp hw => rw [hp] at hpi; exact hpi.elim
  | locked k hp hr => rw [hp] at hpi; exact hpi.elim
  | act k hp => rw [hp] at hpi; exact hpi.elim
  | unlock o hp => rw [hp] at hpi; exact hpi.elim
  | serve h l hp hl =>
    exact ⟨fun j hj => by simp [MuxGo.goto, MuxGo.setTodo, hne j hj, a1 j hj],
      fun j hj => by simp [MuxGo.goto, MuxGo.setTodo, hne j hj, a2 j hj], a3⟩

/-- A step of a goroutine of `A` can be done in both. -/
private theorem Alike.own {hs : MuxMap} {A : Nat → Bool} {c c' d : MuxGo} {env : Nat → MatchFn?}
    {reqs reqs' : Nat → Request} {dflt : Handler} {nested : List MuxOp → Prop} {i : Nat} (h : Still hs c)
    (hd : Still hs d) (ha : Alike A c d) (hi : A i = true) (hr : reqs' i = reqs i)
    (s : MuxGo.StepOf env reqs dflt nested i c c') :
    ∃ d', MuxGo.StepOf env reqs' dflt nested i d d' ∧ Alike A c' d' := by
  obtain ⟨a1, a2, a3⟩ := ha
  have hpi := h.pc i
  have e1 : d.hs = c.hs := by rw [h.same, hd.same]
  have p := a1 i hi
  have t := a2 i hi
  cases s with
  | rlock l hp ht hw =>
    refine ⟨_, .rlock d l (by rw [p, hp]) (by rw [t, ht]) hd.writer, fun j hj => ?_, fun j hj => ?_, a3⟩
    · simp only [MuxGo.goto, MuxGo.setTodo, a1 j hj, hr]
    · simp only [MuxGo.goto, MuxGo.setTodo, a2 j hj]
  | next seen r m e r' hp hm hs' hx =>
    exact ⟨_, .next d seen r m e r' (by rw [p, hp]) (by rw [e1]; exact hm) hs' hx,
      fun j hj => by simp only [MuxGo.goto, a1 j hj], a2, a3⟩
  | hit seen r m e r' hp hm hs' hx =>
    refine ⟨_, .hit d seen r m e r' (by rw [p, hp]) (by rw [e1]; exact hm) hs' hx,
      fun j hj => by simp only [MuxGo.goto, a1 j hj], a2, ?_⟩
    simp only
    split
    · exact a3
    · rw [resultsOf_append, resultsOf_append, a3]
  | crash seen r m e hp hm hs' hx =>
    exact ⟨_, .crash d seen r m e (by rw [p, hp]) (by rw [e1]; exact hm) hs' hx,
      fun j hj => by simp only [MuxGo.goto, a1 j hj], a2, a3⟩
  | miss seen r hp hs' =>
    refine ⟨_, .miss d seen r (by rw [p, hp]) (by rw [e1]; exact hs'),
      fun j hj => by simp only [MuxGo.goto, a1 j hj], a2, ?_⟩
    rw [resultsOf_append, resultsOf_append, a3]
  | unlockHit m e hp =>
    exact ⟨_, .unlockHit d m e (by rw [p, hp]), fun j hj => by simp only [MuxGo.goto, a1 j hj], a2, a3⟩
  | unlockMiss hp =>
    exact ⟨_, .unlockMiss d (by rw [p, hp]), fun j hj => by simp only [MuxGo.goto, a1 j hj], a2, a3⟩
  | call m x once l hp ht => exact absurd (h.todo i (.register m x once) (by rw [ht]; simp)) (by simp)
  | lock k hp hw => rw [hp] at hpi; exact hpi.elim
  | locked k hp hr => rw [hp] at hpi; exact hpi.elim
  | act k hp => rw [hp] at hpi; exact hpi.elim
  | unlock o hp => rw [hp] at hpi; exact hpi.elim
  | serve h l hp hl =>
    refine ⟨_, .serve d h l (by rw [p, hp]) hl, fun j hj => ?_, fun j hj => ?_, a3⟩
    · simp only [MuxGo.goto, MuxGo.setTodo, a1 j hj]
    · simp only [MuxGo.goto, MuxGo.setTodo, a2 j hj, t]

/-- C105, the part that holds.  Peers share a multiplexer whose entries are permanent, and handlers may dispatch but not
register.  What can happen to the messages of some of the goroutines, `A`, those of one peer for example,
does not depend on the messages of the others: every execution is, as far as they can see, one with any
other messages of the others, or without any.  This includes messages for which a matcher panics. -/
theorem mux_isolated_partial (env : Nat → MatchFn?) (dflt : Handler) (nested : List MuxOp → Prop)
    (hn : ∀ l, nested l → ∀ op ∈ l, op = .dispatch) (hs : MuxMap) (ho : ∀ x ∈ hs, x.2.once = false) (next : Nat)
    (A : Nat → Bool) (reqs reqs' : Nat → Request) (progs progs' : Nat → Nat) (hr : ∀ i, A i = true → reqs' i = reqs i)
    (hp : ∀ i, A i = true → progs' i = progs i) (c : MuxGo)
    (h : MuxGo.Steps env reqs dflt nested (muxWith hs next progs) c) :
    ∃ c', MuxGo.Steps env reqs' dflt nested (muxWith hs next progs') c' ∧
      (∀ i, A i = true → c'.pc i = c.pc i ∧ c'.todo i = c.todo i) ∧ resultsOf A c'.log = resultsOf A c.log := by
  have key : ∃ c', MuxGo.Steps env reqs' dflt nested (muxWith hs next progs') c' ∧ Still hs c ∧ Still hs c' ∧
      Alike A c c' := by
    induction h with
    | refl =>
      exact ⟨_, .refl, still_with _ _ _, still_with _ _ _, fun _ _ => rfl, fun i hi => by simp [muxWith, hp i hi], rfl⟩
    | tail _ st ih =>
      obtain ⟨c', g1, g2, g3, g4⟩ := ih
      obtain ⟨i, st⟩ := st
      have g5 := g2.step ho hn st
      rcases hi : A i with _ | _
      · exact ⟨c', g1, g5, g3, g4.other g2 hi st⟩
      · obtain ⟨d', k1, k2⟩ := g4.own g2 g3 hi (hr i hi) st
        exact ⟨d', g1.tail ⟨i, k1⟩, g5, g3.step ho hn k1, k2⟩
  obtain ⟨c', g1, _, _, g4⟩ := key
  exact ⟨c', g1, fun i hi => ⟨g4.pc i hi, g4.todo i hi⟩, g4.log⟩

/-- C105.  Nor do the others block it: a goroutine that is not done can always take its next step itself, whatever the
others are doing, also when some of them have died in a matcher and kept the read lock. -/
theorem mux_isolated_progress_partial (env : Nat → MatchFn?) (dflt : Handler) (nested : List MuxOp → Prop)
    (hn : ∀ l, nested l → ∀ op ∈ l, op = .dispatch) (h0 : nested []) (hs : MuxMap) (ho : ∀ x ∈ hs, x.2.once = false)
    (next : Nat) (reqs : Nat → Request) (progs : Nat → Nat) (c : MuxGo)
    (h : MuxGo.Steps env reqs dflt nested (muxWith hs next progs) c) (i : Nat)
    (hi : ¬ (c.pc i = .idle ∧ c.todo i = [])) : ∃ c', MuxGo.StepOf env reqs dflt nested i c c' := by
  have st : Still hs c := by
    clear hi
    induction h with
    | refl => exact still_with _ _ _
    | tail _ st ih => obtain ⟨j, st⟩ := st; exact ih.step ho hn st
  have hpc := st.pc i
  cases hp : c.pc i with
  | idle =>
    cases ht : c.todo i with
    | nil => exact absurd ⟨hp, ht⟩ hi
    | cons op l =>
      have := st.todo i op (by rw [ht]; simp)
      subst this
      exact ⟨_, .rlock c l hp ht st.writer⟩
  | search seen r =>
    by_cases hx : ∃ m e, (m, e) ∈ c.hs ∧ m ∉ seen
    · obtain ⟨m, e, hm, hs'⟩ := hx
      rcases hr : m.run? env r with _ | ⟨_ | _, r'⟩
      · exact ⟨_, .crash c seen r m e hp hm hs' hr⟩
      · exact ⟨_, .next c seen r m e r' hp hm hs' hr⟩
      · exact ⟨_, .hit c seen r m e r' hp hm hs' hr⟩
    · exact ⟨_, .miss c seen r hp fun m e hm => Classical.byContradiction fun hc => hx ⟨m, e, hm, hc⟩⟩
  | hit m e => exact ⟨_, .unlockHit c m e hp⟩
  | miss => exact ⟨_, .unlockMiss c hp⟩
  | serving x => exact ⟨_, .serve c x [] hp h0⟩
  | want k => rw [hp] at hpc; exact hpc.elim
  | wait k => rw [hp] at hpc; exact hpc.elim
  | hold k => rw [hp] at hpc; exact hpc.elim
  | rel k => rw [hp] at hpc; exact hpc.elim

/-! ## Entries for one message -/

/-- A multiplexer with one entry, made by `HandleOnce` for a type of messages. -/
private def oneShot (t : UInt8) (e : MuxEntry) : MuxMap := [(.typ t, e)]

private theorem typ_run (env : Nat → MatchFn?) (t : UInt8) (r : Request) :
    (Matcher.typ t).run? env r = some (r.header.type == t, r) := by
  simp [Matcher.run?, typeMatch]

/-- Goroutine `j`, alone, takes the entry. -/
private theorem takes (env : Nat → MatchFn?) (reqs : Nat → Request) (dflt : Handler) (nested : List MuxOp → Prop)
    (t : UInt8) (e : MuxEntry) (he : e.once = true) (next : Nat) (progs : Nat → Nat) (j n : Nat) (hp : progs j = n + 1)
    (ht : (reqs j).header.type = t) :
    ∃ c, MuxGo.Steps env reqs dflt nested (muxWith (oneShot t e) next progs) c ∧ c.hs = [] ∧ c.writer = none ∧
      (∀ i, i ≠ j → c.pc i = .idle ∧ c.todo i = List.replicate (progs i) .dispatch) ∧ c.log = [.selected j e] := by
  have hm : (Matcher.typ t, e) ∈ oneShot t e := by simp [oneShot]
  have s1 := MuxGo.Steps.refl (env := env) (reqs := reqs) (dflt := dflt) (nested := nested)
    (c₀ := muxWith (oneShot t e) next progs)
  have s2 := s1.tail ⟨j, .rlock _ (List.replicate n .dispatch) rfl (by simp [muxWith, hp, List.replicate_succ]) rfl⟩
  have s3 := s2.tail ⟨j, .hit _ [] (reqs j) (.typ t) e (reqs j) (by simp [MuxGo.goto]) hm (by simp)
    (by rw [typ_run, ht]; simp)⟩
  have s4 := s3.tail ⟨j, .unlockHit _ (.typ t) e (by simp [MuxGo.goto])⟩
  have s5 := s4.tail ⟨j, .lock _ (.take (.typ t) e) (by simp [MuxGo.goto, he]) rfl⟩
  have s6 := s5.tail ⟨j, .locked _ (.take (.typ t) e) (by simp [MuxGo.goto]) (by simp [MuxGo.goto, MuxGo.setTodo, muxWith])⟩
  have s7 := s6.tail ⟨j, .act _ (.take (.typ t) e) (by simp [MuxGo.goto])⟩
  have s8 := s7.tail ⟨j, .unlock _ (some e.handler) (by
    simp [MuxGo.goto, MuxGo.act, MuxGo.setTodo, muxWith, MuxMap.take, MuxMap.keys, oneShot])⟩
  refine ⟨_, s8, ?_, rfl, fun i hi => ⟨?_, ?_⟩, ?_⟩
  · simp [MuxGo.goto, MuxGo.act, MuxGo.setTodo, muxWith, MuxMap.take, MuxMap.keys, oneShot, MuxMap.delete]
  · simp [MuxGo.goto, MuxGo.act, MuxGo.setTodo, muxWith, hi]
  · simp [MuxGo.goto, MuxGo.act, MuxGo.setTodo, muxWith, hi]
  · simp [MuxGo.goto, MuxGo.act, MuxGo.setTodo, muxWith, MuxMap.take, MuxMap.keys, oneShot, he]

/-- Goroutine `i`, alone, with one message to dispatch. -/
private def Alone (t : UInt8) (e : MuxEntry) (i : Nat) (r : Request) (c : MuxGo) : Prop :=
  (∀ j, j ≠ i → c.pc j = .idle ∧ c.todo j = []) ∧
  ((c.hs = oneShot t e ∧ c.log = [] ∧
    ((c.pc i = .idle ∧ c.todo i = [.dispatch]) ∨
      (c.todo i = [] ∧ (c.pc i = .search [] r ∨ c.pc i = .hit (.typ t) e ∨ c.pc i = .want (.take (.typ t) e) ∨
        c.pc i = .wait (.take (.typ t) e) ∨ c.pc i = .hold (.take (.typ t) e))))) ∨
   (c.log = [.selected i e] ∧ c.todo i = [] ∧
    (c.pc i = .rel (some e.handler) ∨ c.pc i = .serving e.handler ∨ c.pc i = .idle)))

private theorem Alone.step {env : Nat → MatchFn?} {reqs : Nat → Request} {dflt : Handler}
    {t : UInt8} {e : MuxEntry} (he : e.once = true) {i j : Nat} (ht : (reqs i).header.type = t) {c c' : MuxGo}
    (h : Alone t e i (reqs i) c) (s : MuxGo.StepOf env reqs dflt (· = []) j c c') : Alone t e i (reqs i) c' := by
  obtain ⟨ho, h⟩ := h
  by_cases hj : j = i
  · subst hj
    cases s with
    | rlock l hp hl hw =>
      rcases h with ⟨h1, h2, ⟨h3, h4⟩ | ⟨h3, _⟩⟩ | ⟨_, h3, _⟩
      · rw [h4] at hl
        cases hl
        refine ⟨fun k hk => by simp [MuxGo.goto, MuxGo.setTodo, hk, ho k hk], .inl ⟨h1, h2, .inr ⟨?_, .inl ?_⟩⟩⟩ <;>
          simp [MuxGo.goto, MuxGo.setTodo]
      · rw [h3] at hl; cases hl
      · rw [h3] at hl; cases hl
    | next seen r m e' r' hp hm hs hr =>
      rcases h with ⟨h1, h2, ⟨h3, h4⟩ | ⟨h3, h4⟩⟩ | ⟨_, _, h3⟩
      · rw [hp] at h3; cases h3
      · rw [hp] at h4
        simp only [MuxPc.search.injEq, reduceCtorEq, or_false] at h4
        obtain ⟨rfl, rfl⟩ := h4
        rw [h1, oneShot, List.mem_singleton] at hm
        cases hm
        rw [typ_run, ht] at hr
        simp at hr
      · rw [hp] at h3; simp at h3
    | hit seen r m e' r' hp hm hs hr =>
      rcases h with ⟨h1, h2, ⟨h3, h4⟩ | ⟨h3, h4⟩⟩ | ⟨_, _, h3⟩
      · rw [hp] at h3; cases h3
      · rw [h1, oneShot, List.mem_singleton] at hm
        cases hm
        exact ⟨fun k hk => by simp [MuxGo.goto, hk, ho k hk], .inl ⟨h1, by simp [he, h2], .inr ⟨h3, .inr (.inl (by simp [MuxGo.goto]))⟩⟩⟩
      · rw [hp] at h3; simp at h3
    | crash seen r m e' hp hm hs hr =>
      rcases h with ⟨h1, h2, ⟨h3, h4⟩ | ⟨h3, h4⟩⟩ | ⟨_, _, h3⟩
      · rw [hp] at h3; cases h3
      · rw [h1, oneShot, List.mem_singleton] at hm
        cases hm
        rw [typ_run] at hr
        cases hr
      · rw [hp] at h3; simp at h3
    | miss seen r hp hs =>
      rcases h with ⟨h1, h2, ⟨h3, h4⟩ | ⟨h3, h4⟩⟩ | ⟨_, _, h3⟩
      · rw [hp] at h3; cases h3
      · rw [hp] at h4
        simp only [MuxPc.search.injEq, reduceCtorEq, or_false] at h4
        obtain ⟨rfl, rfl⟩ := h4
        exact absurd (hs (.typ t) e (by rw [h1]; simp [oneShot])) (by simp)
      · rw [hp] at h3; simp at h3
    | unlockHit m e' hp =>
      rcases h with ⟨h1, h2, ⟨h3, h4⟩ | ⟨h3, h4⟩⟩ | ⟨_, _, h3⟩
      · rw [hp] at h3; cases h3
      · rw [hp] at h4
        simp only [MuxPc.hit.injEq, reduceCtorEq, or_false, false_or] at h4
        obtain ⟨rfl, rfl⟩ := h4
        exact ⟨fun k hk => by simp [MuxGo.goto, hk, ho k hk], .inl ⟨h1, h2, .inr ⟨h3, .inr (.inr (.inl (by simp [MuxGo.goto, he])))⟩⟩⟩
      · rw [hp] at h3; simp at h3
    | unlockMiss hp =>
      rcases h with ⟨h1, h2, ⟨h3, h4⟩ | ⟨h3, h4⟩⟩ | ⟨_, _, h3⟩
      · rw [hp] at h3; cases h3
      · rw [hp] at h4; simp at h4
      · rw [hp] at h3; simp at h3
    | call m x once l hp hl =>
      rcases h with ⟨h1, h2, ⟨h3, h4⟩ | ⟨h3, h4⟩⟩ | ⟨_, h3, _⟩
      · rw [h4] at hl; cases hl
      · rw [h3] at hl; cases hl
      · rw [h3] at hl; cases hl
    | lock k hp hw =>
      rcases h with ⟨h1, h2, ⟨h3, h4⟩ | ⟨h3, h4⟩⟩ | ⟨_, _, h3⟩
      · rw [hp] at h3; cases h3
      · rw [hp] at h4
        simp only [MuxPc.want.injEq, reduceCtorEq, or_false, false_or] at h4
        subst h4
        exact ⟨fun k hk => by simp [MuxGo.goto, hk, ho k hk], .inl ⟨h1, h2, .inr ⟨h3, .inr (.inr (.inr (.inl (by simp [MuxGo.goto]))))⟩⟩⟩
      · rw [hp] at h3; simp at h3
    | locked k hp hr =>
      rcases h with ⟨h1, h2, ⟨h3, h4⟩ | ⟨h3, h4⟩⟩ | ⟨_, _, h3⟩
      · rw [hp] at h3; cases h3
      · rw [hp] at h4
        simp only [MuxPc.wait.injEq, reduceCtorEq, or_false, false_or] at h4
        subst h4
        exact ⟨fun k hk => by simp [MuxGo.goto, hk, ho k hk], .inl ⟨h1, h2, .inr ⟨h3, .inr (.inr (.inr (.inr (by simp [MuxGo.goto]))))⟩⟩⟩
      · rw [hp] at h3; simp at h3
    | act k hp =>
      rcases h with ⟨h1, h2, ⟨h3, h4⟩ | ⟨h3, h4⟩⟩ | ⟨_, _, h3⟩
      · rw [hp] at h3; cases h3
      · rw [hp] at h4
        simp only [MuxPc.hold.injEq, reduceCtorEq, false_or] at h4
        subst h4
        refine ⟨fun k hk => by simp [MuxGo.act, MuxGo.goto, hk, ho k hk], .inr ⟨?_, ?_, .inl ?_⟩⟩ <;>
          simp [MuxGo.act, MuxGo.goto, h1, h2, h3, MuxMap.take, MuxMap.keys, oneShot]
      · rw [hp] at h3; simp at h3
    | unlock o hp =>
      rcases h with ⟨h1, h2, ⟨h3, h4⟩ | ⟨h3, h4⟩⟩ | ⟨h1, h2, h3⟩
      · rw [hp] at h3; cases h3
      · rw [hp] at h4; simp at h4
      · rw [hp] at h3
        simp only [MuxPc.rel.injEq, reduceCtorEq, or_false] at h3
        subst h3
        exact ⟨fun k hk => by simp [MuxGo.goto, hk, ho k hk], .inr ⟨h1, h2, .inr (.inl (by simp [MuxGo.goto, MuxPc.after]))⟩⟩
    | serve x l hp hl =>
      rcases h with ⟨h1, h2, ⟨h3, h4⟩ | ⟨h3, h4⟩⟩ | ⟨h1, h2, h3⟩
      · rw [hp] at h3; cases h3
      · rw [hp] at h4; simp at h4
      · subst hl
        exact ⟨fun k hk => by simp [MuxGo.goto, MuxGo.setTodo, hk, ho k hk],
          .inr ⟨h1, by simp [MuxGo.goto, MuxGo.setTodo, h2], .inr (.inr (by simp [MuxGo.goto]))⟩⟩
  · obtain ⟨h1, h2⟩ := ho j hj
    cases s with
    | rlock l hp hl hw => rw [h2] at hl; cases hl
    | call m x once l hp hl => rw [h2] at hl; cases hl
    | next seen r m e' r' hp => rw [h1] at hp; cases hp
    | hit seen r m e' r' hp => rw [h1] at hp; cases hp
    | crash seen r m e' hp => rw [h1] at hp; cases hp
    | miss seen r hp => rw [h1] at hp; cases hp
    | unlockHit m e' hp => rw [h1] at hp; cases hp
    | unlockMiss hp => rw [h1] at hp; cases hp
    | lock k hp => rw [h1] at hp; cases hp
    | locked k hp => rw [h1] at hp; cases hp
    | act k hp => rw [h1] at hp; cases hp
    | unlock o hp => rw [h1] at hp; cases hp
    | serve x l hp => rw [h1] at hp; cases hp

/-- C105, the part that does not hold: an entry made by `HandleOnce` belongs to whoever comes first.  When a program waits for
one message of a type from the peer `i`, and that peer sends it, it gets the handler if it is alone;
another peer `j` that sends a message of the type can take the handler, and the message of `i` is then given
to the default handler. -/
theorem mux_isolated_false (env : Nat → MatchFn?) (dflt : Handler) (t : UInt8) (e : MuxEntry) (he : e.once = true)
    (next : Nat) (i j : Nat) (hij : i ≠ j) (reqs : Nat → Request) (hi : (reqs i).header.type = t)
    (hj : (reqs j).header.type = t) :
    (∀ c, MuxGo.Steps env reqs dflt (· = []) (muxWith [(.typ t, e)] next (fun k => if k = i then 1 else 0)) c →
      resultsOf (· == i) c.log = [] ∨ resultsOf (· == i) c.log = [.selected i e]) ∧
    (∃ c, MuxGo.Steps env reqs dflt (· = []) (muxWith [(.typ t, e)] next (fun k => if k = i ∨ k = j then 1 else 0)) c ∧
      resultsOf (· == i) c.log = [.default i]) := by
  constructor
  · intro c h
    have key : Alone t e i (reqs i) c := by
      induction h with
      | refl =>
        refine ⟨fun k hk => ⟨rfl, by simp [muxWith, hk]⟩, .inl ⟨rfl, rfl, .inl ⟨rfl, by simp [muxWith]⟩⟩⟩
      | tail _ st ih =>
        obtain ⟨k, st⟩ := st
        exact ih.step he hi st
    rcases key.2 with ⟨_, h, _⟩ | ⟨h, _, _⟩
    · exact .inl (by rw [h]; rfl)
    · exact .inr (by rw [h]; simp [resultsOf])
  · obtain ⟨c, g1, g2, g3, g4, g5⟩ := takes env reqs dflt (· = []) t e he next
      (fun k => if k = i ∨ k = j then 1 else 0) j 0 (by simp) hj
    obtain ⟨p1, p2⟩ := g4 i hij
    have s2 := g1.tail ⟨i, .rlock _ [] p1 (by rw [p2]; simp) g3⟩
    have s3 := s2.tail ⟨i, .miss _ [] (reqs i) (by simp [MuxGo.goto]) (by simp [MuxGo.goto, MuxGo.setTodo, g2])⟩
    refine ⟨_, s3, ?_⟩
    have hji : (j == i) = false := by simp [Ne.symm hij]
    simp [resultsOf, MuxGo.goto, MuxGo.setTodo, g5, hji]

/-! ## The hypotheses can be met -/

/-- Two permanent entries, one of them a matcher that panics on some messages. -/
example : (∀ x ∈ ([(.typ 2, ⟨.user 1, false, 0⟩), (.ptr 0, ⟨.user 2, false, 1⟩)] : MuxMap), x.2.once = false) ∧
    (∀ l : List MuxOp, l = [] ∨ l = [.dispatch] → ∀ op ∈ l, op = .dispatch) := by
  constructor
  · decide
  · rintro l (rfl | rfl) <;> simp

end Verif.Props
