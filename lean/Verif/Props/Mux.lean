import Verif.Mux

/-!
# Properties C13 - C17: multiplexers and matchers
-/

namespace Verif.Props

open Verif

/-! ## C13 -/

/-- The matcher accepts the request. -/
def Accepts (env : Nat → MatchFn) (m : Matcher) (r : Request) : Prop := (m.run env r).1 = true

/-- Matchers that only look at the request. -/
def PureMatchers (env : Nat → MatchFn) : Prop := ∀ i r, (env i r).2 = r

private theorem run_pure {env : Nat → MatchFn} (he : PureMatchers env) (m : Matcher) (r : Request) :
    (m.run env r).2 = r := by
  cases m with
  | typ t => rfl
  | ptr i => exact he i r

private theorem search_pure {env : Nat → MatchFn} (he : PureMatchers env) (hs : MuxMap) (r : Request) :
    (∃ m e, (m, e) ∈ hs ∧ Accepts env m r ∧ hs.search env r = (some (m, e), r)) ∨
    ((∀ p ∈ hs, ¬ Accepts env p.1 r) ∧ hs.search env r = (none, r)) := by
  induction hs with
  | nil => exact .inr ⟨by simp, rfl⟩
  | cons a t ih =>
    obtain ⟨m, e⟩ := a
    have hp := run_pure he m r
    simp only [MuxMap.search]
    rcases hm : m.run env r with ⟨b, r1⟩
    rw [hm] at hp
    simp only at hp
    subst hp
    cases b with
    | true => exact .inl ⟨m, e, by simp, by simp [Accepts, hm], rfl⟩
    | false =>
      rcases ih with ⟨m', e', h1, h2, h3⟩ | ⟨h1, h2⟩
      · exact .inl ⟨m', e', by simp [h1], h2, h3⟩
      · refine .inr ⟨fun p hp => ?_, h2⟩
        simp only [List.mem_cons] at hp
        rcases hp with rfl | hp
        · simp [Accepts, hm]
        · exact h1 p hp

/-- C13.  For every iteration order of the map: the returned handler was registered under a
matcher that accepts the request, or no registered matcher accepts it and the default handler
is returned.  The map changes only by the removal of the selected disposable entry. -/
theorem mux_dispatch (env : Nat → MatchFn) (he : PureMatchers env) (dflt : Handler)
    (hs order : MuxMap) (hp : order.Perm hs) (r : Request) :
    (∃ m e, (m, e) ∈ hs ∧ Accepts env m r ∧
      hs.handler env dflt order r = (e.handler, if e.once then hs.filter (·.1 ≠ m) else hs, r)) ∨
    ((∀ p ∈ hs, ¬ Accepts env p.1 r) ∧ hs.handler env dflt order r = (dflt, hs, r)) := by
  rcases search_pure he order r with ⟨m, e, h1, h2, h3⟩ | ⟨h1, h2⟩
  · left
    have hm := hp.mem_iff.mp h1
    refine ⟨m, e, hm, h2, ?_⟩
    simp only [MuxMap.handler, h3]
    cases ho : e.once with
    | false => rfl
    | true =>
      have : m ∈ hs.keys := MuxMap.mem_keys.mpr ⟨e, hm⟩
      simp only [if_true, MuxMap.take, this, MuxMap.delete, Option.getD_some]
  · right
    exact ⟨fun p hp' => h1 p (hp.mem_iff.mpr hp'), by simp [MuxMap.handler, h2]⟩

/-- C13, for arbitrary matchers (also ones that modify the request they are shown): the
returned handler is the default handler, or one registered under a matcher that accepted the
request, in the state in which the handler gets it. -/
theorem mux_never_rejected (env : Nat → MatchFn) (dflt : Handler) (hs order : MuxMap)
    (hp : order.Perm hs) (r : Request) :
    (hs.handler env dflt order r).1 = dflt ∨
    ∃ m e, (m, e) ∈ hs ∧ (hs.handler env dflt order r).1 = e.handler ∧
      ∃ r₀, m.run env r₀ = (true, (hs.handler env dflt order r).2.2) := by
  unfold MuxMap.handler
  rcases hf : order.search env r with ⟨_ | ⟨m, e⟩, r'⟩
  · exact .inl rfl
  · obtain ⟨h1, r₀, h2⟩ := MuxMap.search_some hf
    have hm := hp.mem_iff.mp h1
    have hk : m ∈ hs.keys := MuxMap.mem_keys.mpr ⟨e, hm⟩
    refine .inr ⟨m, e, hm, ?_, r₀, ?_⟩
    · cases ho : e.once <;> simp [MuxMap.take, hk, ho]
    · cases ho : e.once <;> simp [MuxMap.take, hk, ho, h2]

/-- C13.  After a successful registration of `m`, a request accepted by `m` and by no other
registered matcher is given to `h`, whatever the iteration order. -/
theorem mux_registered (env : Nat → MatchFn) (he : PureMatchers env) (dflt : Handler)
    (hs hs' order : MuxMap) (m : Matcher) (h : Handler) (once : Bool) (id : Nat) (r : Request)
    (hr : hs.handle (some m) (some h) once id = (none, hs')) (hp : order.Perm hs')
    (ha : Accepts env m r) (ho : ∀ p ∈ hs, ¬ Accepts env p.1 r) :
    (hs'.handler env dflt order r).1 = h := by
  obtain ⟨hn, rfl⟩ := MuxMap.handle_ok hr
  rcases mux_dispatch env he dflt _ order hp r with ⟨m', e', h1, h2, h3⟩ | ⟨h1, _⟩
  · simp only [List.mem_cons, Prod.mk.injEq] at h1
    rcases h1 with ⟨rfl, rfl⟩ | h1
    · rw [h3]
    · exact absurd h2 (ho _ h1)
  · exact absurd ha (h1 (m, ⟨h, once, id⟩) (by simp))

/-- Non-vacuity: two overlapping matchers, both answers are possible, depending on the order. -/
example : ∃ (env : Nat → MatchFn) (hs : MuxMap) (r : Request), PureMatchers env ∧
    (hs.handler env .discard hs r).1 = .user 1 ∧ (hs.handler env .discard hs.reverse r).1 = .user 2 :=
  ⟨fun _ r => (true, r), [(.typ 3, ⟨.user 1, false, 0⟩), (.ptr 0, ⟨.user 2, false, 1⟩)],
    { Request.zero with header := ⟨4, 3, 0, 0⟩ }, fun _ _ => rfl, rfl, rfl⟩

/-! ## C14 -/

/-- How often the entry has been selected. -/
def timesSelected (log : List MuxEvent) (e : MuxEntry) : Nat :=
  log.countP (fun ev => match ev with | .selected _ e' => e' = e | _ => false)

/-- Executions in which a matcher is not registered again while a concurrent dispatch holds a
disposable entry found under the same matcher. -/
inductive CalmReach (env : Nat → MatchFn) (reqs : Nat → Request) : MuxSys → Prop where
  | init : CalmReach env reqs .init
  | tail {s s'} (h : CalmReach env reqs s) (st : MuxSys.Step env reqs s s')
    (hcalm : ∀ m e, s'.log = s.log ++ [.registered m e] → ∀ i e', s.pend i ≠ some (m, e')) :
    CalmReach env reqs s'

private structure OnceInv (s : MuxSys) : Prop where
  nodup : s.hs.keys.Nodup
  reg : ∀ m e, (m, e) ∈ s.hs → .registered m e ∈ s.log
  pend : ∀ i m e, s.pend i = some (m, e) → e.once = true ∧ .registered m e ∈ s.log ∧
    ((m, e) ∈ s.hs ∨ m ∉ s.hs.keys)
  fresh : ∀ m e, .registered m e ∈ s.log → e.id < s.next
  same : ∀ m e m' e', .registered m e ∈ s.log → .registered m' e' ∈ s.log → e.id = e'.id →
    m = m' ∧ e = e'
  perm : ∀ m e, .registered m e ∈ s.log → e.once = false → (m, e) ∈ s.hs
  once : ∀ m e, .registered m e ∈ s.log → e.once = true →
    ((m, e) ∈ s.hs ∧ timesSelected s.log e = 0) ∨ ((m, e) ∉ s.hs ∧ timesSelected s.log e = 1)
  sel : ∀ e, 0 < timesSelected s.log e → ∃ m, .registered m e ∈ s.log

private theorem times_append (log : List MuxEvent) (ev : MuxEvent) (e : MuxEntry) :
    timesSelected (log ++ [ev]) e = timesSelected log e +
      (match ev with | .selected _ e' => if e' = e then 1 else 0 | _ => 0) := by
  unfold timesSelected
  rw [List.countP_append]
  cases ev <;> simp [List.countP_cons, List.countP_nil]

private theorem reg_append (log : List MuxEvent) (ev : MuxEvent) (m : Matcher) (e : MuxEntry) :
    (.registered m e ∈ log ++ [ev]) ↔ .registered m e ∈ log ∨ ev = .registered m e := by
  simp [eq_comm]

private theorem once_inv (env : Nat → MatchFn) (reqs : Nat → Request) (s : MuxSys) (h : CalmReach env reqs s) : OnceInv s := by
  induction h with
  | init =>
    constructor <;> simp [MuxSys.init, MuxMap.keys, timesSelected]
  | @tail s s' _ st hcalm ih =>
    cases st with
    | register m h once hs' hok =>
      obtain ⟨hn, rfl⟩ := MuxMap.handle_ok hok
      have hc := hcalm m ⟨h, once, s.next⟩ rfl
      have hnew : ∀ m', .registered m' ⟨h, once, s.next⟩ ∉ s.log := fun m' hm => by
        have := ih.fresh _ _ hm; simp at this
      have hns : timesSelected s.log ⟨h, once, s.next⟩ = 0 := by
        apply Nat.eq_zero_of_not_pos
        intro hp
        obtain ⟨m', hm'⟩ := ih.sel _ hp
        exact hnew m' hm'
      constructor
      · simpa [MuxMap.keys] using ⟨by simpa [MuxMap.keys] using hn, ih.nodup⟩
      · intro m' e' hm
        simp only [List.mem_cons, Prod.mk.injEq] at hm
        rw [reg_append]
        rcases hm with ⟨rfl, rfl⟩ | hm
        · exact .inr rfl
        · exact .inl (ih.reg _ _ hm)
      · intro i m' e' hi
        obtain ⟨p1, p2, p3⟩ := ih.pend i m' e' hi
        refine ⟨p1, (reg_append ..).mpr (.inl p2), ?_⟩
        rcases p3 with p3 | p3
        · exact .inl (by simp [p3])
        · refine .inr ?_
          have : m' ≠ m := by rintro rfl; exact hc i e' hi
          simpa [MuxMap.keys, this] using p3
      · intro m' e' hm
        rw [reg_append] at hm
        rcases hm with hm | hm
        · have := ih.fresh _ _ hm; simp only; omega
        · cases hm; simp
      · intro m1 e1 m2 e2 h1 h2 hid
        rw [reg_append] at h1 h2
        rcases h1 with h1 | h1 <;> rcases h2 with h2 | h2
        · exact ih.same _ _ _ _ h1 h2 hid
        · cases h2; have := ih.fresh _ _ h1; simp at hid; omega
        · cases h1; have := ih.fresh _ _ h2; simp at hid; omega
        · cases h1; cases h2; exact ⟨rfl, rfl⟩
      · intro m' e' hm ho
        rw [reg_append] at hm
        rcases hm with hm | hm
        · simp [ih.perm _ _ hm ho]
        · cases hm; simp
      · intro m' e' hm ho
        simp only [times_append, Nat.add_zero]
        rw [reg_append] at hm
        rcases hm with hm | hm
        · have hne : e' ≠ ⟨h, once, s.next⟩ := by rintro rfl; exact hnew _ hm
          have : ((m', e') ∈ (m, (⟨h, once, s.next⟩ : MuxEntry)) :: s.hs) ↔ (m', e') ∈ s.hs := by
            simp [hne]
          rw [this]
          exact ih.once _ _ hm ho
        · cases hm
          exact .inl ⟨by simp, hns⟩
      · intro e' hp
        simp only [times_append, Nat.add_zero] at hp
        obtain ⟨m', hm'⟩ := ih.sel _ hp
        exact ⟨m', (reg_append ..).mpr (.inl hm')⟩
    | miss i order r' hi hp hf =>
      constructor
      · exact ih.nodup
      · intro m e hm; exact (reg_append ..).mpr (.inl (ih.reg _ _ hm))
      · intro j m e hj
        obtain ⟨p1, p2, p3⟩ := ih.pend j m e hj
        exact ⟨p1, (reg_append ..).mpr (.inl p2), p3⟩
      · intro m e hm; rw [reg_append] at hm; simpa using ih.fresh _ _ (by simpa using hm)
      · intro m e m' e' h1 h2; rw [reg_append] at h1 h2
        exact ih.same _ _ _ _ (by simpa using h1) (by simpa using h2)
      · intro m e hm; rw [reg_append] at hm; exact ih.perm _ _ (by simpa using hm)
      · intro m e hm; rw [reg_append] at hm
        simp only [times_append, Nat.add_zero]; exact ih.once _ _ (by simpa using hm)
      · intro e hp
        simp only [times_append, Nat.add_zero] at hp
        obtain ⟨m, hm⟩ := ih.sel _ hp
        exact ⟨m, (reg_append ..).mpr (.inl hm)⟩
    | found i order r' m e hi hp hf ho =>
      have hme := hp.mem_iff.mp (MuxMap.search_some hf).1
      have hreg := ih.reg _ _ hme
      constructor
      · exact ih.nodup
      · intro m e hm; exact (reg_append ..).mpr (.inl (ih.reg _ _ hm))
      · intro j m e hj
        obtain ⟨p1, p2, p3⟩ := ih.pend j m e hj
        exact ⟨p1, (reg_append ..).mpr (.inl p2), p3⟩
      · intro m e hm; rw [reg_append] at hm; simpa using ih.fresh _ _ (by simpa using hm)
      · intro m e m' e' h1 h2; rw [reg_append] at h1 h2
        exact ih.same _ _ _ _ (by simpa using h1) (by simpa using h2)
      · intro m e hm; rw [reg_append] at hm; exact ih.perm _ _ (by simpa using hm)
      · intro m' e' hm ho'; rw [reg_append] at hm
        have hne : e ≠ e' := by rintro rfl; rw [ho] at ho'; simp at ho'
        simp only [times_append, hne, if_false, Nat.add_zero]
        exact ih.once _ _ (by simpa using hm) ho'
      · intro e' hp
        simp only [times_append] at hp
        by_cases he : e = e'
        · subst he; exact ⟨m, (reg_append ..).mpr (.inl hreg)⟩
        · simp only [he, if_false, Nat.add_zero] at hp
          obtain ⟨m', hm⟩ := ih.sel _ hp
          exact ⟨m', (reg_append ..).mpr (.inl hm)⟩
    | foundOnce i order r' m e hi hp hf ho =>
      have hme := hp.mem_iff.mp (MuxMap.search_some hf).1
      refine ⟨ih.nodup, ih.reg, ?_, ih.fresh, ih.same, ih.perm, ih.once, ih.sel⟩
      intro j m' e' hj
      simp only at hj
      split at hj
      · simp only [Option.some.injEq, Prod.mk.injEq] at hj
        obtain ⟨rfl, rfl⟩ := hj
        exact ⟨ho, ih.reg _ _ hme, .inl hme⟩
      · exact ih.pend j m' e' hj
    | take i m e hi =>
      obtain ⟨p1, p2, p3⟩ := ih.pend i m e hi
      by_cases hk : m ∈ s.hs.keys
      · have hme : (m, e) ∈ s.hs := p3.resolve_right (fun h => h hk)
        have hd : (s.hs.take m e).2 = s.hs.delete m := by simp [MuxMap.take, hk]
        have hmem : ∀ m' e', (m', e') ∈ s.hs.delete m ↔ (m', e') ∈ s.hs ∧ m' ≠ m := by
          intro m' e'; simp [MuxMap.delete]
        rw [hd]
        simp only [MuxMap.take_iff, hk, if_true]
        have h0 : timesSelected s.log e = 0 := by
          rcases ih.once _ _ p2 p1 with h | h
          · exact h.2
          · exact absurd hme h.1
        constructor
        · exact MuxMap.nodup_delete ih.nodup m
        · intro m' e' hm
          exact (reg_append ..).mpr (.inl (ih.reg _ _ ((hmem _ _).mp hm).1))
        · intro j m' e' hj
          simp only at hj
          split at hj
          · simp at hj
          · obtain ⟨q1, q2, q3⟩ := ih.pend j m' e' hj
            refine ⟨q1, (reg_append ..).mpr (.inl q2), ?_⟩
            simp only [MuxMap.keys_delete, hmem]
            by_cases hmm : m' = m
            · exact .inr (by simp [hmm])
            · rcases q3 with q3 | q3
              · exact .inl ⟨q3, hmm⟩
              · exact .inr (fun h => q3 h.1)
        · intro m' e' hm; rw [reg_append] at hm; simpa using ih.fresh _ _ (by simpa using hm)
        · intro m1 e1 m2 e2 h1 h2; rw [reg_append] at h1 h2
          exact ih.same _ _ _ _ (by simpa using h1) (by simpa using h2)
        · intro m' e' hm ho; rw [reg_append] at hm
          have := ih.perm m' e' (by simpa using hm) ho
          refine (hmem _ _).mpr ⟨this, ?_⟩
          rintro rfl
          have := MuxMap.unique ih.nodup this hme
          rw [this, p1] at ho; simp at ho
        · intro m' e' hm ho; rw [reg_append] at hm
          have hm : .registered m' e' ∈ s.log := by simpa using hm
          simp only [times_append, hmem]
          by_cases he : e = e'
          · subst he
            have := (ih.same _ _ _ _ p2 hm rfl).1
            subst this
            exact .inr ⟨by simp, by simp [h0]⟩
          · simp only [he, if_false, Nat.add_zero]
            rcases ih.once _ _ hm ho with ⟨o1, o2⟩ | ⟨o1, o2⟩
            · refine .inl ⟨⟨o1, ?_⟩, o2⟩
              rintro rfl
              exact he (MuxMap.unique ih.nodup hme o1)
            · exact .inr ⟨fun h => o1 h.1, o2⟩
        · intro e' hp
          simp only [times_append] at hp
          by_cases he : e = e'
          · subst he; exact ⟨m, (reg_append ..).mpr (.inl p2)⟩
          · simp only [he, if_false, Nat.add_zero] at hp
            obtain ⟨m', hm⟩ := ih.sel _ hp
            exact ⟨m', (reg_append ..).mpr (.inl hm)⟩
      · have hd : (s.hs.take m e).2 = s.hs := by simp [MuxMap.take, hk]
        rw [hd]
        simp only [MuxMap.take_iff, hk, if_false]
        constructor
        · exact ih.nodup
        · intro m e hm; exact (reg_append ..).mpr (.inl (ih.reg _ _ hm))
        · intro j m' e' hj
          simp only at hj
          split at hj
          · simp at hj
          · obtain ⟨q1, q2, q3⟩ := ih.pend j m' e' hj
            exact ⟨q1, (reg_append ..).mpr (.inl q2), q3⟩
        · intro m e hm; rw [reg_append] at hm; simpa using ih.fresh _ _ (by simpa using hm)
        · intro m e m' e' h1 h2; rw [reg_append] at h1 h2
          exact ih.same _ _ _ _ (by simpa using h1) (by simpa using h2)
        · intro m e hm; rw [reg_append] at hm; exact ih.perm _ _ (by simpa using hm)
        · intro m e hm; rw [reg_append] at hm
          simp only [times_append, Nat.add_zero]; exact ih.once _ _ (by simpa using hm)
        · intro e hp
          simp only [times_append, Nat.add_zero] at hp
          obtain ⟨m, hm⟩ := ih.sel _ hp
          exact ⟨m, (reg_append ..).mpr (.inl hm)⟩

/-- C14, the part that holds: any number of goroutines registering and dispatching, in any
interleaving, as long as no matcher is registered again while a dispatch that found a
disposable entry under it is under way.  A disposable entry is selected at most once, and
until then it stays registered; a permanent entry stays registered for ever.  Missing:
matchers registered again at such a moment (`once_false`). -/
theorem once_partial (env : Nat → MatchFn) (reqs : Nat → Request) (s : MuxSys) (h : CalmReach env reqs s) (m : Matcher)
    (e : MuxEntry) (hr : .registered m e ∈ s.log) :
    (e.once = true → timesSelected s.log e ≤ 1 ∧ (timesSelected s.log e = 0 ↔ (m, e) ∈ s.hs)) ∧
    (e.once = false → (m, e) ∈ s.hs) := by
  have inv := once_inv env reqs s h
  refine ⟨fun ho => ?_, fun ho => inv.perm m e hr ho⟩
  rcases inv.once m e hr ho with ⟨h1, h2⟩ | ⟨h1, h2⟩
  · exact ⟨by omega, by simp [h1, h2]⟩
  · exact ⟨by omega, by simp [h1, h2]⟩

/-- The matchers registered so far. -/
def registeredMatchers (log : List MuxEvent) : List Matcher :=
  log.filterMap (fun ev => match ev with | .registered m _ => some m | _ => none)

/-- When every matcher is registered at most once, no condition on the interleaving is left. -/
theorem calm_of_distinct {env : Nat → MatchFn} {reqs : Nat → Request} {s : MuxSys} (h : MuxSys.Reach env reqs s)
    (hd : (registeredMatchers s.log).Nodup) : CalmReach env reqs s := by
  induction h with
  | init => exact .init
  | @tail s s' _ st ih =>
    have hsub : (registeredMatchers s.log).Sublist (registeredMatchers s'.log) := by
      cases st <;> simp [registeredMatchers, List.filterMap_append]
    have hc := ih (hd.sublist hsub)
    refine .tail hc st ?_
    intro m e hlog i e' hi
    have hreg := ((once_inv env reqs s hc).pend i m e' hi).2.1
    rw [hlog] at hd
    simp only [registeredMatchers, List.filterMap_append, List.filterMap_cons, List.filterMap_nil] at hd
    rw [List.nodup_append] at hd
    refine hd.2.2 m ?_ m (by simp) rfl
    rw [List.mem_filterMap]
    exact ⟨_, hreg, rfl⟩

/-- C14.  In particular whenever every matcher is registered at most once, for example
matchers made by `TransactionMatcher`, `MultiMatcher` or `NewCookieMatcher`, each call of
which returns a new one: no condition on the interleaving is left. -/
theorem once_distinct_partial (env : Nat → MatchFn) (reqs : Nat → Request) (s : MuxSys) (h : MuxSys.Reach env reqs s)
    (hd : (registeredMatchers s.log).Nodup) (m : Matcher) (e : MuxEntry)
    (hr : .registered m e ∈ s.log) :
    (e.once = true → timesSelected s.log e ≤ 1 ∧ (timesSelected s.log e = 0 ↔ (m, e) ∈ s.hs)) ∧
    (e.once = false → (m, e) ∈ s.hs) :=
  once_partial env reqs s (calm_of_distinct h hd) m e hr

/-- What an event says about the requests and the registrations before it. -/
def EventOk (env : Nat → MatchFn) (reqs : Nat → Request) (pre : List MuxEvent) : MuxEvent → Prop
  | .registered m _ => ∀ e, .registered m e ∈ pre → e.once = true ∧ timesSelected pre e = 1
  | .selected i e => (∃ m, .registered m e ∈ pre ∧ Accepts env m (reqs i)) ∧
      (e.once = true → timesSelected pre e = 0)
  | .default i => ∀ m e, .registered m e ∈ pre → e.once = false ∨ timesSelected pre e = 0 →
      ¬ Accepts env m (reqs i)
  | .lost i e => e.once = true ∧ timesSelected pre e = 1 ∧
      ∃ m, .registered m e ∈ pre ∧ Accepts env m (reqs i)

private theorem search_found {env : Nat → MatchFn} (he : PureMatchers env) {hs : MuxMap} {r r' : Request}
    {m : Matcher} {e : MuxEntry} (h : hs.search env r = (some (m, e), r')) : Accepts env m r := by
  rcases search_pure he hs r with ⟨m', e', _, h2, h3⟩ | ⟨_, h2⟩
  · rw [h3] at h; simp only [Prod.mk.injEq, Option.some.injEq] at h
    rw [← h.1.1]; exact h2
  · rw [h2] at h; simp at h

private theorem pend_accepts {env : Nat → MatchFn} (he : PureMatchers env) (reqs : Nat → Request)
    (s : MuxSys) (h : CalmReach env reqs s) (i : Nat) (m : Matcher) (e : MuxEntry)
    (hi : s.pend i = some (m, e)) : Accepts env m (reqs i) := by
  induction h generalizing i m e with
  | init => simp [MuxSys.init] at hi
  | @tail s s' _ st _ ih =>
    cases st with
    | register m' h once hs' hok => exact ih i m e hi
    | miss j order r' hj hp hf => exact ih i m e hi
    | found j order r' m' e' hj hp hf ho => exact ih i m e hi
    | foundOnce j order r' m' e' hj hp hf ho =>
      simp only at hi
      split at hi
      · rename_i hij
        subst hij
        simp only [Option.some.injEq, Prod.mk.injEq] at hi
        obtain ⟨rfl, rfl⟩ := hi
        exact search_found he hf
      · exact ih i m e hi
    | take j m' e' hj =>
      simp only at hi
      split at hi
      · simp at hi
      · exact ih i m e hi

/-- C13, C14, concurrently.  Any number of goroutines registering and dispatching in any
interleaving (in which no matcher is registered again while a dispatch holds its disposable
entry): a request gets a handler registered before under a matcher that accepts it, and a
disposable one only if nobody got it before; it gets the default handler only if no matcher
of a permanent or unused disposable registration accepts it; it is discarded only if the
disposable handler whose matcher accepts it was given to another request.  A second
registration under the same matcher succeeds only when the first was disposable and used. -/
theorem mux_concurrent_partial (env : Nat → MatchFn) (he : PureMatchers env) (reqs : Nat → Request)
    (s : MuxSys) (h : CalmReach env reqs s) (pre post : List MuxEvent) (ev : MuxEvent)
    (hl : s.log = pre ++ ev :: post) : EventOk env reqs pre ev := by
  induction h generalizing post with
  | init => simp [MuxSys.init] at hl
  | @tail s s' h st hcalm ih =>
    have inv := once_inv env reqs s h
    -- the last event is new, the others are there before the step
    have split : ∀ x, s'.log = s.log ++ [x] → (EventOk env reqs s.log x) → EventOk env reqs pre ev := by
      intro x hx hok
      rw [hx] at hl
      rcases List.eq_nil_or_concat post with rfl | ⟨p, y, rfl⟩
      · obtain ⟨h1, h2⟩ := List.append_inj' hl rfl
        simp only [List.cons.injEq, and_true] at h2
        rw [← h1, ← h2]; exact hok
      · rw [List.concat_eq_append, ← List.cons_append, ← List.append_assoc] at hl
        exact ih p (List.append_inj' hl rfl).1
    cases st with
    | register m h once hs' hok =>
      refine split _ rfl ?_
      obtain ⟨hn, rfl⟩ := MuxMap.handle_ok hok
      intro e hm
      have hnot : ∀ e, (m, e) ∉ s.hs := fun e h => hn (MuxMap.mem_keys.2 ⟨e, h⟩)
      cases ho : e.once with
      | false => exact absurd (inv.perm m e hm ho) (hnot e)
      | true =>
        rcases inv.once m e hm ho with ⟨h1, _⟩ | ⟨_, h2⟩
        · exact absurd h1 (hnot e)
        · exact ⟨rfl, h2⟩
    | miss i order r' hi hp hf =>
      refine split _ rfl ?_
      intro m e hm hlive
      have hmem : (m, e) ∈ s.hs := by
        cases ho : e.once with
        | false => exact inv.perm m e hm ho
        | true =>
          rcases inv.once m e hm ho with ⟨h1, _⟩ | ⟨_, h2⟩
          · exact h1
          · rw [ho, h2] at hlive; simp at hlive
      rcases search_pure he order (reqs i) with ⟨m', e', _, _, h3⟩ | ⟨h1, _⟩
      · rw [h3] at hf; simp at hf
      · exact h1 (m, e) (hp.mem_iff.2 hmem)
    | found i order r' m e hi hp hf ho =>
      refine split _ rfl ⟨⟨m, inv.reg _ _ (hp.mem_iff.mp (MuxMap.search_some hf).1), search_found he hf⟩, ?_⟩
      rw [ho]; simp
    | foundOnce i order r' m e hi hp hf ho => exact ih post hl
    | take i m e hi =>
      obtain ⟨p1, p2, p3⟩ := inv.pend i m e hi
      have ha := pend_accepts he reqs s h i m e hi
      refine split _ rfl ?_
      by_cases hk : m ∈ s.hs.keys
      · rw [if_pos ((MuxMap.take_iff ..).mpr hk)]
        refine ⟨⟨m, p2, ha⟩, fun _ => ?_⟩
        rcases inv.once m e p2 p1 with ⟨_, h2⟩ | ⟨h1, _⟩
        · exact h2
        · exact absurd (p3.resolve_right fun h => h hk) h1
      · rw [if_neg (mt (MuxMap.take_iff ..).mp hk)]
        refine ⟨p1, ?_, m, p2, ha⟩
        rcases inv.once m e p2 p1 with ⟨h1, _⟩ | ⟨_, h2⟩
        · exact absurd (MuxMap.mem_keys.2 ⟨e, h1⟩) hk
        · exact h2

/-- Non-vacuity: all four kinds of events in one execution. -/
example : ∃ (env : Nat → MatchFn) (reqs : Nat → Request) (s : MuxSys), PureMatchers env ∧
    CalmReach env reqs s ∧ s.log = [.registered (.typ 3) ⟨.user 1, true, 0⟩, .default 7,
      .selected 0 ⟨.user 1, true, 0⟩, .lost 1 ⟨.user 1, true, 0⟩] := by
  let m : Matcher := .typ 3
  let e : MuxEntry := ⟨.user 1, true, 0⟩
  let r : Nat → Request := fun i => { Request.zero with header := ⟨4, if i = 7 then 8 else 3, 8, 0⟩ }
  refine ⟨fun _ r => (true, r), r, _, fun _ _ => rfl, .tail (.tail (.tail (.tail (.tail (.tail .init
    (.register _ m (.user 1) true [(m, e)] rfl) ?_)
    (.miss _ 7 [(m, e)] (r 7) rfl (.refl _) rfl) ?_)
    (.foundOnce _ 0 [(m, e)] (r 0) m e rfl (.refl _) rfl rfl) ?_)
    (.foundOnce _ 1 [(m, e)] (r 1) m e rfl (.refl _) rfl rfl) ?_)
    (.take _ 0 m e rfl) ?_)
    (.take _ 1 m e rfl) ?_, ?_⟩
  all_goals first | rfl | simp [MuxSys.init]
  all_goals intro _ _ h; split at h <;> simp at h

/-- C13, C14.  Dispatching never gets stuck.  A goroutine that is not dispatching can run its
search, in any order of the entries, and then its request has gone to the default handler or to
an entry, or it holds the disposable entry it found; a goroutine that holds one can run its
second section, which ends with the entry or with nothing. -/
theorem mux_progress (env : Nat → MatchFn) (reqs : Nat → Request) (s : MuxSys) (i : Nat) :
    (s.pend i = none → ∀ order, List.Perm order s.hs → ∃ t, MuxSys.Step env reqs s t ∧
      ((∃ ev, t.log = s.log ++ [ev] ∧ t.pend i = none ∧ t.hs = s.hs ∧
          (ev = .default i ∨ ∃ m e, (m, e) ∈ s.hs ∧ e.once = false ∧ ev = .selected i e)) ∨
        (t.log = s.log ∧ ∃ m e, (m, e) ∈ s.hs ∧ e.once = true ∧ t.pend i = some (m, e)))) ∧
    (∀ m e, s.pend i = some (m, e) → ∃ t, MuxSys.Step env reqs s t ∧ t.pend i = none ∧
      (t.log = s.log ++ [.selected i e] ∨ t.log = s.log ++ [.lost i e])) := by
  refine ⟨fun hi order hp => ?_, fun m e hi => ?_⟩
  · rcases hf : MuxMap.search env order (reqs i) with ⟨_ | ⟨m, e⟩, r'⟩
    · exact ⟨_, .miss s i order r' hi hp hf, .inl ⟨_, rfl, hi, rfl, .inl rfl⟩⟩
    · have hm := hp.mem_iff.mp (MuxMap.search_some hf).1
      cases ho : e.once with
      | false => exact ⟨_, .found s i order r' m e hi hp hf ho,
          .inl ⟨_, rfl, hi, rfl, .inr ⟨m, e, hm, ho, rfl⟩⟩⟩
      | true => exact ⟨_, .foundOnce s i order r' m e hi hp hf ho,
          .inr ⟨rfl, m, e, hm, ho, by simp⟩⟩
  · refine ⟨_, .take s i m e hi, by simp, ?_⟩
    by_cases hk : m ∈ s.hs.keys
    · exact .inl (by simp [hk])
    · exact .inr (by simp [hk])

/-- C14 is false: two dispatches find the same disposable entry; after the first has taken
it, a new handler is registered under the same matcher; the second dispatch then removes the
new entry and runs the old handler again.  The old handler is selected twice, the new one is
gone without ever having been selected. -/
theorem once_false (env : Nat → MatchFn) : ∃ (reqs : Nat → Request) (s : MuxSys) (m : Matcher) (e e' : MuxEntry),
    MuxSys.Reach env reqs s ∧ e ≠ e' ∧ e.once = true ∧ e'.once = true ∧
    .registered m e ∈ s.log ∧ .registered m e' ∈ s.log ∧
    timesSelected s.log e = 2 ∧ timesSelected s.log e' = 0 ∧ (m, e') ∉ s.hs := by
  let m : Matcher := .typ 3
  let e : MuxEntry := ⟨.user 1, true, 0⟩
  let e' : MuxEntry := ⟨.user 2, true, 1⟩
  let r : Request := { Request.zero with header := ⟨4, 3, 8, 0⟩ }
  refine ⟨fun _ => r, _, m, e, e', .tail (.tail (.tail (.tail (.tail (.tail .init
    (.register _ m (.user 1) true [(m, e)] rfl))
    (.foundOnce _ 0 [(m, e)] r m e rfl (.refl _) rfl rfl))
    (.foundOnce _ 1 [(m, e)] r m e rfl (.refl _) rfl rfl))
    (.take _ 0 m e rfl))
    (.register _ m (.user 2) true [(m, e')] rfl))
    (.take _ 1 m e rfl), ?_⟩
  decide +kernel

/-- Non-vacuity of the partial theorems: a disposable entry that has been selected. -/
example (env : Nat → MatchFn) : ∃ reqs s, MuxSys.Reach env reqs s ∧ (registeredMatchers s.log).Nodup ∧
    timesSelected s.log ⟨.user 1, true, 0⟩ = 1 ∧ s.hs = [] := by
  let m : Matcher := .typ 3
  let e : MuxEntry := ⟨.user 1, true, 0⟩
  let r : Request := { Request.zero with header := ⟨4, 3, 8, 0⟩ }
  refine ⟨fun _ => r, _, .tail (.tail (.tail .init
    (.register _ m (.user 1) true [(m, e)] rfl))
    (.foundOnce _ 0 [(m, e)] r m e rfl (.refl _) rfl rfl))
    (.take _ 0 m e rfl), ?_⟩
  decide +kernel

/-! ## C15 -/

/-- C15.  A nil matcher, a nil handler (interface values) or a matcher that is registered
already: a panic, and the set of registered handlers is unchanged. -/
theorem mux_guard (hs : MuxMap) (m : Option Matcher) (h : Option Handler) (once : Bool) (id : Nat)
    (hbad : m = none ∨ h = none ∨ ∃ k e, m = some k ∧ (k, e) ∈ hs) :
    (hs.handle m h once id).1 ≠ none ∧ (hs.handle m h once id).2 = hs := by
  cases m with
  | none => simp [MuxMap.handle]
  | some k =>
    cases h with
    | none => simp [MuxMap.handle]
    | some h =>
      have : k ∈ hs.keys := by
        rcases hbad with h | h | ⟨k', e, h1, h2⟩
        · simp at h
        · simp at h
        · cases h1; exact MuxMap.mem_keys.mpr ⟨e, h2⟩
      simp [MuxMap.handle, this]

/-- C15.  Every other registration succeeds and adds exactly that entry. -/
theorem mux_register (hs : MuxMap) (k : Matcher) (h : Handler) (once : Bool) (id : Nat)
    (hgood : ∀ e, (k, e) ∉ hs) :
    (hs.handle (some k) (some h) once id).1 = none ∧
    ∀ k' e', (k', e') ∈ (hs.handle (some k) (some h) once id).2 ↔
      (k' = k ∧ e' = ⟨h, once, id⟩) ∨ (k', e') ∈ hs := by
  have : k ∉ hs.keys := fun hk => by
    obtain ⟨e, he⟩ := MuxMap.mem_keys.mp hk; exact hgood e he
  simp [MuxMap.handle, this]

/-- C15.  In every reachable state of a multiplexer no matcher is registered twice. -/
theorem mux_keys_distinct (env : Nat → MatchFn) (reqs : Nat → Request) (s : MuxSys) (h : MuxSys.Reach env reqs s)
    (m : Matcher) (e e' : MuxEntry) (h1 : (m, e) ∈ s.hs) (h2 : (m, e') ∈ s.hs) : e = e' := by
  have : s.hs.keys.Nodup := by
    clear h1 h2
    induction h with
    | init => simp [MuxSys.init, MuxMap.keys]
    | @tail s s' _ st ih =>
      cases st with
      | register m h once hs' hok =>
        obtain ⟨hn, rfl⟩ := MuxMap.handle_ok hok
        simpa [MuxMap.keys] using ⟨by simpa [MuxMap.keys] using hn, ih⟩
      | miss => exact ih
      | found => exact ih
      | foundOnce => exact ih
      | take i m e hi =>
        simp only [MuxMap.take]
        split
        · exact MuxMap.nodup_delete ih m
        · exact ih
  exact MuxMap.unique this h1 h2

/-- C15 does not hold for `HandleFunc`: a nil function is accepted, since the interface value
made from it is not nil; the program crashes when a request is dispatched to it. -/
theorem mux_handleFunc_nil_false (hs : MuxMap) (k : Matcher) (id : Nat) (hgood : ∀ e, (k, e) ∉ hs) :
    (hs.handleFunc (some k) none id).1 = none ∧
    (k, ⟨.nilFunc, false, id⟩) ∈ (hs.handleFunc (some k) none id).2 := by
  have : k ∉ hs.keys := fun hk => by
    obtain ⟨e, he⟩ := MuxMap.mem_keys.mp hk; exact hgood e he
  simp [MuxMap.handleFunc, MuxMap.handle, this]

/-- Non-vacuity. -/
example : (MuxMap.handle [(.typ 1, ⟨.user 1, false, 0⟩)] (some (.typ 1)) (some (.user 2)) false 1).1 =
    some .duplicate ∧
    (MuxMap.handle [(.typ 1, ⟨.user 1, false, 0⟩)] (some (.typ 2)) (some (.user 2)) false 1).1 = none :=
  ⟨rfl, rfl⟩

/-! ## C16 -/

/-- The states of a `TypeMux`: registrations (also failing ones) and dispatches, with any
iteration order. -/
inductive TypeMuxReach (env : Nat → MatchFn) (dflt : Handler) : MuxMap → Prop where
  | new : TypeMuxReach env dflt []
  | handle {hs : MuxMap} (t h once id) (hr : TypeMuxReach env dflt hs) :
    TypeMuxReach env dflt (hs.handleType t h once id).2
  | dispatch {hs : MuxMap} (order : MuxMap) (r) (hp : List.Perm order hs)
    (hr : TypeMuxReach env dflt hs) :
    TypeMuxReach env dflt (hs.handler env dflt order r).2.1

private theorem typeMux_inv {env : Nat → MatchFn} {dflt : Handler} {hs : MuxMap}
    (h : TypeMuxReach env dflt hs) : hs.keys.Nodup ∧ ∀ p ∈ hs, ∃ t, p.1 = .typ t := by
  induction h with
  | new => simp [MuxMap.keys]
  | @handle hs t h once id _ ih =>
    simp only [MuxMap.handleType, MuxMap.handle]
    cases h with
    | none => exact ih
    | some h =>
      simp only
      split
      · exact ih
      · rename_i hn
        refine ⟨by simpa [MuxMap.keys] using ⟨by simpa [MuxMap.keys] using hn, ih.1⟩, ?_⟩
        intro p hp
        simp only [List.mem_cons] at hp
        rcases hp with rfl | hp
        · exact ⟨t, rfl⟩
        · exact ih.2 p hp
  | @dispatch hs order r hp _ ih =>
    unfold MuxMap.handler
    split
    · exact ih
    · rename_i m e r' _
      by_cases ho : e.once = true
      · simp only [ho, if_true, MuxMap.take]
        split
        · refine ⟨MuxMap.nodup_delete ih.1 _, fun p hp => ih.2 p ?_⟩
          simp only [MuxMap.delete, List.mem_filter] at hp
          exact hp.1
        · exact ih
      · simp only [ho]; exact ih

/-- C16.  A `TypeMux` contains only matchers for types. -/
theorem typeMux_types {env : Nat → MatchFn} {dflt : Handler} {hs : MuxMap} (h : TypeMuxReach env dflt hs) :
    ∀ p ∈ hs, ∃ t, p.1 = .typ t := (typeMux_inv h).2

theorem typeMux_search (env : Nat → MatchFn) (order : MuxMap)
    (ht : ∀ p ∈ order, ∃ t, p.1 = .typ t) (hn : order.keys.Nodup) (r : Request) :
    (∃ e, (.typ r.header.type, e) ∈ order ∧
      order.search env r = (some (.typ r.header.type, e), r)) ∨
    (.typ r.header.type ∉ order.keys ∧ order.search env r = (none, r)) := by
  induction order with
  | nil => exact .inr ⟨by simp [MuxMap.keys], rfl⟩
  | cons a t ih =>
    obtain ⟨m, e⟩ := a
    obtain ⟨ty, hty⟩ := ht (m, e) (by simp)
    simp only at hty
    subst hty
    simp only [MuxMap.keys, List.map_cons, List.nodup_cons] at hn
    by_cases hr : r.header.type = ty
    · left
      refine ⟨e, by simp [hr], ?_⟩
      simp [MuxMap.search, Matcher.run, typeMatch, hr]
    · have hs : MuxMap.search env ((.typ ty, e) :: t) r = MuxMap.search env t r := by
        have hb : (r.header.type == ty) = false := by simp [hr]
        simp only [MuxMap.search, Matcher.run, typeMatch, hb]
      rw [hs]
      rcases ih (fun p hp => ht p (by simp [hp])) hn.2 with ⟨e', h1, h2⟩ | ⟨h1, h2⟩
      · exact .inl ⟨e', by simp [h1], h2⟩
      · exact .inr ⟨by simpa [MuxMap.keys, hr] using h1, h2⟩

/-- C16.  In every state of a `TypeMux` and for every iteration order of its map: a request
of type `t` gets the handler registered for `t`; if there is none, the default handler. -/
theorem typeMux_route (env : Nat → MatchFn) (dflt : Handler) (hs order : MuxMap)
    (h : TypeMuxReach env dflt hs) (hp : order.Perm hs) (r : Request) :
    (∀ e, (.typ r.header.type, e) ∈ hs → (hs.handler env dflt order r).1 = e.handler) ∧
    ((∀ e, (.typ r.header.type, e) ∉ hs) → (hs.handler env dflt order r).1 = dflt) := by
  obtain ⟨hn, ht⟩ := typeMux_inv h
  have hn' : order.keys.Nodup := (List.Perm.map Prod.fst hp).nodup_iff.mpr hn
  rcases typeMux_search env order (fun p hp' => ht p (hp.mem_iff.mp hp')) hn' r with
    ⟨e', h1, h2⟩ | ⟨h1, h2⟩
  · have hm := hp.mem_iff.mp h1
    have hk : (Matcher.typ r.header.type) ∈ hs.keys := MuxMap.mem_keys.mpr ⟨e', hm⟩
    have hres : (hs.handler env dflt order r).1 = e'.handler := by
      simp only [MuxMap.handler, h2]
      cases ho : e'.once <;> simp [MuxMap.take, hk]
    exact ⟨fun e he => by rw [hres, MuxMap.unique hn hm he], fun hno => absurd hm (hno e')⟩
  · refine ⟨fun e he => absurd (MuxMap.mem_keys.mpr ⟨e, hp.mem_iff.mpr he⟩) h1, fun _ => ?_⟩
    simp [MuxMap.handler, h2]

/-- C16.  Registering handlers for distinct types in any order gives the same routing. -/
theorem typeMux_order (env : Nat → MatchFn) (dflt : Handler) (hs hs' : MuxMap)
    (h : TypeMuxReach env dflt hs) (h' : TypeMuxReach env dflt hs')
    (hsame : ∀ t e, (.typ t, e) ∈ hs ↔ (.typ t, e) ∈ hs') (order order' : MuxMap)
    (hp : order.Perm hs) (hp' : order'.Perm hs') (r : Request) :
    (hs.handler env dflt order r).1 = (hs'.handler env dflt order' r).1 := by
  obtain ⟨a1, a2⟩ := typeMux_route env dflt hs order h hp r
  obtain ⟨b1, b2⟩ := typeMux_route env dflt hs' order' h' hp' r
  by_cases hx : ∃ e, (.typ r.header.type, e) ∈ hs
  · obtain ⟨e, he⟩ := hx
    rw [a1 e he, b1 e ((hsame _ _).mp he)]
  · have hx' : ∀ e, (.typ r.header.type, e) ∉ hs := fun e he => hx ⟨e, he⟩
    rw [a2 hx', b2 (fun e he => hx' e ((hsame _ _).mpr he))]

/-- Non-vacuity. -/
example : TypeMuxReach (fun _ r => (false, r)) .discard
    [(.typ 2, ⟨.user 2, false, 1⟩), (.typ 1, ⟨.user 1, true, 0⟩)] :=
  .handle 2 (some (.user 2)) false 1 (.handle 1 (some (.user 1)) true 0 .new)

/-- C14, C16.  What `Handle` and `HandleOnce` of a `TypeMux` do for a type without a handler, in every
state and for every iteration order: a request of the type gets the new handler; after `Handle` the
registration stays, after `HandleOnce` it is gone, and the next request of the type gets the default
handler.  Registrations for other types are not affected. -/
theorem typeMux_handle (env : Nat → MatchFn) (dflt : Handler) (hs : MuxMap) (h : TypeMuxReach env dflt hs)
    (t : UInt8) (hnew : ∀ e, (.typ t, e) ∉ hs) (k : Handler) (once : Bool) (id : Nat)
    (order : MuxMap) (hp : order.Perm (hs.handleType t (some k) once id).2) (r : Request)
    (hr : r.header.type = t) :
    (hs.handleType t (some k) once id).1 = none ∧
    ((hs.handleType t (some k) once id).2.handler env dflt order r).1 = k ∧
    (∀ order' r', order'.Perm ((hs.handleType t (some k) once id).2.handler env dflt order r).2.1 →
      r'.header.type = t →
      (((hs.handleType t (some k) once id).2.handler env dflt order r).2.1.handler env dflt order' r').1 =
        if once then dflt else k) ∧
    (∀ u e, u ≠ t → ((.typ u, e) ∈ ((hs.handleType t (some k) once id).2.handler env dflt order r).2.1 ↔
      (.typ u, e) ∈ hs)) := by
  have hk : Matcher.typ t ∉ hs.keys := fun hm => by
    obtain ⟨e, he⟩ := MuxMap.mem_keys.mp hm
    exact hnew e he
  have e1 : hs.handleType t (some k) once id = (none, (.typ t, ⟨k, once, id⟩) :: hs) := by
    simp [MuxMap.handleType, MuxMap.handle, hk]
  have hreach : TypeMuxReach env dflt ((.typ t, ⟨k, once, id⟩) :: hs) := by
    have := TypeMuxReach.handle t (some k) once id h
    rwa [e1] at this
  rw [e1] at hp ⊢
  have hroute := (typeMux_route env dflt _ order hreach hp r).1 ⟨k, once, id⟩ (by simp [hr])
  have hreach' := TypeMuxReach.dispatch order r hp hreach
  obtain ⟨hn, ht⟩ := typeMux_inv hreach
  have hn' : order.keys.Nodup := (List.Perm.map Prod.fst hp).nodup_iff.mpr hn
  have hmap : (MuxMap.handler env dflt ((.typ t, ⟨k, once, id⟩) :: hs) order r).2.1 =
      if once then hs else (.typ t, ⟨k, once, id⟩) :: hs := by
    rcases typeMux_search env order (fun p hp' => ht p (hp.mem_iff.mp hp')) hn' r with
      ⟨e', h1, h2⟩ | ⟨h1, _⟩
    · have hm := hp.mem_iff.mp h1
      have he : e' = ⟨k, once, id⟩ := MuxMap.unique hn hm (by simp [hr])
      subst he
      have hdel : hs.delete (.typ t) = hs := by
        refine List.filter_eq_self.mpr fun p hp' => ?_
        have : p.1 ≠ .typ t := fun he => hnew p.2 (by rw [← he]; exact hp')
        simp [this]
      cases once
      · simp [MuxMap.handler, h2]
      · simp only [MuxMap.handler, h2, if_true, MuxMap.take, hr]
        rw [if_pos (by simp [MuxMap.keys])]
        simp only
        rw [← hdel]
        simp [MuxMap.delete]
    · exact absurd (MuxMap.mem_keys.mpr ⟨⟨k, once, id⟩, hp.mem_iff.mpr (by simp [hr])⟩) h1
  refine ⟨rfl, hroute, fun order' r' hp' hr' => ?_, fun u e hu => ?_⟩
  · have hx := typeMux_route env dflt _ order' hreach' hp' r'
    rw [hmap, hr'] at hx
    rw [hmap]
    cases once
    · exact hx.1 ⟨k, false, id⟩ (by simp)
    · exact hx.2 (by simpa using hnew)
  · rw [hmap]
    cases once <;> simp [hu]

/-- Non-vacuity: a handler for one message of type 2 beside one for type 1. -/
example : TypeMuxReach (fun _ r => (false, r)) .discard [(.typ 1, ⟨.user 1, false, 0⟩)] ∧
    (∀ e, (Matcher.typ 2, e) ∉ [(Matcher.typ 1, (⟨.user 1, false, 0⟩ : MuxEntry))]) :=
  ⟨.handle 1 (some (.user 1)) false 0 .new, by simp⟩

/-! ## C17 -/

/-- C17.  `MultiMatcher` over matchers that only look at the request: it matches iff all of
them do (in particular always, for an empty list). -/
theorem multiMatcher_all_partial (ms : List MatchFn) (hp : ∀ m ∈ ms, ∀ r, (m r).2 = r) (r : Request) :
    (multiMatch ms r).1 = true ↔ ∀ m ∈ ms, (m r).1 = true := by
  induction ms with
  | nil => simp [multiMatch]
  | cons m t ih =>
    have h1 := hp m (by simp) r
    have h2 := ih (fun x hx => hp x (by simp [hx]))
    simp only [multiMatch]
    rcases hm : m r with ⟨b, r'⟩
    rw [hm] at h1
    simp only at h1
    subst h1
    cases b <;> simp [hm, h2]

/-- C17.  Matchers are asked in order, and none after the first rejection: whatever comes
after `m` has no influence, neither on the result nor on the request. -/
theorem multiMatcher_stops (pre post post' : List MatchFn) (m : MatchFn) (r r' r'' : Request)
    (hpre : multiMatch pre r = (true, r')) (hm : m r' = (false, r'')) :
    multiMatch (pre ++ m :: post) r = (false, r'') ∧
    multiMatch (pre ++ m :: post') r = multiMatch (pre ++ m :: post) r := by
  have key : ∀ post, multiMatch (pre ++ m :: post) r = (false, r'') := by
    intro post
    induction pre generalizing r with
    | nil =>
      simp only [multiMatch, Prod.mk.injEq, true_and] at hpre
      subst hpre
      simp [multiMatch, hm]
    | cons a t ih =>
      simp only [List.cons_append, multiMatch] at hpre ⊢
      rcases ha : a r with ⟨b, ra⟩
      rw [ha] at hpre
      cases b with
      | false => simp at hpre
      | true => exact ih ra hpre
  exact ⟨key post, by rw [key post', key post]⟩

/-- C17.  `TypeMatcher` matches iff the type is equal, and leaves the request alone. -/
theorem typeMatcher_iff (env : Nat → MatchFn) (t : UInt8) (r : Request) :
    ((Matcher.typ t).run env r).1 = true ↔ r.header.type = t := by
  simp [Matcher.run, typeMatch]

/-- C17.  `TransactionMatcher`: a non-zero id is kept, otherwise the header gets the random
one; the rest of the header is unchanged; the matcher accepts exactly the requests with the
id that is in the header afterwards, and leaves them alone. -/
theorem transactionMatcher_iff (rnd : UInt32) (h : Header) :
    (h.transaction ≠ 0 → (transactionMatcher rnd h).1 = h) ∧
    (h.transaction = 0 → (transactionMatcher rnd h).1 = ⟨h.version, h.type, h.length, rnd⟩) ∧
    ∀ r, ((transactionMatcher rnd h).2 r).2 = r ∧
      (((transactionMatcher rnd h).2 r).1 = true ↔
        r.header.transaction = (transactionMatcher rnd h).1.transaction) := by
  refine ⟨fun hz => by simp [transactionMatcher, hz], fun hz => by simp [transactionMatcher, hz],
    fun r => ⟨rfl, by simp [transactionMatcher]⟩⟩

/-- Non-vacuity. -/
example : (multiMatch [typeMatch 3, (transactionMatcher 7 ⟨0, 0, 0, 0⟩).2]
      { Request.zero with header := ⟨4, 3, 8, 7⟩ }).1 = true ∧
    (multiMatch [typeMatch 3, (transactionMatcher 7 ⟨0, 0, 0, 0⟩).2]
      { Request.zero with header := ⟨4, 3, 8, 8⟩ }).1 = false := ⟨rfl, rfl⟩

end Verif.Props
