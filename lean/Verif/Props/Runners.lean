import Verif.Runners
import Verif.Runner

/-!
# C86: what the other two runners guarantee
-/

namespace Verif.Props
open Verif

/-- What executing the functions of a list one after the other looks like, where a function
executes the functions it submits before it returns. -/
inductive OneByOne (prog : Nat → List Nat) : List Nat → List RunEv → Prop where
  | nil : OneByOne prog [] []
  | cons {f : Nat} {l : List Nat} {t u : List RunEv} (hf : OneByOne prog (prog f) t) (hl : OneByOne prog l u) :
    OneByOne prog (f :: l) (.start f :: t ++ .finish f :: u)

/-- What still has to happen in a goroutine. -/
private inductive Rest (prog : Nat → List Nat) (l : List Nat) : List (Nat × List Nat) → List RunEv → Prop where
  | base {u : List RunEv} (h : OneByOne prog l u) : Rest prog l [] u
  | frame {f : Nat} {k : List Nat} {st : List (Nat × List Nat)} {t u : List RunEv}
    (h : OneByOne prog k t) (hr : Rest prog l st u) : Rest prog l ((f, k) :: st) (t ++ .finish f :: u)

private theorem eventsOf_snoc (g : List SeqGo) (e : List (Nat × RunEv)) (i j : Nat) (x : RunEv) (g' : List SeqGo) :
    (SeqSys.mk g (e ++ [(j, x)])).eventsOf i =
      (SeqSys.mk g' e).eventsOf i ++ (if j = i then [x] else []) := by
  by_cases h : j = i <;> simp [SeqSys.eventsOf, List.filter_append, h]

private theorem seq_inv {prog : Nat → List Nat} {todo : List (List Nat)} {s : SeqSys}
    (h : SeqSys.Reach prog (.init todo) s) (i : Nat) :
    (∀ g, s.gos[i]? = some g → ∃ l, todo[i]? = some l ∧
      ∀ t, Rest prog g.todo g.stack t → OneByOne prog l (s.eventsOf i ++ t)) ∧
    s.gos.length = todo.length := by
  induction h with
  | refl =>
    refine ⟨?_, by simp [SeqSys.init]⟩
    intro g hg
    simp only [SeqSys.init, List.getElem?_map, Option.map_eq_some_iff] at hg
    obtain ⟨l, hl, rfl⟩ := hg
    refine ⟨l, hl, fun t ht => ?_⟩
    cases ht with
    | base h => simpa [SeqSys.eventsOf, SeqSys.init] using h
  | @tail s s' _ st ih =>
    obtain ⟨ih, hlen⟩ := ih
    have key : ∀ (j : Nat) (g₀ g₁ : SeqGo) (x : RunEv), s.gos[j]? = some g₀ →
        (∀ t, Rest prog g₁.todo g₁.stack t → Rest prog g₀.todo g₀.stack (x :: t)) →
        (∀ g, (s.gos.set j g₁)[i]? = some g → ∃ l, todo[i]? = some l ∧
          ∀ t, Rest prog g.todo g.stack t →
            OneByOne prog l ((SeqSys.mk (s.gos.set j g₁) (s.events ++ [(j, x)])).eventsOf i ++ t)) ∧
        (s.gos.set j g₁).length = todo.length := by
      intro j g₀ g₁ x hj hstep
      refine ⟨?_, by simpa using hlen⟩
      intro g hg
      rw [eventsOf_snoc _ _ _ _ _ s.gos]
      by_cases hji : j = i
      · subst hji
        obtain ⟨l, hl, h⟩ := ih g₀ hj
        have hjl : j < s.gos.length := by
          rcases Nat.lt_or_ge j s.gos.length with h | h
          · exact h
          · rw [List.getElem?_eq_none h] at hj; cases hj
        rw [List.getElem?_set_self hjl] at hg
        cases hg
        refine ⟨l, hl, fun t ht => ?_⟩
        simpa using h _ (hstep t ht)
      · rw [List.getElem?_set_ne hji] at hg
        obtain ⟨l, hl, h⟩ := ih g hg
        exact ⟨l, hl, fun t ht => by simpa [hji] using h t ht⟩
    cases st with
    | run j f l h =>
      refine key j _ _ _ h fun t ht => ?_
      cases ht with
      | frame h1 h2 =>
        cases h2 with
        | base h3 => exact .base (.cons h1 h3)
    | nested j l g f k st h =>
      refine key j _ _ _ h fun t ht => ?_
      cases ht with
      | frame h1 h2 =>
        cases h2 with
        | frame h3 h4 =>
          have := Rest.frame (f := g) (OneByOne.cons h1 h3) h4
          simpa using this
    | «return» j l f st h =>
      refine key j _ _ _ h fun t ht => ?_
      simpa using Rest.frame (f := f) (OneByOne.nil) ht

/-- C86.  `SequentialRunner`: a goroutine that has submitted all its functions and is back from
the last `Run` has executed them one after the other, each exactly once and in the order in which
they were submitted, and inside each of them those it submitted itself.  What the other goroutines do
makes no difference. -/
theorem sequential_one_by_one (prog : Nat → List Nat) (todo : List (List Nat)) (s : SeqSys)
    (h : SeqSys.Reach prog (.init todo) s) (i : Nat) (l : List Nat) (hl : todo[i]? = some l)
    (hd : s.gos[i]? = some ⟨[], []⟩) : OneByOne prog l (s.eventsOf i) := by
  obtain ⟨l', hl', hr⟩ := (seq_inv h i).1 _ hd
  rw [hl] at hl'
  cases hl'
  simpa using hr [] (.base .nil)

/-- Functions of finite depth can be executed. -/
private theorem oneByOne_exists {prog : Nat → List Nat} {w : Nat → Nat} (hw : ∀ f, ∀ g ∈ prog f, w g < w f) :
    ∀ (n : Nat) (l : List Nat), (∀ f ∈ l, w f < n) → ∃ t, OneByOne prog l t := by
  intro n
  induction n with
  | zero =>
    intro l hl
    cases l with
    | nil => exact ⟨_, .nil⟩
    | cons f l => exact absurd (hl f (by simp)) (by omega)
  | succ n ihn =>
    intro l
    induction l with
    | nil => exact fun _ => ⟨_, .nil⟩
    | cons f l ihl =>
      intro hl
      obtain ⟨u, hu⟩ := ihl (fun g hg => hl g (by simp [hg]))
      obtain ⟨t, ht⟩ := ihn (prog f) (fun g hg => by have := hw f g hg; have := hl f (by simp); omega)
      exact ⟨_, .cons ht hu⟩

private theorem oneByOne_finite {prog : Nat → List Nat} {w : Nat → Nat} (hw : ∀ f, ∀ g ∈ prog f, w g < w f)
    (l : List Nat) : ∃ t, OneByOne prog l t := by
  refine oneByOne_exists hw ((l.map w).sum + 1) l ?_
  intro f hf
  suffices w f ≤ (l.map w).sum by omega
  induction l with
  | nil => simp at hf
  | cons a l ih =>
    simp only [List.map_cons, List.sum_cons]
    rcases List.mem_cons.mp hf with rfl | hf
    · omega
    · have := ih hf; omega

private theorem rest_finite {prog : Nat → List Nat} {w : Nat → Nat} (hw : ∀ f, ∀ g ∈ prog f, w g < w f)
    (l : List Nat) (st : List (Nat × List Nat)) : ∃ t, Rest prog l st t := by
  induction st with
  | nil => obtain ⟨t, h⟩ := oneByOne_finite hw l; exact ⟨t, .base h⟩
  | cons a st ih =>
    obtain ⟨f, k⟩ := a
    obtain ⟨u, hu⟩ := ih
    obtain ⟨t, ht⟩ := oneByOne_finite hw k
    exact ⟨_, .frame ht hu⟩

/-- What executing functions one by one looks like is determined. -/
theorem oneByOne_unique {prog : Nat → List Nat} {l : List Nat} {t t' : List RunEv}
    (h : OneByOne prog l t) (h' : OneByOne prog l t') : t = t' := by
  induction h generalizing t' with
  | nil => cases h'; rfl
  | cons _ _ ih1 ih2 =>
    cases h' with
    | cons g1 g2 => rw [ih1 g1, ih2 g2]

/-- C86.  `SequentialRunner`, at any moment: what has happened in a goroutine is a beginning of
executing its functions one by one (functions submit functions to a finite depth). -/
theorem sequential_prefix (prog : Nat → List Nat) (w : Nat → Nat) (hw : ∀ f, ∀ g ∈ prog f, w g < w f)
    (todo : List (List Nat)) (s : SeqSys) (h : SeqSys.Reach prog (.init todo) s) (i : Nat) (l : List Nat)
    (hl : todo[i]? = some l) (t : List RunEv) (ht : OneByOne prog l t) : s.eventsOf i <+: t := by
  obtain ⟨hinv, hlen⟩ := seq_inv h i
  have hi : i < s.gos.length := by
    rcases Nat.lt_or_ge i todo.length with h | h
    · omega
    · rw [List.getElem?_eq_none h] at hl; cases hl
  obtain ⟨l', hl', hr⟩ := hinv _ (List.getElem?_eq_getElem hi)
  rw [hl] at hl'
  cases hl'
  obtain ⟨u, hu⟩ := rest_finite hw s.gos[i].todo s.gos[i].stack
  have := oneByOne_unique (hr u hu) ht
  exact ⟨u, this⟩

/-- The functions being executed, in any goroutine. -/
def SeqRunning (s : SeqSys) : List Nat := s.gos.flatMap (fun g => g.stack.map (·.1))

private theorem seq_flat {prog : Nat → List Nat} (hp : ∀ f, prog f = []) {todo : List (List Nat)} {s : SeqSys}
    (h : SeqSys.Reach prog (.init todo) s) :
    ∀ g ∈ s.gos, g.stack.length ≤ 1 ∧ ∀ p ∈ g.stack, p.2 = [] := by
  induction h with
  | refl => intro g hg; simp [SeqSys.init] at hg; obtain ⟨l, _, rfl⟩ := hg; simp
  | tail _ st ih =>
    intro g hg
    cases st with
    | run j f l h =>
      rcases List.mem_or_eq_of_mem_set hg with hg | rfl
      · exact ih g hg
      · simp [hp]
    | nested j l g' f k st h =>
      have := (ih _ (List.mem_of_getElem? h)).2 _ (by simp : (g', f :: k) ∈ (g', f :: k) :: st)
      simp at this
    | «return» j l f st h =>
      rcases List.mem_or_eq_of_mem_set hg with hg | rfl
      · exact ih g hg
      · have := ih _ (List.mem_of_getElem? h)
        simp only [List.length_cons] at this
        exact ⟨by simp only; omega, fun p hp => this.2 p (by simp [hp])⟩

private theorem seq_length {prog : Nat → List Nat} {todo : List (List Nat)} {s : SeqSys}
    (h : SeqSys.Reach prog (.init todo) s) : s.gos.length = todo.length := (seq_inv h 0).2

/-- C86, what holds of the documentation of `SequentialRunner` ("New function does not start
execution until the previous one is done", runner.go:25-26): functions submitted by one goroutine that
submit nothing themselves are executed one at a time.  Missing: the same for several goroutines, which
is false (`sequential_exclusive_false`). -/
theorem sequential_exclusive_partial (prog : Nat → List Nat) (hp : ∀ f, prog f = []) (l : List Nat) (s : SeqSys)
    (h : SeqSys.Reach prog (.init [l]) s) : (SeqRunning s).length ≤ 1 := by
  have h1 := seq_length h
  have h2 := seq_flat hp h
  obtain ⟨gos, ev⟩ := s
  cases gos with
  | nil => simp at h1
  | cons g gs =>
    cases gs with
    | cons _ _ => simp at h1
    | nil =>
      have := (h2 g (by simp)).1
      simpa [SeqRunning] using this

/-- C86, negation: `SequentialRunner` does not keep functions of different goroutines apart.  However
many goroutines submit a function to one runner, all of these can be running at the same time: with
such a `HandlerRunner`, handlers for different connections run concurrently. -/
theorem sequential_exclusive_false (fs : List Nat) (prog : Nat → List Nat) :
    ∃ s, SeqSys.Reach prog (.init (fs.map (fun f => [f]))) s ∧ SeqRunning s = fs := by
  suffices H : ∀ (post pre : List Nat) (ev : List (Nat × RunEv)),
      SeqSys.Reach prog (.init (fs.map (fun f => [f])))
        ⟨pre.map (fun f => ⟨[], [(f, prog f)]⟩) ++ post.map (fun f => ⟨[f], []⟩), ev⟩ →
      ∃ ev', SeqSys.Reach prog (.init (fs.map (fun f => [f])))
        ⟨(pre ++ post).map (fun f => ⟨[], [(f, prog f)]⟩), ev'⟩ by
    obtain ⟨ev, h⟩ := H fs [] [] (by simpa [SeqSys.init, Function.comp_def] using SeqSys.Reach.refl)
    refine ⟨_, h, ?_⟩
    simp [SeqRunning, List.flatMap_map]
  intro post
  induction post with
  | nil => intro pre ev h; exact ⟨ev, by simpa using h⟩
  | cons f post ih =>
    intro pre ev h
    have st := SeqSys.Step.run (prog := prog) ⟨pre.map (fun f => (⟨[], [(f, prog f)]⟩ : SeqGo)) ++
      (f :: post).map (fun f => ⟨[f], []⟩), ev⟩ pre.length f [] (by simp)
    have := ih (pre ++ [f]) _ (by simpa using h.tail st)
    simpa using this

/-- Everything has been submitted and has returned. -/
def SeqDone (s : SeqSys) : Prop := ∀ g ∈ s.gos, g = ⟨[], []⟩

/-- C86.  `SequentialRunner` never blocks: as long as something is left to do a goroutine can take a
step, whatever functions submit. -/
theorem sequential_progress (prog : Nat → List Nat) (s : SeqSys) (hd : ¬ SeqDone s) :
    ∃ s', SeqSys.Step prog s s' := by
  simp only [SeqDone, Classical.not_forall] at hd
  obtain ⟨g, hg, hne⟩ := hd
  obtain ⟨i, hi⟩ := List.mem_iff_getElem?.mp hg
  obtain ⟨l, st⟩ := g
  cases st with
  | nil =>
    cases l with
    | nil => exact absurd rfl hne
    | cons f l => exact ⟨_, .run s i f l hi⟩
  | cons a st =>
    obtain ⟨f, k⟩ := a
    cases k with
    | nil => exact ⟨_, .return s i l f st hi⟩
    | cons g k => exact ⟨_, .nested s i l f g k st hi⟩

/-- The work left, where `w f` is more than the work in what `f` submits. -/
private def seqWork (w : Nat → Nat) (s : SeqSys) : Nat :=
  (s.gos.map (fun g => 2 * (g.todo.map w).sum +
    (g.stack.map (fun p => 2 * (p.2.map w).sum + 1)).sum)).sum

private theorem sum_set {α : Type} (m : α → Nat) (x : α) : ∀ (l : List α) (i : Nat) (y : α), l[i]? = some y →
    ((l.set i x).map m).sum + m y = (l.map m).sum + m x := by
  intro l
  induction l with
  | nil => intro i y h; simp at h
  | cons a l ih =>
    intro i y h
    cases i with
    | zero => simp at h; subst h; simp; omega
    | succ i =>
      have := ih i y (by simpa using h)
      simp only [List.set_cons_succ, List.map_cons, List.sum_cons]; omega

/-- C86.  `SequentialRunner`: when functions submit functions to a finite depth, every execution ends. -/
theorem sequential_terminates (prog : Nat → List Nat) (w : Nat → Nat)
    (hw : ∀ f, ((prog f).map w).sum < w f) :
    WellFounded (fun s' s => SeqSys.Step prog s s') := by
  refine Subrelation.wf (r := InvImage (· < ·) (seqWork w)) ?_ (InvImage.wf _ Nat.lt_wfRel.wf)
  intro s' s st
  simp only [InvImage, seqWork]
  cases st with
  | run j f l h =>
    have := sum_set (fun g : SeqGo => 2 * (g.todo.map w).sum +
      (g.stack.map (fun p => 2 * (p.2.map w).sum + 1)).sum) ⟨l, [(f, prog f)]⟩ s.gos j _ h
    have := hw f
    simp at *
    omega
  | nested j l g f k st h =>
    have := sum_set (fun g : SeqGo => 2 * (g.todo.map w).sum +
      (g.stack.map (fun p => 2 * (p.2.map w).sum + 1)).sum) ⟨l, (f, prog f) :: (g, k) :: st⟩ s.gos j _ h
    have := hw f
    simp at *
    omega
  | «return» j l f st h =>
    have := sum_set (fun g : SeqGo => 2 * (g.todo.map w).sum +
      (g.stack.map (fun p => 2 * (p.2.map w).sum + 1)).sum) ⟨l, st⟩ s.gos j _ h
    simp at *
    omega

/-- A function that submits two others to the runner it runs on (3 submits 1 and 2), and the weights of
the theorems above. -/
private def treeProg : Nat → List Nat := fun f => if f = 3 then [1, 2] else []

example : ∀ f, ((treeProg f).map (fun f => if f = 3 then 3 else 1)).sum < (if f = 3 then 3 else 1) := by
  intro f; by_cases h : f = 3 <;> simp [treeProg, h]

example : OneByOne treeProg [3, 1]
    [.start 3, .start 1, .finish 1, .start 2, .finish 2, .finish 3, .start 1, .finish 1] := by
  have e : OneByOne treeProg [1] [.start 1, .finish 1] := .cons (t := []) .nil .nil
  have e2 : OneByOne treeProg [1, 2] [.start 1, .finish 1, .start 2, .finish 2] :=
    .cons (t := []) .nil (.cons (t := []) .nil .nil)
  exact .cons (f := 3) e2 e

/-- The runner that deadlocks on a function that submits functions (`runner_nested_stuck`) is the one with
workers: here the function is executed to the end. -/
example : ∃ s, SeqSys.Reach treeProg (.init [[3]]) s ∧ SeqDone s ∧
    s.eventsOf 0 = [.start 3, .start 1, .finish 1, .start 2, .finish 2, .finish 3] :=
  ⟨_, ((((((SeqSys.Reach.refl.tail (.run _ 0 3 [] rfl)).tail (.nested _ 0 [] 3 1 [2] [] rfl)).tail
    (.return _ 0 [] 1 [(3, [2])] rfl)).tail (.nested _ 0 [] 3 2 [] [] rfl)).tail
    (.return _ 0 [] 2 [(3, [])] rfl)).tail (.return _ 0 [] 3 [] rfl)),
    by intro g hg; simpa [SeqSys.init] using hg, rfl⟩

/-! ## `OnDemandRoutineRunner` -/

/-- The functions being executed. -/
def DemandRunning (s : DemandSys) : List Nat :=
  s.gos.filterMap (fun g => match g with | .live (some f) _ => some f | _ => none)

private def freshOf (gs : List DemandGo) : List Nat :=
  gs.filterMap (fun g => match g with | .fresh f => some f | _ => none)

private def liveOf (gs : List DemandGo) : List Nat :=
  gs.filterMap (fun g => match g with | .live (some f) _ => some f | _ => none)

private def todoOf (gs : List DemandGo) : List Nat :=
  gs.flatMap (fun g => match g with | .live _ l => l | _ => [])

private structure DemandInv (prog : Nat → List Nat) (todo : List (List Nat)) (s : DemandSys) : Prop where
  calls : s.submitted.Perm (s.called ++ freshOf s.gos)
  returns : s.called.Perm (s.returned ++ liveOf s.gos)
  source : (todo.flatten ++ s.called.flatMap prog).Perm (s.submitted ++ todoOf s.gos)

private theorem demand_inv {prog : Nat → List Nat} {todo : List (List Nat)} {s : DemandSys}
    (h : DemandSys.Reach prog (.init todo) s) : DemandInv prog todo s := by
  induction h with
  | refl =>
    refine ⟨?_, ?_, ?_⟩
    · simp [DemandSys.init, freshOf, List.filterMap_map, Function.comp_def]
    · simp [DemandSys.init, liveOf, List.filterMap_map, Function.comp_def]
    · simp [DemandSys.init, todoOf, List.flatMap_map, List.flatMap_id']
  | @tail s s' _ st ih =>
    obtain ⟨i1, i2, i3⟩ := ih
    cases st with
    | run a x f l b h =>
      rw [h] at i1 i2 i3
      refine ⟨?_, ?_, ?_⟩
      · simp only [freshOf, List.filterMap_append, List.filterMap_cons, List.filterMap_nil] at i1 ⊢
        simp only [← List.append_assoc] at i1 ⊢
        exact i1.append_right [f]
      · cases x <;>
          simpa [liveOf, List.filterMap_append, List.filterMap_cons, List.filterMap_nil] using i2
      · simp only [todoOf, List.flatMap_append, List.flatMap_cons, List.flatMap_nil, List.append_nil] at i3 ⊢
        refine i3.trans ?_
        rw [List.append_assoc]
        refine List.Perm.append_left _ ?_
        exact List.perm_middle
    | call a f b h =>
      rw [h] at i1 i2 i3
      refine ⟨?_, ?_, ?_⟩
      · simp only [freshOf, List.filterMap_append, List.filterMap_cons] at i1 ⊢
        refine i1.trans ?_
        rw [List.append_assoc]
        refine List.Perm.append_left _ ?_
        exact List.perm_middle
      · simp only [liveOf, List.filterMap_append, List.filterMap_cons] at i2 ⊢
        refine (i2.append_right [f]).trans ?_
        simp only [List.append_assoc]
        refine List.Perm.append_left _ (List.Perm.append_left _ ?_)
        exact List.perm_append_singleton _ _
      · simp only [todoOf, List.flatMap_append, List.flatMap_cons, List.flatMap_nil, List.append_nil,
          List.nil_append] at i3 ⊢
        rw [← List.append_assoc]
        refine (i3.append_right (prog f)).trans ?_
        simp only [List.append_assoc]
        refine List.Perm.append_left _ (List.Perm.append_left _ ?_)
        exact List.perm_append_comm
    | «return» a f b h =>
      rw [h] at i1 i2 i3
      refine ⟨?_, ?_, ?_⟩
      · simpa [freshOf, List.filterMap_append, List.filterMap_cons] using i1
      · simp only [liveOf, List.filterMap_append, List.filterMap_cons] at i2 ⊢
        refine i2.trans ?_
        rw [List.append_assoc]
        refine List.Perm.append_left _ ?_
        exact List.perm_middle
      · simpa [todoOf, List.flatMap_append, List.flatMap_cons] using i3

/-- C86.  `OnDemandRoutineRunner`, at any moment: every function has been called at most as often as it has
been submitted, and the calls are those that have returned and those being executed. -/
theorem demand_at_most_once (prog : Nat → List Nat) (todo : List (List Nat)) (s : DemandSys)
    (h : DemandSys.Reach prog (.init todo) s) (f : Nat) :
    s.called.count f ≤ s.submitted.count f ∧
    s.called.count f = s.returned.count f + (DemandRunning s).count f := by
  obtain ⟨i1, i2, _⟩ := demand_inv h
  have h1 := i1.count_eq f
  have h2 := i2.count_eq f
  rw [List.count_append] at h1 h2
  exact ⟨by omega, h2⟩

/-- Everything has been submitted and has returned: only the goroutines of the start are left. -/
def DemandDone (s : DemandSys) : Prop := ∀ g ∈ s.gos, g = .live none []

/-- C86.  `OnDemandRoutineRunner`: in the end every function has been executed once for every time it was
submitted, by the goroutines of the start or by a function. -/
theorem demand_exactly_once (prog : Nat → List Nat) (todo : List (List Nat)) (s : DemandSys)
    (h : DemandSys.Reach prog (.init todo) s) (hd : DemandDone s) :
    s.returned.Perm s.submitted ∧ s.submitted.Perm (todo.flatten ++ s.returned.flatMap prog) := by
  obtain ⟨i1, i2, i3⟩ := demand_inv h
  have h1 : freshOf s.gos = [] := by
    simp only [freshOf, List.filterMap_eq_nil_iff]
    intro g hg; rw [hd g hg]
  have h2 : liveOf s.gos = [] := by
    simp only [liveOf, List.filterMap_eq_nil_iff]
    intro g hg; rw [hd g hg]
  have h3 : todoOf s.gos = [] := by
    simp only [todoOf, List.flatMap_eq_nil_iff]
    intro g hg; rw [hd g hg]
  rw [h1, List.append_nil] at i1
  rw [h2, List.append_nil] at i2
  rw [h3, List.append_nil] at i3
  exact ⟨(i1.trans i2).symm, (i3.symm).trans (List.Perm.append_left _ (i2.flatMap_right prog))⟩

/-- C86.  `Run` of an `OnDemandRoutineRunner` never waits: a goroutine that is about to submit a function can
do so whatever the others do, and so can every other step be taken; there is no deadlock when functions submit
functions (as there is with workers, `runner_nested_stuck`). -/
theorem demand_never_waits (prog : Nat → List Nat) (s : DemandSys) :
    (∀ x f l, .live x (f :: l) ∈ s.gos → ∃ s', DemandSys.Step prog s s' ∧ .fresh f ∈ s'.gos ∧
      s'.submitted = s.submitted ++ [f]) ∧
    (¬ DemandDone s → ∃ s', DemandSys.Step prog s s') := by
  have hrun : ∀ x f l, .live x (f :: l) ∈ s.gos → ∃ s', DemandSys.Step prog s s' ∧ .fresh f ∈ s'.gos ∧
      s'.submitted = s.submitted ++ [f] := by
    intro x f l hm
    obtain ⟨a, b, hab⟩ := List.append_of_mem hm
    exact ⟨_, .run s a x f l b hab, by simp, rfl⟩
  refine ⟨hrun, fun hd => ?_⟩
  simp only [DemandDone, Classical.not_forall] at hd
  obtain ⟨g, hg, hne⟩ := hd
  obtain ⟨a, b, hab⟩ := List.append_of_mem hg
  cases g with
  | fresh f => exact ⟨_, .call s a f b hab⟩
  | live x l =>
    cases l with
    | cons f l => obtain ⟨s', h, _⟩ := hrun x f l hg; exact ⟨s', h⟩
    | nil =>
      cases x with
      | none => exact absurd rfl hne
      | some f => exact ⟨_, .return s a f b hab⟩

private def demandWork (w : Nat → Nat) (s : DemandSys) : Nat :=
  (s.gos.map (fun g => match g with
    | .fresh f => 3 * w f - 1
    | .live none l => 3 * (l.map w).sum
    | .live (some _) l => 3 * (l.map w).sum + 1)).sum

/-- C86.  `OnDemandRoutineRunner`: when functions submit functions to a finite depth, every execution ends. -/
theorem demand_terminates (prog : Nat → List Nat) (w : Nat → Nat) (hw : ∀ f, ((prog f).map w).sum < w f) :
    WellFounded (fun s' s => DemandSys.Step prog s s') := by
  refine Subrelation.wf (r := InvImage (· < ·) (demandWork w)) ?_ (InvImage.wf _ Nat.lt_wfRel.wf)
  intro s' s st
  simp only [InvImage, demandWork]
  cases st with
  | run a x f l b h =>
    have := hw f
    rw [h]
    cases x <;> simp <;> omega
  | call a f b h =>
    have := hw f
    rw [h]
    simp; omega
  | «return» a f b h =>
    rw [h]
    simp

/-- C86, negation: `OnDemandRoutineRunner` bounds nothing ("over goroutining", runner.go:15-16) — one goroutine
that submits functions can have all of them running at once, in whatever number. -/
theorem demand_bound_false (prog : Nat → List Nat) (fs : List Nat) :
    ∃ s, DemandSys.Reach prog (.init [fs]) s ∧ DemandRunning s = fs ∧ s.returned = [] := by
  suffices H : ∀ (post pre : List Nat),
      DemandSys.Reach prog (.init [fs])
        ⟨.live none post :: pre.map (fun f => .live (some f) (prog f)), pre, pre, []⟩ →
      DemandSys.Reach prog (.init [fs])
        ⟨.live none [] :: (pre ++ post).map (fun f => .live (some f) (prog f)), pre ++ post, pre ++ post, []⟩ by
    refine ⟨_, H fs [] .refl, ?_, rfl⟩
    simp [DemandRunning, List.filterMap_map, Function.comp_def]
  intro post
  induction post with
  | nil => intro pre h; simpa using h
  | cons f post ih =>
    intro pre h
    have h := h.tail (DemandSys.Step.run _ [] none f post _ rfl)
    have h := h.tail (DemandSys.Step.call _ (.live none post ::
      pre.map (fun f => .live (some f) (prog f))) f [] rfl)
    have := ih (pre ++ [f]) (by simpa using h)
    simpa using this

/-- C86, negation: with `OnDemandRoutineRunner` functions submitted by one goroutine need not start, nor return,
in the order in which they were submitted (`handlers of one connection may overtake each other'). -/
theorem demand_order_false (f g : Nat) (prog : Nat → List Nat) (hf : prog f = []) (hg : prog g = []) :
    ∃ s, DemandSys.Reach prog (.init [[f, g]]) s ∧ DemandDone s ∧
      s.submitted = [f, g] ∧ s.called = [g, f] ∧ s.returned = [g, f] := by
  have h0 : DemandSys.Reach prog (.init [[f, g]]) (.init [[f, g]]) := .refl
  have h1 := h0.tail (.run _ [] none f [g] [] rfl)
  have h2 := h1.tail (.run _ [] none g [] [.fresh f] rfl)
  have h3 := h2.tail (.call _ [.live none [], .fresh f] g [] rfl)
  have h4 := h3.tail (.return _ [.live none [], .fresh f] g [] (by simp [hg]))
  have h5 := h4.tail (.call _ [.live none []] f [] rfl)
  have h6 := h5.tail (.return _ [.live none []] f [] (by simp [hf]))
  exact ⟨_, h6, by intro x hx; simpa using hx, rfl, rfl, rfl⟩

/-- Non-vacuity: the function that submits two others, executed to the end. -/
example : ∃ s, DemandSys.Reach treeProg (.init [[3]]) s ∧ DemandDone s ∧ s.returned = [3, 2, 1] := by
  have h0 : DemandSys.Reach treeProg (.init [[3]]) (.init [[3]]) := .refl
  have h1 := h0.tail (.run _ [] none 3 [] [] rfl)
  have h2 := h1.tail (.call _ [.live none []] 3 [] rfl)
  have h3 := h2.tail (.run _ [.live none []] (some 3) 1 [2] [] rfl)
  have h4 := h3.tail (.run _ [.live none []] (some 3) 2 [] [.fresh 1] rfl)
  have h5 := h4.tail (.return _ [.live none []] 3 [.fresh 1, .fresh 2] rfl)
  have h6 := h5.tail (.call _ [.live none [], .fresh 1] 2 [] rfl)
  have h7 := h6.tail (.return _ [.live none [], .fresh 1] 2 [] rfl)
  have h8 := h7.tail (.call _ [.live none []] 1 [] rfl)
  have h9 := h8.tail (.return _ [.live none []] 1 [] rfl)
  exact ⟨_, h9, by intro x hx; simpa using hx, rfl⟩

end Verif.Props
