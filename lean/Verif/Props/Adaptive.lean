import Verif.Adaptive
import Verif.Props.ControllerAny

/-!
# C68, C69, C70: handlers that look at the results of their writes

Whatever the handlers of a connection decide, and on whatever grounds, their executions are
executions of handlers that had made up their minds before (`adaptive_run`), so that what has
been proved for these (`Props/Served.lean`) is true of them.  As long as no write fails, a
handler that only looks at the results of its writes does what it does when all of them succeed
(`adaptive_calm_run`).
-/

namespace Verif.Props

variable {ω : Type}

/-! ## Executions -/

/-- Executions all of whose states meet `ok`. -/
private inductive LiveRuns (ok : NetSys ω → Prop) (seq : Bool) (call : ω → Call ⊕ Option Err)
    (prog : Nat → Request → List ω) (s₀ : Live ω) : Live ω → Prop where
  | refl : LiveRuns ok seq call prog s₀ s₀
  | tail {s s'} (h : LiveRuns ok seq call prog s₀ s) (st : Live.Step seq call prog s s') (hf : ok s'.net) :
    LiveRuns ok seq call prog s₀ s'

private inductive ActRuns (ok : NetSys ω → Prop) (seq : Bool) (call : ω → Call ⊕ Option Err)
    (may : May ω) (fin : ω) (s₀ : Act ω) : Act ω → Prop where
  | refl : ActRuns ok seq call may fin s₀ s₀
  | tail {s s'} (h : ActRuns ok seq call may fin s₀ s) (st : Act.Step seq call may fin s s') (hf : ok s'.live.net) :
    ActRuns ok seq call may fin s₀ s'

/-- An execution in which the transport does not fail. -/
inductive Act.Calm (seq : Bool) (call : ω → Call ⊕ Option Err) (may : May ω) (fin : ω) (s₀ : Act ω) :
    Act ω → Prop where
  | refl : Act.Calm seq call may fin s₀ s₀
  | tail {s s'} (h : Act.Calm seq call may fin s₀ s) (st : Act.Step seq call may fin s s')
    (hf : ¬ TransportFailed s'.live.net) : Act.Calm seq call may fin s₀ s'

variable {seq : Bool} {call : ω → Call ⊕ Option Err} {prog prog' : Nat → Request → List ω} {may : May ω} {fin : ω}
  {ok : NetSys ω → Prop} {r : Rd}

theorem Act.Calm.steps {s₀ s : Act ω} (h : Act.Calm seq call may fin s₀ s) : Act.Steps seq call may fin s₀ s := by
  induction h with
  | refl => exact .refl
  | tail _ st _ ih => exact .tail ih st

private theorem LiveRuns.steps {s₀ s : Live ω} (h : LiveRuns ok seq call prog s₀ s) : Live.Steps seq call prog s₀ s := by
  induction h with
  | refl => exact .refl
  | tail _ st _ ih => exact .tail ih st

private theorem LiveRuns.calm {s₀ s : Live ω} (h : LiveRuns (¬ TransportFailed ·) seq call prog s₀ s) :
    Live.Calm seq call prog s₀ s := by
  induction h with
  | refl => exact .refl
  | tail _ st hf ih => exact .tail ih st hf

private theorem Act.Calm.runs {s₀ s : Act ω} (h : Act.Calm seq call may fin s₀ s) :
    ActRuns (¬ TransportFailed ·) seq call may fin s₀ s := by
  induction h with
  | refl => exact .refl
  | tail _ st hf ih => exact .tail ih st hf

private theorem act_steps_runs {s₀ s : Act ω} (h : Act.Steps seq call may fin s₀ s) :
    ActRuns (fun _ => True) seq call may fin s₀ s := by
  induction h with
  | refl => exact .refl
  | tail _ st ih => exact .tail ih st trivial

private theorem failed_push (n : NetSys ω) (f : Nat → List ω) : TransportFailed (n.push f) ↔ TransportFailed n := Iff.rfl

private theorem init_push (f : Nat → List ω) : (Live.init r : Live ω).push f = .init r := by
  simp [Live.push, Live.init, NetSys.push, NetSys.init, GoSys.init, ConnSt.fresh, progsOf, taskProg]

private theorem LiveRuns.push (hok : ∀ n f, ok n → ok (NetSys.push n f)) {s : Live ω}
    (h : LiveRuns ok seq call prog (.init r) s) (f : Nat → List ω)
    (hf : ∀ (k : Nat) (q : Request) (pc : TaskPc), s.srv.tasks[k]? = some (q, pc) → 2 ≤ pc.rank → f k = []) :
    LiveRuns ok seq call (fun k q => prog k q ++ f k) (.init r) (s.push f) := by
  induction h with
  | refl => rw [init_push]; exact .refl
  | @tail s s' _ st ho ih =>
    refine .tail (ih fun k q pc h1 h2 => ?_) (st.push f hf) (hok _ _ ho)
    obtain ⟨pc', g1, g2⟩ := st.rank k q pc h1
    exact hf k q pc' g1 (by omega)

private theorem LiveRuns.congr {s : Live ω} (h : LiveRuns ok seq call prog (.init r) s)
    (hf : ∀ (k : Nat) (q : Request) (pc : TaskPc), s.srv.tasks[k]? = some (q, pc) → 1 ≤ pc.rank → prog' k q = prog k q) :
    LiveRuns ok seq call prog' (.init r) s := by
  induction h with
  | refl => exact .refl
  | @tail s s' _ st ho ih =>
    refine .tail (ih fun k q pc h1 h2 => ?_) (st.congr fun k q h1 _ => hf k q .active h1 (by decide)) ho
    obtain ⟨pc', g1, g2⟩ := st.rank k q pc h1
    exact hf k q pc' g1 (by omega)

/-! ## What the handlers have done -/

/-- What the `k`-th handler has been told to do, and why. -/
private structure ActInv (ok : NetSys ω → Prop) (seq : Bool) (call : ω → Call ⊕ Option Err) (may : May ω) (fin : ω)
    (r : Rd) (s : Act ω) (ops : Nat → List ω) : Prop where
  run : LiveRuns ok seq call (fun k _ => ops k ++ if s.ret k then [fin] else []) (.init r) s.live
  fresh : ∀ k, (∀ q pc, s.live.srv.tasks[k]? = some (q, pc) → pc = .pending) → ops k = [] ∧ s.ret k = false
  ended : ∀ k q pc, s.live.srv.tasks[k]? = some (q, pc) → 2 ≤ pc.rank → s.ret k = true
  allowed : ∀ k q pc, s.live.srv.tasks[k]? = some (q, pc) → ∀ j o, (ops k)[j]? = some o →
    ∃ l, l <+: s.live.net.go.log ∧ (l.filter (·.1 = k)).map (·.2.1) = (ops k).take j ∧ may k q l (some o)
  returned : ∀ k q pc, s.live.srv.tasks[k]? = some (q, pc) → s.ret k = true →
    ∃ l, l <+: s.live.net.go.log ∧ (l.filter (·.1 = k)).map (·.2.1) = ops k ∧ may k q l none

private theorem log_mono {s s' : Live ω} (st : Live.Step seq call prog s s') : s.net.go.log <+: s'.net.go.log := by
  cases st with
  | net n' st hc =>
    cases st with
    | sure h =>
      cases h with
      | abort => exact List.prefix_refl _
      | go c' h =>
        cases h with
        | skip => exact List.prefix_append _ _
        | lock => exact List.prefix_refl _
        | step => exact List.prefix_refl _
        | unlock => exact List.prefix_append _ _
    | _ => exact List.prefix_refl _
  | _ => exact List.prefix_refl _

/-- Requests that are there were there. -/
private theorem tasks_back {s s' : Live ω} (st : Live.Step seq call prog s s') (k : Nat) (q : Request) (pc : TaskPc)
    (h : s'.srv.tasks[k]? = some (q, pc)) (hp : 1 ≤ pc.rank) :
    ∃ pc', s.srv.tasks[k]? = some (q, pc') ∧ pc.rank ≤ pc'.rank + 1 := by
  have key : ∀ (a b : List (Request × TaskPc)) (q' : Request) (x y : TaskPc), y.rank ≤ x.rank + 1 →
      (a ++ (q', y) :: b)[k]? = some (q, pc) →
      ∃ pc', (a ++ (q', x) :: b)[k]? = some (q, pc') ∧ pc.rank ≤ pc'.rank + 1 := by
    intro a b q' x y hxy h
    by_cases h1 : k < a.length
    · rw [List.getElem?_append_left h1] at h ⊢; exact ⟨pc, h, by omega⟩
    · rw [List.getElem?_append_right (by omega)] at h ⊢
      cases hd : k - a.length with
      | zero => rw [hd] at h; simp only [List.getElem?_cons_zero, Option.some.injEq, Prod.mk.injEq] at h ⊢; exact ⟨x, ⟨h.1, rfl⟩, by rw [← h.2]; exact hxy⟩
      | succ d => rw [hd] at h; simp only [List.getElem?_cons_succ] at h ⊢; exact ⟨pc, h, by omega⟩
  cases st with
  | begin a q' b ht => rw [ht]; exact key a b q' _ _ (by decide) h
  | handled a q' b ht hd => rw [ht]; exact key a b q' _ _ (by decide) h
  | other eff srv' room stopped st hq =>
    cases st with
    | taskActive a q' b ht => rw [ht]; exact key a b q' _ _ (by decide) h
    | taskHandle a q' b ht => rw [ht]; exact key a b q' _ _ (by decide) h
    | taskDone a q' b ht => rw [ht]; exact key a b q' _ _ (by decide) h
    | deliver q' h1 h2 =>
      by_cases hk : k < s.srv.tasks.length
      · simp only at h; rw [List.getElem?_append_left hk] at h; exact ⟨pc, h, by omega⟩
      · simp only at h
        rw [List.getElem?_append_right (by omega)] at h
        cases hd : k - s.srv.tasks.length with
        | zero =>
          rw [hd] at h
          simp only [List.getElem?_cons_zero, Option.some.injEq, Prod.mk.injEq] at h
          obtain ⟨_, rfl⟩ := h
          simp [TaskPc.rank] at hp
        | succ d => rw [hd] at h; simp at h
    | _ => exact ⟨pc, h, by omega⟩
  | _ => exact ⟨pc, h, by omega⟩

private theorem spawn_push {s : Live ω} (a b : List (Request × TaskPc)) (q : Request) (p : List ω)
    (h : s.srv.tasks = a ++ (q, .active) :: b) (hd : s.net.go.th a.length = ⟨[], none⟩) :
    ({ s with net := s.net.spawn a.length p } : Live ω) = s.push fun k => if k = a.length then p else [] := by
  have : s.net.spawn a.length p = s.net.push (progsOf (fun k _ => if k = a.length then p else []) s.srv.tasks) := by
    simp only [NetSys.spawn, NetSys.push, NetSys.mk.injEq, GoSys.mk.injEq, true_and, and_true]
    funext k
    simp only [GoSys.set]
    by_cases hk : k = a.length
    · subst hk; simp [hd, h, progsOf, taskProg]
    · simp only [hk, if_false, progsOf]
      cases ht : s.srv.tasks[k]? with
      | none => simp [taskProg]
      | some t => obtain ⟨q', pc⟩ := t; cases pc <;> simp [taskProg]
  rw [this]
  rfl

/-- What an idle handler has done is what it has been told to do. -/
private theorem own_log {s : Live ω} (h : Live.Steps seq call prog (.init r) s) (k : Nat) (q : Request) (pc : TaskPc)
    (hk : s.srv.tasks[k]? = some (q, pc)) (hp : 1 ≤ pc.rank) :
    (s.net.go.log.filter (·.1 = k)).map (·.2.1) ++ (s.net.go.th k).current ++ (s.net.go.th k).todo = prog k q := by
  rw [NetSys.order (Live.net_run h) k]
  simp only [progsOf, hk]
  cases pc <;> simp_all [taskProg, TaskPc.rank]

private theorem at_length (a b : List (Request × TaskPc)) (q : Request) (x : TaskPc) : (a ++ (q, x) :: b)[a.length]? = some (q, x) := by
  simp

private theorem act_inv (hok : ∀ n f, ok n → ok (NetSys.push n f)) {s : Act ω} (h : ActRuns ok seq call may fin (.init r) s) :
    ∃ ops, ActInv ok seq call may fin r s ops := by
  induction h with
  | refl =>
    refine ⟨fun _ => [], .refl, fun _ _ => ⟨rfl, rfl⟩, ?_, ?_, ?_⟩ <;> intro k q pc hk <;>
      simp [Act.init, Live.init, ConnSt.fresh] at hk
  | @tail s s' hs st hf ih =>
    obtain ⟨ops, inv⟩ := ih
    cases st with
    | issue a q b o h hd hr hm =>
      have hk : s.live.srv.tasks[a.length]? = some (q, .active) := by rw [h]; exact at_length a b q .active
      have hown := own_log inv.run.steps a.length q .active hk (by decide)
      simp only [hd, hr, GoThread.current, List.append_nil, Bool.false_eq_true, if_false] at hown
      refine ⟨fun k => if k = a.length then ops k ++ [o] else ops k, ?_, ?_, inv.ended, ?_, ?_⟩
      · have := inv.run.push hok (fun k => if k = a.length then [o] else []) (by
          intro k q' pc h1 h2
          have := inv.ended k q' pc h1 h2
          split
          · subst_vars; rw [this] at hr; simp at hr
          · rfl)
        simp only [spawn_push a b q [o] h hd]
        refine this.congr fun k q' pc _ _ => ?_
        by_cases hka : k = a.length
        · subst hka; simp [hr]
        · simp [hka]
      · intro k hp
        have hne : k ≠ a.length := by rintro rfl; have := hp q .active hk; simp at this
        simp only [hne, if_false]
        exact inv.fresh k hp
      · intro k q' pc h1 j o' h2
        by_cases hka : k = a.length
        · subst hka
          simp only [if_true] at h2 ⊢
          by_cases hj : j < (ops a.length).length
          · rw [List.getElem?_append_left hj] at h2
            obtain ⟨l, g1, g2, g3⟩ := inv.allowed _ q' pc h1 j o' h2
            exact ⟨l, g1, by rw [g2, List.take_append_of_le_length (by omega)], g3⟩
          · have hj' : j = (ops a.length).length := by
              have := (List.getElem?_eq_some_iff.mp h2).1
              simp at this
              omega
            subst hj'
            simp only [List.getElem?_concat_length, Option.some.injEq] at h2
            subst h2
            simp only [hk, Option.some.injEq, Prod.mk.injEq] at h1
            obtain ⟨rfl, rfl⟩ := h1
            exact ⟨_, List.prefix_refl _, by rw [List.take_left]; exact hown, hm⟩
        · simp only [hka, if_false] at h2 ⊢
          exact inv.allowed k q' pc h1 j o' h2
      · intro k q' pc h1 h2
        have hne : k ≠ a.length := by rintro rfl; rw [hr] at h2; simp at h2
        simp only [hne, if_false]
        exact inv.returned k q' pc h1 h2
    | ret a q b h hd hr hm =>
      have hk : s.live.srv.tasks[a.length]? = some (q, .active) := by rw [h]; exact at_length a b q .active
      have hown := own_log inv.run.steps a.length q .active hk (by decide)
      simp only [hd, hr, GoThread.current, List.append_nil, Bool.false_eq_true, if_false] at hown
      refine ⟨ops, ?_, ?_, ?_, inv.allowed, ?_⟩
      · have := inv.run.push hok (fun k => if k = a.length then [fin] else []) (by
          intro k q' pc h1 h2
          have := inv.ended k q' pc h1 h2
          split
          · subst_vars; rw [this] at hr; simp at hr
          · rfl)
        simp only [spawn_push a b q [fin] h hd]
        refine this.congr fun k q' pc _ _ => ?_
        by_cases hka : k = a.length
        · subst hka; simp [hr]
        · simp [hka]
      · intro k hp
        have hne : k ≠ a.length := by rintro rfl; have := hp q .active hk; simp at this
        simp only [hne, if_false]
        exact inv.fresh k hp
      · intro k q' pc h1 h2
        have := inv.ended k q' pc h1 h2
        simp [this]
      · intro k q' pc h1 h2
        by_cases hka : k = a.length
        · subst hka
          simp only [hk, Option.some.injEq, Prod.mk.injEq] at h1
          obtain ⟨rfl, rfl⟩ := h1
          exact ⟨_, List.prefix_refl _, hown, hm⟩
        · simp only [hka, if_false] at h2
          exact inv.returned k q' pc h1 h2
    | live l' st hr =>
      have hlog := log_mono st
      have fresh : ∀ k, (∀ q pc, l'.srv.tasks[k]? = some (q, pc) → pc = .pending) → ops k = [] ∧ s.ret k = false := by
        intro k hp
        refine inv.fresh k fun q pc h => ?_
        obtain ⟨pc', g1, g2⟩ := st.rank k q pc h
        have := hp q pc' g1
        subst this
        cases pc <;> simp_all [TaskPc.rank]
      have pend : ∀ k q pc, l'.srv.tasks[k]? = some (q, pc) → (∃ pc', s.live.srv.tasks[k]? = some (q, pc')) ∨
          (ops k = [] ∧ s.ret k = false) := by
        intro k q pc h
        by_cases hp : 1 ≤ pc.rank
        · obtain ⟨pc', g, _⟩ := tasks_back st k q pc h hp
          exact .inl ⟨pc', g⟩
        · refine .inr (fresh k fun q' pc' h' => ?_)
          rw [h] at h'
          simp only [Option.some.injEq, Prod.mk.injEq] at h'
          obtain ⟨_, rfl⟩ := h'
          cases pc <;> simp_all [TaskPc.rank]
      refine ⟨ops, ?_, fresh, ?_, ?_, ?_⟩
      · refine .tail inv.run (st.congr fun k q _ h2 => ?_) hf
        obtain ⟨g1, g2⟩ := inv.fresh k fun q' pc h => by
          rw [h2] at h
          simp only [Option.some.injEq, Prod.mk.injEq] at h
          exact h.2.symm
        simp [g1, g2]
      · intro k q pc h hp
        obtain ⟨pc', g, hle⟩ := tasks_back st k q pc h (by omega)
        by_cases hp' : 2 ≤ pc'.rank
        · exact inv.ended k q pc' g hp'
        · refine hr k q ?_ ?_
          · cases pc' <;> simp_all [TaskPc.rank]
            omega
          · cases pc <;> simp_all [TaskPc.rank]
            omega
      · intro k q pc h j o hj
        rcases pend k q pc h with ⟨pc', g⟩ | ⟨g, _⟩
        · obtain ⟨l, g1, g2⟩ := inv.allowed k q pc' g j o hj
          exact ⟨l, g1.trans hlog, g2⟩
        · rw [g] at hj; simp at hj
      · intro k q pc h hret
        rcases pend k q pc h with ⟨pc', g⟩ | ⟨_, g⟩
        · obtain ⟨l, g1, g2⟩ := inv.returned k q pc' g hret
          exact ⟨l, g1.trans hlog, g2⟩
        · rw [show s.ret k = false from g] at hret; simp at hret

/-! ## C68: handlers of any kind -/

/-- C68.  Whatever handlers decide, on whatever grounds: an execution of theirs is an execution of
handlers that perform the lists of operations `ops`, each followed by `fin`.  (They have more to
do than the handlers of the execution have decided to do, namely `f`.)  Each of these operations
is one that the handler could choose, knowing what had happened before: it had performed exactly
the operations before it; and a handler that has returned could return after these. -/
theorem adaptive_run (seq : Bool) (call : ω → Call ⊕ Option Err) (may : May ω) (fin : ω) (r : Rd) (s : Act ω)
    (h : Act.Steps seq call may fin (.init r) s) :
    ∃ (ops : Nat → List ω) (f : Nat → List ω),
      Live.Steps seq call (fun k _ => ops k ++ [fin]) (.init r) (s.live.push f) ∧
      (∀ (k : Nat) (q : Request), s.live.srv.dispatched[k]? = some q →
        (∀ (j : Nat) (o : ω), (ops k)[j]? = some o →
          ∃ l, l <+: s.live.net.go.log ∧ (l.filter (·.1 = k)).map (·.2.1) = (ops k).take j ∧ may k q l (some o)) ∧
        (s.ret k = true →
          ∃ l, l <+: s.live.net.go.log ∧ (l.filter (·.1 = k)).map (·.2.1) = ops k ∧ may k q l none)) := by
  obtain ⟨ops, inv⟩ := act_inv (fun _ _ _ => trivial) (act_steps_runs h)
  refine ⟨ops, fun k => if s.ret k then [] else [fin], ?_, fun k q hk => ?_⟩
  · have := inv.run.push (fun _ _ _ => trivial) (fun k => if s.ret k then [] else [fin]) (by
      intro k q pc h1 h2
      simp [inv.ended k q pc h1 h2])
    refine (this.congr fun k q pc _ _ => ?_).steps
    cases s.ret k <;> simp
  · rw [← tasks_dispatched seq _ (Live.srv_reach inv.run.steps), List.getElem?_map] at hk
    obtain ⟨⟨q', pc⟩, h1, rfl⟩ := Option.map_eq_some_iff.mp hk
    exact ⟨inv.allowed k q' pc h1, inv.returned k q' pc h1⟩

/-- The connection behaves like one that is served by handlers that had made up their minds; handlers
that have not started have nothing to do yet, and those that are finished have returned. -/
theorem adaptive_live {s : Act ω} (h : Act.Steps seq call may fin (.init r) s) :
    ∃ prog : Nat → Request → List ω, Live.Steps seq call prog (.init r) s.live ∧
      (∀ k, (∀ q pc, s.live.srv.tasks[k]? = some (q, pc) → pc = .pending) → ∀ q, prog k q = []) ∧
      (∀ k q pc, s.live.srv.tasks[k]? = some (q, pc) → 2 ≤ pc.rank → s.ret k = true) := by
  obtain ⟨ops, inv⟩ := act_inv (fun _ _ _ => trivial) (act_steps_runs h)
  refine ⟨_, inv.run.steps, fun k hk q => ?_, inv.ended⟩
  obtain ⟨h1, h2⟩ := inv.fresh k hk
  simp [h1, h2]

/-! ## C68: handlers that look at the results of their operations -/

private theorem call_results {call : ω → Call ⊕ Option Err} {progs : Nat → List ω} {n : NetSys ω}
    (h : NetSys.Steps call (.init progs) n) :
    (∀ i op m, (n.go.th i).pc = some (op, m) → ∃ k, call op = .inl k) ∧
    ∀ x ∈ n.go.log, ∀ e, call x.2.1 = .inr e → x.2.2 = e := by
  induction h with
  | refl => simp [NetSys.init, GoSys.init]
  | @tail n n' h st ih =>
    obtain ⟨i1, i2⟩ := ih
    have set' : ∀ (i : Nat) (t : GoThread ω NetPos), (∀ op m, t.pc = some (op, m) → ∃ k, call op = .inl k) →
        ∀ j op m, (n.go.set i t j).pc = some (op, m) → ∃ k, call op = .inl k := by
      intro i t ht j op m hj
      by_cases hji : j = i
      · subst hji; simp only [GoSys.set, if_true] at hj; exact ht op m hj
      · simp only [GoSys.set, hji, if_false] at hj; exact i1 j op m hj
    cases st with
    | close => exact ⟨i1, i2⟩
    | reset i op q m ctx e ht hcl =>
      refine ⟨set' i _ fun op' m' h' => ?_, i2⟩
      simp only [Option.some.injEq, Prod.mk.injEq] at h'
      rw [← h'.1]; exact i1 i _ _ ht
    | take i op x q m ctx ht hcl =>
      refine ⟨set' i _ fun op' m' h' => ?_, i2⟩
      simp only [Option.some.injEq, Prod.mk.injEq] at h'
      rw [← h'.1]; exact i1 i _ _ ht
    | sure h =>
      cases h with
      | abort i op q m ctx ht hcl =>
        refine ⟨set' i _ fun op' m' h' => ?_, i2⟩
        simp only [Option.some.injEq, Prod.mk.injEq] at h'
        rw [← h'.1]; exact i1 i _ _ ht
      | go c' h =>
        cases h with
        | skip i op rest e ht hcl =>
          refine ⟨set' i _ (by simp), fun x hx e' he' => ?_⟩
          simp only [List.mem_append, List.mem_singleton] at hx
          rcases hx with hx | rfl
          · exact i2 x hx e' he'
          · simp only at he'; rw [hcl] at he'; simpa using he'
        | lock i op rest k ht hcl hm =>
          refine ⟨set' i _ fun op' m' h' => ?_, i2⟩
          simp only [Option.some.injEq, Prod.mk.injEq] at h'
          rw [← h'.1]; exact ⟨k, hcl⟩
        | step i todo op m m' sh' ht hs =>
          refine ⟨set' i _ fun op' m' h' => ?_, i2⟩
          simp only [Option.some.injEq, Prod.mk.injEq] at h'
          rw [← h'.1]; exact i1 i op m (by rw [ht])
        | unlock i todo op m e ht he =>
          refine ⟨set' i _ (by simp), fun x hx e' he' => ?_⟩
          simp only [List.mem_append, List.mem_singleton] at hx
          rcases hx with hx | rfl
          · exact i2 x hx e' he'
          · obtain ⟨k, hk⟩ := i1 i op m (by rw [ht])
            simp only at he'; rw [hk] at he'; simp at he'

/-- What an operation returns when the connection does not fail. -/
private def result (call : ω → Call ⊕ Option Err) (o : ω) : Option Err :=
  match call o with | .inl _ => none | .inr e => e

private theorem path_prefix (call : ω → Call ⊕ Option Err) (ops : List ω) (p : Prog ω)
    (h : ∀ j o, ops[j]? = some o → (p.after ((ops.take j).map (result call))).next = some o) :
    ∃ rest, p.path call = ops ++ rest ∧ ((p.after (ops.map (result call))).next = none → rest = []) := by
  induction ops generalizing p with
  | nil =>
    refine ⟨_, rfl, fun hn => ?_⟩
    cases p with
    | done => rfl
    | op o k => simp [Prog.after, Prog.next] at hn
  | cons o ops ih =>
    have h0 := h 0 o rfl
    cases p with
    | done => simp [Prog.after, Prog.next] at h0
    | op o' k =>
      simp only [List.take_zero, List.map_nil, Prog.after, Prog.next, Option.some.injEq] at h0
      subst h0
      obtain ⟨rest, g1, g2⟩ := ih (k (result call o')) fun j o hj => by
        have := h (j + 1) o hj
        simpa [Prog.after] using this
      refine ⟨rest, ?_, fun hn => g2 (by simpa [Prog.after] using hn)⟩
      simp only [Prog.path, List.cons_append]
      rw [← g1]
      rfl

private theorem filter_prefix {l l' : List (Nat × ω × Option Err)} (h : l <+: l') (k : Nat) :
    l.filter (·.1 = k) <+: l'.filter (·.1 = k) := by
  obtain ⟨t, rfl⟩ := h
  rw [List.filter_append]
  exact List.prefix_append _ _

private theorem ok_failed (n : NetSys ω) (f : Nat → List ω) (h : ¬ TransportFailed n) : ¬ TransportFailed (n.push f) := h

private theorem calm_results {s : Live ω} (h : Live.Calm seq call prog (.init r) s) (hc : seq = true ∨ s.net.closed = false) :
    ∀ x ∈ s.net.go.log, x.2.2 = result call x.2.1 := by
  intro x hx
  have h1 : ∀ k, call x.2.1 = .inl k → x.2.2 = none := by
    rcases hc with rfl | hc
    · exact served_no_error _ _ r _ h x hx
    · exact served_no_error_open _ _ _ r _ h hc x hx
  have h2 := (call_results (Live.net_run h.steps)).2 x hx
  unfold result
  cases hcall : call x.2.1 with
  | inl k => exact h1 k hcall
  | inr e => exact h2 e hcall

private theorem after_path (call : ω → Call ⊕ Option Err) (ops rest : List ω) (p : Prog ω) (h : p.path call = ops ++ rest) :
    (p.after (ops.map (result call))).next = rest.head? := by
  induction ops generalizing p with
  | nil =>
    cases p with
    | done => simp only [Prog.path, List.nil_append] at h; subst h; rfl
    | op o k => simp only [Prog.path, List.nil_append] at h; subst h; rfl
  | cons o ops ih =>
    cases p with
    | done => simp [Prog.path] at h
    | op o' k =>
      simp only [Prog.path, List.cons_append, List.cons.injEq] at h
      obtain ⟨rfl, h⟩ := h
      exact ih _ h

/-- C68.  Handlers that look at the results of their operations, on a connection whose transport
has not failed, with `SequentialRunner` or as long as the server has not closed the connection:
the execution is an execution of handlers that perform the operations `Prog.path`, which are
those of the case that nothing fails, whatever they would do otherwise. -/
theorem adaptive_calm_run (seq : Bool) (call : ω → Call ⊕ Option Err) (T : Request → Prog ω) (fin : ω) (r : Rd) (s : Act ω)
    (h : Act.Calm seq call (mayOf T) fin (.init r) s) (hc : seq = true ∨ s.live.net.closed = false) :
    ∃ f : Nat → List ω, Live.Calm seq call (fun _ q => (T q).path call ++ [fin]) (.init r) (s.live.push f) ∧
      ∀ (k : Nat) (q : Request) (pc : TaskPc), s.live.srv.tasks[k]? = some (q, pc) → pc ≠ .pending → (f k = [] ↔ s.ret k = true) := by
  obtain ⟨ops, inv⟩ := act_inv (ok := (¬ TransportFailed ·)) ok_failed h.runs
  have hres := calm_results inv.run.calm hc
  have own : ∀ k l, l <+: s.live.net.go.log → ownResults k l = ((l.filter (·.1 = k)).map (·.2.1)).map (result call) := by
    intro k l hl
    rw [ownResults, List.map_map]
    refine List.map_congr_left fun x hx => ?_
    exact hres x (hl.subset (List.mem_filter.mp hx).1)
  have key : ∀ k q pc, s.live.srv.tasks[k]? = some (q, pc) →
      ∃ rest, (T q).path call = ops k ++ rest ∧ (s.ret k = true → rest = []) := by
    intro k q pc hk
    obtain ⟨rest, g1, g2⟩ := path_prefix call (ops k) (T q) fun j o hj => by
      obtain ⟨l, a1, a2, a3⟩ := inv.allowed k q pc hk j o hj
      rw [mayOf, own k l a1, a2] at a3
      exact a3
    refine ⟨rest, g1, fun hret => g2 ?_⟩
    obtain ⟨l, a1, a2, a3⟩ := inv.returned k q pc hk hret
    rw [mayOf, own k l a1, a2] at a3
    exact a3
  let f : Nat → List ω := fun k => match s.live.srv.tasks[k]? with
    | none => []
    | some (q, _) => if s.ret k then [] else ((T q).path call).drop (ops k).length ++ [fin]
  refine ⟨f, ?_, fun k q pc h1 _ => by simp only [f, h1]; cases s.ret k <;> simp⟩
  have := inv.run.push ok_failed f (by
    intro k q pc h1 h2
    simp [f, h1, inv.ended k q pc h1 h2])
  refine (this.congr fun k q pc h1 _ => ?_).calm
  obtain ⟨rest, g1, g2⟩ := key k q pc h1
  simp only [f]
  have h1' : s.live.srv.tasks[k]? = some (q, pc) := h1
  rw [h1']
  cases hret : s.ret k with
  | true => rw [g1, g2 hret]; simp
  | false => simp [g1]

/-! ## Executions in which writes fail -/

/-- A position from which nothing goes to the transport. -/
private def Dead (b : BW) : NetPos → Prop
  | .at (.tx _ _ (some _) _) => True
  | .at (.loop _ _) => b.err ≠ none
  | .at (.flush _) => b.err ≠ none
  | .at (.done _) => b.err ≠ none
  | _ => False

private theorem dead_step {m m' : NetPos} {b b' : BW} (h : NetPos.step m b = some (m', b')) (hd : Dead b m) :
    Dead b' m' := by
  have ret : ∀ (back : Back) (c : BW) e, c.err ≠ none → Dead c (.at (back.ret e)) := by
    intro back c e hc
    cases back <;> exact hc
  have ret' : ∀ (back : Back) (c : BW) e, c.err ≠ none → Dead c (.ofMicro (back.ret e)) := by
    intro back c e hc
    cases back <;> exact hc
  cases m with
  | net q n ctx => simp [Dead] at hd
  | «at» m =>
    cases m with
    | copy k p fl last => simp [Dead] at hd
    | done e => simp [NetPos.step, Micro.step] at h
    | loop p fl =>
      simp only [Dead] at hd
      simp only [NetPos.step, Micro.step, hd, and_false, if_false] at h
      cases he : b.err with
      | none => exact absurd he hd
      | some e =>
        rw [he] at h
        simp only [Option.map_some, Option.some.injEq, Prod.mk.injEq] at h
        obtain ⟨rfl, rfl⟩ := h
        exact hd
    | flush back =>
      simp only [Dead] at hd
      simp only [NetPos.step, Micro.step] at h
      cases he : b.err with
      | none => exact absurd he hd
      | some e =>
        rw [he] at h
        simp only [Option.map_some, Option.some.injEq, Prod.mk.injEq] at h
        obtain ⟨rfl, rfl⟩ := h
        exact ret' back _ _ hd
    | tx q k e after =>
      cases e with
      | none => simp [Dead] at hd
      | some e =>
        cases after with
        | direct p n fl =>
          simp only [NetPos.step, Micro.step, Option.map_some, Option.some.injEq, Prod.mk.injEq] at h
          obtain ⟨rfl, rfl⟩ := h
          simp [Dead]
        | flush n back =>
          simp only [NetPos.step, Micro.step, reduceCtorEq, and_false, if_false, Option.map_some, Option.some.injEq,
            Prod.mk.injEq] at h
          obtain ⟨rfl, rfl⟩ := h
          exact ret back _ _ (by simp)

/-- Without the peer nothing goes to the transport. -/
private theorem step_out_same {m m' : NetPos} {b b' : BW} (h : NetPos.step m b = some (m', b')) : b'.tr.out = b.tr.out := by
  have hb : ∀ (b : BW) p, (b.tr.begin p).2.2.out = b.tr.out := by
    intro b p; unfold Transport.begin; split <;> rfl
  cases m with
  | net q n ctx =>
    cases q with
    | nil => simp only [NetPos.step, Option.some.injEq, Prod.mk.injEq] at h; rw [← h.2]
    | cons x q => simp [NetPos.step] at h
  | «at» m =>
    cases m with
    | done e => simp [NetPos.step, Micro.step] at h
    | copy k p fl last =>
      simp only [NetPos.step, Option.map_eq_some_iff, Prod.mk.injEq] at h
      obtain ⟨⟨y, z⟩, h1, _, rfl⟩ := h
      cases k with
      | zero => simp only [Micro.step, Option.some.injEq, Prod.mk.injEq] at h1; rw [← h1.2]
      | succ k =>
        cases p with
        | nil => simp only [Micro.step, Option.some.injEq, Prod.mk.injEq] at h1; rw [← h1.2]
        | cons x p => simp only [Micro.step, Option.some.injEq, Prod.mk.injEq] at h1; rw [← h1.2]
    | loop p fl =>
      simp only [NetPos.step, Option.map_eq_some_iff, Prod.mk.injEq] at h
      obtain ⟨⟨y, z⟩, h1, _, rfl⟩ := h
      simp only [Micro.step] at h1
      split at h1
      · split at h1
        · simp only [Option.some.injEq, Prod.mk.injEq] at h1; rw [← h1.2]; exact hb b p
        · simp only [Option.some.injEq, Prod.mk.injEq] at h1; rw [← h1.2]
      · split at h1 <;> (simp only [Option.some.injEq, Prod.mk.injEq] at h1; rw [← h1.2])
    | flush back =>
      simp only [NetPos.step, Option.map_eq_some_iff, Prod.mk.injEq] at h
      obtain ⟨⟨y, z⟩, h1, _, rfl⟩ := h
      simp only [Micro.step] at h1
      split at h1
      · simp only [Option.some.injEq, Prod.mk.injEq] at h1; rw [← h1.2]
      · split at h1
        · simp only [Option.some.injEq, Prod.mk.injEq] at h1; rw [← h1.2]
        · simp only [Option.some.injEq, Prod.mk.injEq] at h1; rw [← h1.2]; exact hb b b.buf
    | tx q k e after =>
      cases after with
      | direct p n fl =>
        simp only [NetPos.step, Micro.step, Option.map_some, Option.some.injEq, Prod.mk.injEq] at h
        rw [← h.2]
      | flush n back =>
        simp only [NetPos.step, Micro.step, Option.map_eq_some_iff, Prod.mk.injEq] at h
        obtain ⟨⟨y, z⟩, h1, _, rfl⟩ := h
        split at h1 <;> (simp only [Option.some.injEq, Prod.mk.injEq] at h1; rw [← h1.2])

/-- A connection on which nothing goes to the transport any more. -/
private structure DeadNet (n : NetSys ω) : Prop where
  pos : ∀ i op m, (n.go.th i).pc = some (op, m) → Dead n.go.sh m
  err : n.go.sh.err ≠ none ∨ ∃ i, (n.go.th i).pc ≠ none

private theorem dead_net {call : ω → Call ⊕ Option Err} {progs : Nat → List ω} {n n' : NetSys ω}
    (hn : NetSys.Steps call (.init progs) n) (h : NetSys.Step call n n') (hd : DeadNet n) :
    DeadNet n' ∧ n'.go.sh.tr.out = n.go.sh.tr.out := by
  have excl := fun i => NetSys.exclusive hn i
  cases h with
  | close => exact ⟨⟨hd.pos, hd.err⟩, rfl⟩
  | reset i op q m ctx e ht hcl => exact absurd (hd.pos i _ _ ht) (by simp [Dead])
  | take i op x q m ctx ht hcl => exact absurd (hd.pos i _ _ ht) (by simp [Dead])
  | sure h =>
    cases h with
    | abort i op q m ctx ht hcl => exact absurd (hd.pos i _ _ ht) (by simp [Dead])
    | go c' h =>
      cases h with
      | skip i op rest e ht hcl =>
        refine ⟨⟨fun j op' m' hj => ?_, ?_⟩, rfl⟩
        · by_cases hji : j = i
          · subst hji; simp [GoSys.set] at hj
          · simp only [GoSys.set, hji, if_false] at hj
            exact hd.pos j op' m' hj
        · rcases hd.err with g | ⟨j, g⟩
          · exact .inl g
          · refine .inr ⟨j, ?_⟩
            have hji : j ≠ i := by rintro rfl; rw [ht] at g; simp at g
            simp only [GoSys.set, hji, if_false]; exact g
      | lock i op rest k ht hcl hm =>
        have hm := hm rfl
        have herr : n.go.sh.err ≠ none := by
          rcases hd.err with g | ⟨j, g⟩
          · exact g
          · rw [(excl j g).1] at hm; simp at hm
        refine ⟨⟨fun j op' m' hj => ?_, .inl herr⟩, rfl⟩
        by_cases hji : j = i
        · subst hji
          simp only [GoSys.set, if_true, Option.some.injEq, Prod.mk.injEq] at hj
          obtain ⟨rfl, rfl⟩ := hj
          cases k <;> exact herr
        · simp only [GoSys.set, hji, if_false] at hj
          exact hd.pos j op' m' hj
      | step i todo op m m' sh' ht hs =>
        refine ⟨⟨fun j op' m'' hj => ?_, .inr ⟨i, by simp [GoSys.set]⟩⟩, step_out_same hs⟩
        by_cases hji : j = i
        · subst hji
          simp only [GoSys.set, if_true, Option.some.injEq, Prod.mk.injEq] at hj
          obtain ⟨rfl, rfl⟩ := hj
          exact dead_step hs (hd.pos j _ _ (by rw [ht]))
        · simp only [GoSys.set, hji, if_false] at hj
          rw [(excl i (by simp [ht])).2 j hji] at hj
          simp at hj
      | unlock i todo op m e ht he =>
        have herr : n.go.sh.err ≠ none := by
          have := hd.pos i op m (by rw [ht])
          cases m with
          | net => simp [netMachine] at he
          | «at» m => cases m <;> simp [netMachine] at he; exact this
        refine ⟨⟨fun j op' m' hj => ?_, .inl herr⟩, rfl⟩
        by_cases hji : j = i
        · subst hji; simp [GoSys.set] at hj
        · simp only [GoSys.set, hji, if_false] at hj
          exact hd.pos j op' m' hj

/-- A step on a connection that this side has closed sends nothing. -/
private theorem closed_out {call : ω → Call ⊕ Option Err} {n n' : NetSys ω} (h : NetSys.Step call n n')
    (hc : n.closed = true) : n'.go.sh.tr.out = n.go.sh.tr.out := by
  cases h with
  | close => rfl
  | reset i op q m ctx e ht hcl => rfl
  | take i op x q m ctx ht hcl => rw [hc] at hcl; simp at hcl
  | sure h =>
    cases h with
    | abort i op q m ctx ht hcl => rfl
    | go c' h =>
      cases h with
      | step i todo op m m' sh' ht hs => exact step_out_same hs
      | _ => rfl

/-- The transport fails: what it has got is what it had got. -/
private theorem failed_out {call : ω → Call ⊕ Option Err} {progs : Nat → List ω} {n n' : NetSys ω}
    (hn : NetSys.Steps call (.init progs) n') (h : NetSys.Step call n n') (hf : TransportFailed n') :
    DeadNet n' ∧ n'.go.sh.tr.out = n.go.sh.tr.out := by
  obtain ⟨_, j, op', q', k', e', a', hj⟩ := hf
  have excl := (NetSys.exclusive hn j (by simp [hj])).2
  refine ⟨⟨fun i op m hi => ?_, .inr ⟨j, by simp [hj]⟩⟩, ?_⟩
  · by_cases hij : i = j
    · subst hij
      rw [hj] at hi
      simp only [Option.some.injEq, Prod.mk.injEq] at hi
      rw [← hi.2]
      trivial
    · rw [excl i hij] at hi; simp at hi
  · cases h with
    | close => rfl
    | reset i op q m ctx e ht hcl => rfl
    | take i op x q m ctx ht hcl =>
      exfalso
      by_cases hij : i = j
      · subst hij; simp [GoSys.at, GoSys.set] at hj
      · have := excl i hij
        simp [GoSys.at, GoSys.set] at this
    | sure h =>
      cases h with
      | abort i op q m ctx ht hcl => rfl
      | go c' h =>
        cases h with
        | step i todo op m m' sh' ht hs => exact step_out_same hs
        | _ => rfl

private theorem spawn_dead {n : NetSys ω} (i : Nat) (p : List ω) (hi : n.go.th i = ⟨[], none⟩) (h : DeadNet n) :
    DeadNet (n.spawn i p) := by
  refine ⟨fun j op m hj => ?_, ?_⟩
  · by_cases hji : j = i
    · subst hji; simp [NetSys.spawn, GoSys.set] at hj
    · simp only [NetSys.spawn, GoSys.set, hji, if_false] at hj
      exact h.pos j op m hj
  · rcases h.err with g | ⟨j, g⟩
    · exact .inl g
    · refine .inr ⟨j, ?_⟩
      have hji : j ≠ i := by rintro rfl; rw [hi] at g; simp at g
      simp only [NetSys.spawn, GoSys.set, hji, if_false]; exact g

private theorem spawn_failed {n : NetSys ω} (i : Nat) (p : List ω) (h : TransportFailed (n.spawn i p)) : TransportFailed n := by
  obtain ⟨h1, j, op, q, k, e, a, hj⟩ := h
  refine ⟨h1, j, op, q, k, e, a, ?_⟩
  by_cases hji : j = i
  · subst hji; simp [NetSys.spawn, GoSys.set] at hj
  · simpa only [NetSys.spawn, GoSys.set, hji, if_false] using hj

/-- What a step does to the connection. -/
private theorem act_net {s s' : Act ω} {progs : Nat → List ω} (hn : NetSys.Steps call (.init progs) s.live.net)
    (hi : ∀ k q, s.live.srv.tasks[k]? = some (q, .pending) → progs k = [])
    (st : Act.Step seq call may fin s s') :
    (s'.live.net.go.sh.tr.out = s.live.net.go.sh.tr.out ∧ (DeadNet s.live.net → DeadNet s'.live.net) ∧
      (TransportFailed s'.live.net → TransportFailed s.live.net) ∧ (s.live.net.closed = true → s'.live.net.closed = true)) ∨
    (NetSys.Step call s.live.net s'.live.net ∧ s'.live.net.closed = s.live.net.closed) := by
  cases st with
  | issue a q b o h hd hr hm => exact .inl ⟨rfl, spawn_dead _ _ hd, spawn_failed _ _, id⟩
  | ret a q b h hd hr hm => exact .inl ⟨rfl, spawn_dead _ _ hd, spawn_failed _ _, id⟩
  | live l' st hr =>
    cases st with
    | receive q r' h hr => exact .inl ⟨rfl, id, id, id⟩
    | receiveErr o e r' h hr => exact .inl ⟨rfl, id, id, id⟩
    | begin a q b h =>
      exact .inl ⟨rfl, spawn_dead _ _ (NetSys.idle hn _ (hi a.length q (by rw [h]; simp))), spawn_failed _ _, id⟩
    | handled a q b h hd => exact .inl ⟨rfl, id, id, id⟩
    | refuseClose h => exact .inl ⟨rfl, fun h => ⟨h.pos, h.err⟩, fun h => by simp [TransportFailed] at h, fun _ => rfl⟩
    | close h => exact .inl ⟨rfl, fun h => ⟨h.pos, h.err⟩, fun h => by simp [TransportFailed] at h, fun _ => rfl⟩
    | net n' st hc => exact .inr ⟨st, hc⟩
    | other eff srv' room stopped st hq => exact .inl ⟨rfl, id, id, id⟩

private theorem act_dispatched {s s' : Act ω} (st : Act.Step seq call may fin s s') :
    s.live.srv.dispatched <+: s'.live.srv.dispatched := by
  cases st with
  | issue => exact List.prefix_refl _
  | ret => exact List.prefix_refl _
  | live l' st hr =>
    cases st with
    | other eff srv' room stopped st hq =>
      cases st with
      | deliver => exact List.prefix_append _ _
      | _ => exact List.prefix_refl _
    | _ => exact List.prefix_refl _

private theorem act_steps_net {s : Act ω} (h : Act.Steps seq call may fin (.init r) s) :
    ∃ progs, NetSys.Steps call (.init progs) s.live.net ∧
      ∀ k q, s.live.srv.tasks[k]? = some (q, .pending) → progs k = [] := by
  obtain ⟨ops, inv⟩ := act_inv (fun _ _ _ => trivial) (act_steps_runs h)
  exact ⟨_, Live.net_run inv.run.steps, fun k q hk => by simp [progsOf, hk, taskProg]⟩

/-- C68.  Once a write has failed, or the server has closed the connection, nothing more is sent,
whatever the handlers do then: what the peer has got it had got when nothing had failed yet. -/
theorem adaptive_frozen (seq : Bool) (call : ω → Call ⊕ Option Err) (may : May ω) (fin : ω) (r : Rd) (s : Act ω)
    (h : Act.Steps seq call may fin (.init r) s) :
    ∃ s₀, Act.Calm seq call may fin (.init r) s₀ ∧ s₀.live.net.closed = false ∧
      s₀.live.net.go.sh.tr.out = s.live.net.go.sh.tr.out ∧ s₀.live.srv.dispatched <+: s.live.srv.dispatched := by
  suffices ∃ s₀, Act.Calm seq call may fin (.init r) s₀ ∧ s₀.live.net.closed = false ∧
      s₀.live.net.go.sh.tr.out = s.live.net.go.sh.tr.out ∧ s₀.live.srv.dispatched <+: s.live.srv.dispatched ∧
      (s₀ = s ∨ s.live.net.closed = true ∨ DeadNet s.live.net) by
    obtain ⟨s₀, h1, h2, h3, h4, _⟩ := this
    exact ⟨s₀, h1, h2, h3, h4⟩
  induction h with
  | refl => exact ⟨_, .refl, rfl, rfl, List.prefix_refl _, .inl rfl⟩
  | @tail s s' hs st ih =>
    obtain ⟨s₀, h1, h2, h3, h4, h5⟩ := ih
    obtain ⟨progs, hn, hi⟩ := act_steps_net hs
    obtain ⟨progs', hn', _⟩ := act_steps_net (.tail hs st)
    have hdis := act_dispatched st
    rcases act_net hn hi st with ⟨g1, g2, g3, g4⟩ | ⟨g1, g2⟩
    · rcases h5 with rfl | h5 | h5
      · by_cases hc : s'.live.net.closed = true
        · exact ⟨s₀, h1, h2, g1.symm, hdis, .inr (.inl hc)⟩
        · have hf : ¬ TransportFailed s₀.live.net := by
            cases h1 with
            | refl => rintro ⟨_, i, op, q, k, e, a, h⟩; simp [Act.init, Live.init, NetSys.init, GoSys.init] at h
            | tail _ _ hf => exact hf
          exact ⟨s', .tail h1 st fun h => hf (g3 h), by simpa using hc, rfl, List.prefix_refl _, .inl rfl⟩
      · exact ⟨s₀, h1, h2, h3.trans g1.symm, h4.trans hdis, .inr (.inl (g4 h5))⟩
      · exact ⟨s₀, h1, h2, h3.trans g1.symm, h4.trans hdis, .inr (.inr (g2 h5))⟩
    · rcases h5 with rfl | h5 | h5
      · by_cases hf : TransportFailed s'.live.net
        · obtain ⟨k1, k2⟩ := failed_out hn' g1 hf
          exact ⟨s₀, h1, h2, k2.symm, hdis, .inr (.inr k1)⟩
        · exact ⟨s', .tail h1 st hf, by rw [g2]; exact h2, rfl, List.prefix_refl _, .inl rfl⟩
      · exact ⟨s₀, h1, h2, h3.trans (closed_out g1 h5).symm, h4.trans hdis, .inr (.inl (by rw [g2]; exact h5))⟩
      · obtain ⟨k1, k2⟩ := dead_net hn g1 h5
        exact ⟨s₀, h1, h2, h3.trans k2.symm, h4.trans hdis, .inr (.inr k1)⟩

/-! ## C68: what the peer gets -/

/-- C68.  What the server hands to the runner does not depend on the handlers: these are the
requests that `Receive` returns, in order, whatever the handlers do. -/
theorem adaptive_requests (seq : Bool) (call : ω → Call ⊕ Option Err) (may : May ω) (fin : ω) (r : Rd) (s : Act ω)
    (h : Act.Steps seq call may fin (.init r) s) :
    (receiveN s.live.srv.dispatched.length r).1 = s.live.srv.dispatched.map (fun q => (some q, none)) ∧
    (s.live.srv.rcv = .ended →
      ∃ o e r', Conn.receive (receiveN s.live.srv.dispatched.length r).2 = (o, some e, r')) := by
  obtain ⟨ops, f, h1, _⟩ := adaptive_run seq call may fin r s h
  exact served_requests _ _ _ r (s.live.push f) h1

/-- C68.  `SequentialRunner`, handlers of any kind: what the peer gets is a beginning of the
messages of what the handlers did, in the order of the requests; a handler did what it could do
knowing what had happened on the connection. -/
theorem adaptive_replies_any (may : May ConnOp) (r : Rd) (s : Act ConnOp)
    (h : Act.Steps true ConnOp.call may .flush (.init r) s) :
    ∃ ops : Nat → List ConnOp,
      s.live.net.go.sh.tr.out <+:
        ((s.live.srv.dispatched.mapIdx fun k _ => (ops k).flatMap ConnOp.message).flatten) ∧
      ∀ (k : Nat) (q : Request), s.live.srv.dispatched[k]? = some q → ∀ (j : Nat) (o : ConnOp), (ops k)[j]? = some o →
        ∃ l, l <+: s.live.net.go.log ∧ (l.filter (·.1 = k)).map (·.2.1) = (ops k).take j ∧ may k q l (some o) := by
  obtain ⟨ops, f, h1, h2⟩ := adaptive_run _ _ may _ r s h
  exact ⟨ops, served_replies (fun k _ => ops k) r (s.live.push f) h1, fun k q hk => (h2 k q hk).1⟩

/-- C68.  `SequentialRunner`, handlers that look at the results of their writes: at any moment,
also when writes fail, the peer has got a beginning of the messages of the handlers when nothing
fails, in the order of the requests.  What a handler does after a failed write does not get to
the peer. -/
theorem adaptive_replies (T : Request → Prog ConnOp) (r : Rd) (s : Act ConnOp)
    (h : Act.Steps true ConnOp.call (mayOf T) .flush (.init r) s) :
    s.live.net.go.sh.tr.out <+:
      s.live.srv.dispatched.flatMap fun q => ((T q).path ConnOp.call).flatMap ConnOp.message := by
  obtain ⟨s₀, h1, h2, h3, t, h4⟩ := adaptive_frozen _ _ _ _ r s h
  obtain ⟨f, h5, _⟩ := adaptive_calm_run _ _ T _ r s₀ h1 (.inl rfl)
  have := served_replies (fun _ q => (T q).path ConnOp.call) r _ h5.steps
  rw [mapIdx_flatten (fun q => ((T q).path ConnOp.call).flatMap ConnOp.message)] at this
  rw [← h3, ← h4, List.flatMap_append]
  exact this.trans (List.prefix_append _ _)

/-- C68.  `SequentialRunner`, handlers that look at the results of their writes, as long as the
transport has not failed: between two requests, and when the connection has been closed, the peer
has got the messages of the handlers when nothing fails, complete and in order. -/
theorem adaptive_all_healthy (T : Request → Prog ConnOp) (r : Rd) (s : Act ConnOp)
    (h : Act.Calm true ConnOp.call (mayOf T) .flush (.init r) s) (hp : s.live.srv.phase ≠ .busy) :
    s.live.net.go.sh.tr.out =
      s.live.srv.dispatched.flatMap fun q => ((T q).path ConnOp.call).flatMap ConnOp.message := by
  obtain ⟨f, h5, _⟩ := adaptive_calm_run _ _ T _ r s h (.inl rfl)
  have := served_all_healthy (fun _ q => (T q).path ConnOp.call) r _ h5 hp
  rw [mapIdx_flatten (fun q => ((T q).path ConnOp.call).flatMap ConnOp.message)] at this
  exact this

/-- C68.  Any runner, handlers that look at the results of their writes: at any moment, also when
writes fail, the peer has got a beginning of messages of handlers in the case that nothing fails,
of some of them, in some order. -/
theorem adaptive_some (seq : Bool) (T : Request → Prog ConnOp) (r : Rd) (s : Act ConnOp)
    (h : Act.Steps seq ConnOp.call (mayOf T) .flush (.init r) s) :
    ∃ calls rest : List ConnOp,
      (calls ++ rest).Perm (s.live.srv.dispatched.flatMap fun q => (T q).path ConnOp.call ++ [.flush]) ∧
      s.live.net.go.sh.tr.out <+: calls.flatMap ConnOp.message := by
  obtain ⟨s₀, h1, h2, h3, t, h4⟩ := adaptive_frozen _ _ _ _ r s h
  obtain ⟨f, h5, _⟩ := adaptive_calm_run _ _ T _ r s₀ h1 (.inr h2)
  obtain ⟨calls, rest, g1, g2⟩ := served_some seq (fun _ q => (T q).path ConnOp.call) r _ h5.steps
  rw [show serveOps (fun _ q => (T q).path ConnOp.call) = fun _ q => (T q).path ConnOp.call ++ [.flush] from rfl,
    mapIdx_flatten (fun q => (T q).path ConnOp.call ++ [ConnOp.flush])] at g1
  refine ⟨calls, rest ++ t.flatMap (fun q => (T q).path ConnOp.call ++ [.flush]), ?_, by rw [← h3]; exact g2⟩
  rw [← h4, List.flatMap_append, ← List.append_assoc]
  exact g1.append_right _

/-- C68.  Any runner, handlers that look at the results of their writes, as long as the transport
has not failed and the connection is open: when the handlers have returned, the peer has got
exactly their messages in the case that nothing fails, in the order of the writes. -/
theorem adaptive_all_open (seq : Bool) (T : Request → Prog ConnOp) (r : Rd) (s : Act ConnOp)
    (h : Act.Calm seq ConnOp.call (mayOf T) .flush (.init r) s) (hc : s.live.net.closed = false)
    (hd : ∀ t ∈ s.live.srv.tasks, t.2 = .done) :
    s.live.net.go.sh.tr.out = (s.live.net.go.log.map (·.2.1)).flatMap ConnOp.message ∧
    (s.live.net.go.log.map (·.2.1)).Perm
      (s.live.srv.dispatched.flatMap fun q => (T q).path ConnOp.call ++ [.flush]) := by
  obtain ⟨f, h5, _⟩ := adaptive_calm_run _ _ T _ r s h (.inr hc)
  obtain ⟨g1, g2⟩ := served_all_open seq (fun _ q => (T q).path ConnOp.call) r _ h5 hc hd
  rw [show serveOps (fun _ q => (T q).path ConnOp.call) = fun _ q => (T q).path ConnOp.call ++ [.flush] from rfl,
    mapIdx_flatten (fun q => (T q).path ConnOp.call ++ [ConnOp.flush])] at g2
  exact ⟨g1, g2⟩

/-- C69, C70.  What a peer gets from a handler that performs given operations, it gets from a
handler that looks at their results and performs these when nothing fails. -/
theorem adaptive_answers (T : Request → Prog ConnOp) (r : Rd) (as : List (Request × Bytes))
    (ha : Answers (fun q => (T q).path ConnOp.call) r as) :
    (∀ s, Act.Steps true ConnOp.call (mayOf T) .flush (.init r) s →
      s.live.net.go.sh.tr.out <+: serialise (as.map (·.1))) ∧
    ∀ s, Act.Calm true ConnOp.call (mayOf T) .flush (.init r) s → s.live.srv.phase = .gone → s.live.srv.rcv = .ended →
      s.live.net.go.sh.tr.out = serialise (as.map (·.1)) ∧
      ∀ (F' : Err) (back : Rd), back.Ok F' → back.Sep → back.content = s.live.net.go.sh.tr.out →
        (receiveN as.length back).1 = as.map (fun p => (some (asReceived p), none)) ∧
        ∃ r', Conn.receive (receiveN as.length back).2 = (none, some F', r') := by
  refine ⟨fun s h => ?_, fun s h hp he => ?_⟩
  · obtain ⟨s₀, h1, _, h3, _⟩ := adaptive_frozen _ _ _ _ r s h
    obtain ⟨f, h5, _⟩ := adaptive_calm_run _ _ T _ r s₀ h1 (.inl rfl)
    rw [← h3]
    exact ha.1 (s₀.live.push f) h5.steps
  · obtain ⟨f, h5, _⟩ := adaptive_calm_run _ _ T _ r s h (.inl rfl)
    exact ha.2 (s.live.push f) h5 hp he

/-- C69, C70.  The same with any runner. -/
theorem adaptive_answers_any {α : Type} (seq : Bool) (T : Request → Prog ConnOp) (r : Rd) (qs : List α)
    (ans : α → Option (Request × Bytes)) (ha : AnswersAny seq (fun q => (T q).path ConnOp.call) r qs ans) :
    (∀ s, Act.Steps seq ConnOp.call (mayOf T) .flush (.init r) s →
      ∃ as rest : List (Request × Bytes), (as ++ rest).Perm ((qs.take s.live.srv.dispatched.length).filterMap ans) ∧
        s.live.net.go.sh.tr.out <+: serialise (as.map (·.1))) ∧
    ∀ s, Act.Calm seq ConnOp.call (mayOf T) .flush (.init r) s → s.live.net.closed = false →
      (∀ t ∈ s.live.srv.tasks, t.2 = .done) →
      ∃ as : List (Request × Bytes), as.Perm ((qs.take s.live.srv.dispatched.length).filterMap ans) ∧
        s.live.net.go.sh.tr.out = serialise (as.map (·.1)) ∧
        ∀ (F' : Err) (back : Rd), back.Ok F' → back.Sep → back.content = s.live.net.go.sh.tr.out →
          (receiveN as.length back).1 = as.map (fun p => (some (asReceived p), none)) ∧
          ∃ r', Conn.receive (receiveN as.length back).2 = (none, some F', r') := by
  refine ⟨fun s h => ?_, fun s h hc hd => ?_⟩
  · obtain ⟨s₀, h1, h2, h3, h4⟩ := adaptive_frozen _ _ _ _ r s h
    obtain ⟨f, h5, _⟩ := adaptive_calm_run _ _ T _ r s₀ h1 (.inr h2)
    obtain ⟨as, rest, g1, g2⟩ := ha.1 _ h5.steps
    rw [← h3]
    refine ⟨as, rest ++ (((qs.take s.live.srv.dispatched.length).drop s₀.live.srv.dispatched.length).filterMap ans), ?_, g2⟩
    rw [← List.append_assoc]
    have hle := h4.length_le
    have : (qs.take s.live.srv.dispatched.length).filterMap ans =
        (qs.take s₀.live.srv.dispatched.length).filterMap ans ++
          ((qs.take s.live.srv.dispatched.length).drop s₀.live.srv.dispatched.length).filterMap ans := by
      rw [← List.filterMap_append]
      congr 1
      conv => lhs; rw [← List.take_append_drop s₀.live.srv.dispatched.length (qs.take s.live.srv.dispatched.length)]
      rw [List.take_take, Nat.min_eq_left hle]
    rw [this]
    exact g1.append_right _
  · obtain ⟨f, h5, _⟩ := adaptive_calm_run _ _ T _ r s h (.inr hc)
    exact ha.2 (s.live.push f) h5 hc hd

/-! ## C68: the handlers get done -/

theorem Act.Calm.trans {s s' s'' : Act ω} (h : Act.Calm seq call may fin s s') (g : Act.Calm seq call may fin s' s'') :
    Act.Calm seq call may fin s s'' := by
  induction g with
  | refl => exact h
  | tail _ st hf ih => exact .tail ih st hf

private theorem act_calm_ok {s : Act ω} (h : Act.Calm seq call may fin (.init r) s) : ¬ TransportFailed s.live.net := by
  cases h with
  | refl => rintro ⟨_, i, op, q, k, e, a, h⟩; simp [Act.init, Live.init, NetSys.init, GoSys.init] at h
  | tail _ _ hf => exact hf

/-- A step of a goroutine that has decided on its operation does not depend on what is after it. -/
private theorem unpush {n n₂ : NetSys ω} {g : Nat → List ω} (h : NetSys.Step call (n.push g) n₂)
    (hi : ∀ i op rest, (n.push g).go.th i = ⟨op :: rest, none⟩ → n₂.go.th i ≠ (n.push g).go.th i → (n.go.th i).todo ≠ []) :
    ∃ n', NetSys.Step call n n' ∧ n₂ = n'.push g := by
  have set' : ∀ (j : Nat) (t : GoThread ω NetPos), (n.push g).go.set j ⟨t.todo ++ g j, t.pc⟩ =
      fun k => ⟨(n.go.set j t k).todo ++ g k, (n.go.set j t k).pc⟩ := by
    intro j t
    funext k
    simp only [GoSys.set]
    by_cases hk : k = j
    · subst hk; simp
    · simp [hk, NetSys.push]
  have at' : ∀ (j : Nat) (op : ω) (m : NetPos),
      (n.push g).go.at j op m = (NetSys.push ⟨n.go.at j op m, n.closed⟩ g).go := by
    intro j op m
    have := set' j ⟨(n.go.th j).todo, some (op, m)⟩
    simp only [GoSys.at]
    simp only [NetSys.push] at this ⊢
    rw [this]
  have thd : ∀ (j : Nat) (op : ω) (rest : List ω), (n.push g).go.th j = ⟨op :: rest, none⟩ → (n.go.th j).todo ≠ [] →
      ∃ rest', n.go.th j = ⟨op :: rest', none⟩ ∧ rest = rest' ++ g j := by
    intro j op rest hj hne
    cases ht : n.go.th j with
    | mk todo pc =>
      rw [ht] at hne
      simp only [NetSys.push, ht, GoThread.mk.injEq] at hj
      obtain ⟨h1, rfl⟩ := hj
      cases todo with
      | nil => simp at hne
      | cons o todo =>
        simp only [List.cons_append, List.cons.injEq] at h1
        obtain ⟨rfl, rfl⟩ := h1
        exact ⟨todo, rfl, rfl⟩
  have thp : ∀ (j : Nat) (todo : List ω) (x : ω × NetPos), (n.push g).go.th j = ⟨todo, some x⟩ →
      ∃ todo', n.go.th j = ⟨todo', some x⟩ ∧ todo = todo' ++ g j := by
    intro j todo x hj
    cases ht : n.go.th j with
    | mk todo' pc =>
      simp only [NetSys.push, ht, GoThread.mk.injEq] at hj
      obtain ⟨rfl, rfl⟩ := hj
      exact ⟨todo', rfl, rfl⟩
  cases h with
  | close hc => exact ⟨_, .close n hc, rfl⟩
  | reset j op q m ctx e ht hc =>
    refine ⟨_, .reset n j op q m ctx e ht hc, ?_⟩
    rw [at' j]; rfl
  | take j op x q m ctx ht hc =>
    refine ⟨_, .take n j op x q m ctx ht hc, ?_⟩
    rw [at' j]; rfl
  | sure h =>
    cases h with
    | abort j op q m ctx ht hc =>
      refine ⟨_, .sure (.abort n j op q m ctx ht hc), ?_⟩
      rw [at' j]; rfl
    | go c' h =>
      cases h with
      | skip j op rest e ht hc =>
        obtain ⟨rest', h1, rfl⟩ := thd j op rest ht (hi j op rest ht (by
          simp only [GoSys.set, if_true]; rw [ht]; simp))
        refine ⟨_, .sure (.go n _ (.skip n.go j op rest' e h1 hc)), ?_⟩
        rw [set' j ⟨rest', none⟩]; rfl
      | lock j op rest k ht hc hm =>
        obtain ⟨rest', h1, rfl⟩ := thd j op rest ht (hi j op rest ht (by
          simp only [GoSys.set, if_true]; rw [ht]; simp))
        refine ⟨_, .sure (.go n _ (.lock n.go j op rest' k h1 hc hm)), ?_⟩
        rw [set' j ⟨rest', some (op, _)⟩]; rfl
      | step j todo op m m' sh' ht hs =>
        obtain ⟨todo', h1, rfl⟩ := thp j todo _ ht
        refine ⟨_, .sure (.go n _ (.step n.go j todo' op m m' sh' h1 hs)), ?_⟩
        rw [set' j ⟨todo', some (op, m')⟩]; rfl
      | unlock j todo op m e ht he =>
        obtain ⟨todo', h1, rfl⟩ := thp j todo _ ht
        refine ⟨_, .sure (.go n _ (.unlock n.go j todo' op m e h1 he)), ?_⟩
        rw [set' j ⟨todo', none⟩]; rfl

/-- The handlers of `l` have made up their minds, those of `s` are going to do the same. -/
private structure Ahead (s : Act ω) (l : Live ω) (f : Nat → List ω) : Prop where
  eq : l = s.live.push f
  ret : ∀ (k : Nat) (q : Request) (pc : TaskPc), s.live.srv.tasks[k]? = some (q, pc) → pc ≠ .pending → (f k = [] ↔ s.ret k = true)

private theorem split_active {l : List (Request × TaskPc)} {k : Nat} {q : Request} {pc : TaskPc} (h : l[k]? = some (q, pc)) :
    ∃ a b, l = a ++ (q, pc) :: b ∧ a.length = k := by
  obtain ⟨h1, h2⟩ := List.getElem?_eq_some_iff.mp h
  refine ⟨l.take k, l.drop (k + 1), ?_, by simp; omega⟩
  rw [← h2, ← List.drop_eq_getElem_cons h1, List.take_append_drop]

/-- A handler decides on its next operation. -/
private theorem ahead_issue {T : Request → Prog ω} {s : Act ω} {l : Live ω} {f : Nat → List ω}
    (hs : Act.Calm seq call (mayOf T) fin (.init r) s) (ha : Ahead s l f)
    (hl : Live.Calm seq call (fun _ q => (T q).path call ++ [fin]) (.init r) l) (hc : seq = true ∨ l.net.closed = false)
    (i : Nat) (op : ω) (rest : List ω) (hi : l.net.go.th i = ⟨op :: rest, none⟩) :
    ∃ s' f', Act.Calm seq call (mayOf T) fin s s' ∧ Ahead s' l f' ∧ (s'.live.net.go.th i).todo ≠ [] := by
  by_cases hne : (s.live.net.go.th i).todo = []
  · cases ht : l.srv.tasks[i]? with
    | none =>
      have := NetSys.idle (Live.net_run hl.steps) i (by simp [progsOf, ht, taskProg])
      rw [hi] at this; simp at this
    | some t =>
      obtain ⟨q, pc⟩ := t
      have hpc : pc = .active := by
        cases pc with
        | active => rfl
        | pending =>
          have := NetSys.idle (Live.net_run hl.steps) i (by simp [progsOf, ht, taskProg])
          rw [hi] at this; simp at this
        | handled => have := Live.idle_run hl.steps i q _ ht (.inl rfl); rw [hi] at this; simp at this
        | done => have := Live.idle_run hl.steps i q _ ht (.inr rfl); rw [hi] at this; simp at this
      subst hpc
      obtain ⟨rfl, hret⟩ := ha
      have ht' : s.live.srv.tasks[i]? = some (q, .active) := ht
      have hown := own_log hl.steps i q .active ht (by decide)
      rw [hi] at hown
      simp only [GoThread.current, List.append_nil] at hown
      have hth : s.live.net.go.th i = ⟨[], none⟩ ∧ f i = op :: rest := by
        cases hx : s.live.net.go.th i with
        | mk todo pc =>
          rw [hx] at hne
          simp only at hne
          subst hne
          simp only [Live.push, NetSys.push, hx, progsOf, ht', taskProg, List.nil_append, GoThread.mk.injEq] at hi
          exact ⟨by rw [hi.2], hi.1⟩
      obtain ⟨hth, hfi⟩ := hth
      have hr : s.ret i = false := by
        cases hb : s.ret i with
        | false => rfl
        | true => have := (hret i q .active ht' (by simp)).mpr hb; rw [hfi] at this; simp at this
      have hresults : ownResults i s.live.net.go.log =
          ((s.live.net.go.log.filter (·.1 = i)).map (·.2.1)).map (result call) := by
        rw [ownResults, List.map_map]
        refine List.map_congr_left fun x hx => ?_
        exact calm_results hl hc x (List.mem_filter.mp hx).1
      obtain ⟨a, b, hab, rfl⟩ := split_active ht'
      have hown' : (s.live.net.go.log.filter (·.1 = a.length)).map (·.2.1) ++ op :: rest = (T q).path call ++ [fin] := hown
      have push_eq : ∀ p : List ω, f a.length = p ++ (f a.length).drop p.length → ∀ b',
          Ahead (⟨{ s.live with net := s.live.net.spawn a.length p }, b'⟩ : Act ω) (s.live.push f)
            (fun k => if k = a.length then (f k).drop p.length else f k) ↔
          (∀ (k : Nat) (q : Request) (pc : TaskPc), s.live.srv.tasks[k]? = some (q, pc) → pc ≠ .pending →
            ((if k = a.length then (f k).drop p.length else f k) = [] ↔ b' k = true)) := by
        intro p hp b'
        refine ⟨fun h => h.ret, fun h => ⟨?_, h⟩⟩
        have : s.live.net.push (progsOf (fun k _ => f k) s.live.srv.tasks) =
            (s.live.net.spawn a.length p).push
              (progsOf (fun k _ => if k = a.length then (f k).drop p.length else f k) s.live.srv.tasks) := by
          simp only [NetSys.push, NetSys.spawn, NetSys.mk.injEq, GoSys.mk.injEq, true_and, and_true]
          funext k
          simp only [GoSys.set]
          by_cases hk : k = a.length
          · subst hk
            simp only [if_true, progsOf, ht', taskProg, hth, List.nil_append]
            rw [← hp]
          · simp only [hk, if_false, progsOf]
        simp only [Live.push]
        rw [this]
      by_cases hrest : rest = []
      · subst hrest
        obtain ⟨hp1, hp2⟩ := List.append_inj' hown' (by simp)
        simp only [List.cons.injEq, and_true] at hp2
        subst hp2
        refine ⟨_, _, .tail .refl (.ret s a q b hab hth hr ?_) ?_, (push_eq [op] (by rw [hfi]; simp) _).mpr ?_, ?_⟩
        · rw [mayOf, hresults]
          exact after_path call _ [] _ (by rw [← hp1, List.append_nil])
        · exact fun h => act_calm_ok hs (spawn_failed _ _ h)
        · intro k q' pc h1 h2
          by_cases hk : k = a.length
          · subst hk; simp [hfi]
          · simp only [hk, if_false]; exact hret k q' pc h1 h2
        · simp [NetSys.spawn, GoSys.set]
      · obtain ⟨pre, hpre⟩ : ∃ pre, rest = pre ++ [fin] := by
          have : (op :: rest).getLast? = some fin := by
            have := congrArg List.getLast? hown'
            simpa [List.getLast?_append] using this
          rcases List.eq_nil_or_concat rest with g | ⟨pre, x, g⟩
          · exact absurd g hrest
          · refine ⟨pre, ?_⟩
            rw [List.concat_eq_append] at g
            rw [g] at this ⊢
            rw [show op :: (pre ++ [x]) = (op :: pre) ++ [x] from rfl, List.getLast?_concat] at this
            simp only [Option.some.injEq] at this
            rw [this]
        subst hpre
        have hp : (T q).path call = (s.live.net.go.log.filter (·.1 = a.length)).map (·.2.1) ++ op :: pre := by
          have : ((s.live.net.go.log.filter (·.1 = a.length)).map (·.2.1) ++ op :: pre) ++ [fin] = (T q).path call ++ [fin] := by
            rw [← hown']; simp
          exact (List.append_cancel_right this).symm
        refine ⟨_, _, .tail .refl (.issue s a q b op hab hth hr ?_) ?_, (push_eq [op] (by rw [hfi]; simp) _).mpr ?_, ?_⟩
        · rw [mayOf, hresults]
          exact after_path call _ (op :: pre) _ hp
        · exact fun h => act_calm_ok hs (spawn_failed _ _ h)
        · intro k q' pc h1 h2
          by_cases hk : k = a.length
          · subst hk; simp [hfi, hr]
          · simp only [hk, if_false]; exact hret k q' pc h1 h2
        · simp [NetSys.spawn, GoSys.set]
  · exact ⟨s, f, .refl, ha, hne⟩

/-- Who has started does not change, except that a handler starts. -/
private theorem quiet_back {s s' : Live ω} {room stopped : Bool} {eff : Effect} (st : ConnSt.Step seq room stopped s.srv eff s'.srv)
    (hq : s.srv.Quiet s'.srv) (k : Nat) (q : Request) (pc : TaskPc) (h : s'.srv.tasks[k]? = some (q, pc)) (hp : pc ≠ .pending) :
    ∃ pc', s.srv.tasks[k]? = some (q, pc') ∧ pc' ≠ .pending := by
  have h1 := st.progsOf hq (fun _ (q : Request) => [q])
  have h2 := congrFun h1 k
  simp only [progsOf, h] at h2
  cases ht : s.srv.tasks[k]? with
  | none => rw [ht] at h2; cases pc <;> simp_all [taskProg]
  | some t =>
    obtain ⟨q', pc'⟩ := t
    rw [ht] at h2
    cases pc <;> cases pc' <;> simp_all [taskProg]

private theorem quiet_handled {s s' : ConnSt} {room stopped : Bool} {eff : Effect} (st : ConnSt.Step seq room stopped s eff s')
    (hq : s.Quiet s') (k : Nat) (q : Request) (h1 : s.tasks[k]? = some (q, .active)) (h2 : s'.tasks[k]? = some (q, .handled)) :
    False := by
  obtain ⟨hq1, hq2, t, hq3, hq4⟩ := hq
  cases st with
  | taskHandle a q b h =>
    have := hq4 (.handle q) (by have := List.append_cancel_left hq3; rw [← this]; simp)
    simp at this
  | taskActive a q b h =>
    have := hq4 (.state (requestState q)) (by
      have := List.append_cancel_left hq3; rw [← this]; simp)
    simp [requestState] at this
    split at this <;> simp at this
  | deliver q' h3 h4 =>
    have hk := (List.getElem?_eq_some_iff.mp h1).1
    simp only at h2
    rw [List.getElem?_append_left hk] at h2
    rw [h1] at h2; simp at h2
  | taskDone a q' b h =>
    simp only at h2
    rw [h] at h1
    by_cases hk : k < a.length
    · rw [List.getElem?_append_left hk] at h1 h2; rw [h1] at h2; simp at h2
    · rw [List.getElem?_append_right (by omega)] at h1 h2
      cases hd : k - a.length with
      | zero => rw [hd] at h1; simp at h1
      | succ d => rw [hd] at h1 h2; simp only [List.getElem?_cons_succ] at h1 h2; rw [h1] at h2; simp at h2
  | _ => simp only at h2; rw [h1] at h2; simp at h2

private theorem ahead_step {T : Request → Prog ω} {s : Act ω} {l l' : Live ω} {f : Nat → List ω}
    (hs : Act.Calm seq call (mayOf T) fin (.init r) s) (ha : Ahead s l f)
    (hl : Live.Calm seq call (fun _ q => (T q).path call ++ [fin]) (.init r) l)
    (st : Live.Step seq call (fun _ q => (T q).path call ++ [fin]) l l') (hf : ¬ TransportFailed l'.net)
    (hc : seq = true ∨ l'.net.closed = false) :
    ∃ s' f', Act.Calm seq call (mayOf T) fin s s' ∧ Ahead s' l' f' := by
  have hc0 : seq = true ∨ l.net.closed = false := hc.imp_right (closed_mono st)
  cases st with
  | receive q r' h hr =>
    obtain ⟨rfl, hret⟩ := ha
    exact ⟨_, f, .tail .refl (.live s _ (.receive s.live q r' h hr) (fun k q h1 h2 => by
      rw [show _ = _ from h1] at h2; simp at h2)) hf, rfl, hret⟩
  | receiveErr o e r' h hr =>
    obtain ⟨rfl, hret⟩ := ha
    exact ⟨_, f, .tail .refl (.live s _ (.receiveErr s.live o e r' h hr) (fun k q h1 h2 => by
      rw [show _ = _ from h1] at h2; simp at h2)) hf, rfl, hret⟩
  | refuseClose h =>
    obtain ⟨rfl, hret⟩ := ha
    exact ⟨_, f, .tail .refl (.live s _ (.refuseClose s.live h) (fun k q h1 h2 => by
      rw [show _ = _ from h1] at h2; simp at h2)) hf, rfl, hret⟩
  | close h =>
    obtain ⟨rfl, hret⟩ := ha
    exact ⟨_, f, .tail .refl (.live s _ (.close s.live h) (fun k q h1 h2 => by
      rw [show _ = _ from h1] at h2; simp at h2)) hf, rfl, hret⟩
  | other eff srv' room stopped st hq =>
    obtain ⟨rfl, hret⟩ := ha
    refine ⟨⟨{ s.live with srv := srv' }, s.ret⟩, f, .tail .refl (.live s _ (.other s.live eff srv' room stopped st hq) ?_) hf, ?_, ?_⟩
    · exact fun k q h1 h2 => (quiet_handled st hq k q h1 h2).elim
    · simp only [Live.push]
      rw [st.progsOf hq]
      rfl
    · intro k q pc h1 h2
      obtain ⟨pc', g1, g2⟩ := quiet_back (s := s.live) (s' := { s.live with srv := srv' }) st hq k q pc h1 h2
      exact hret k q pc' g1 g2
  | handled a q b h hd =>
    obtain ⟨rfl, hret⟩ := ha
    have h' : s.live.srv.tasks = a ++ (q, .active) :: b := h
    have hk : s.live.srv.tasks[a.length]? = some (q, .active) := by rw [h']; exact at_length a b q .active
    have hd' : s.live.net.go.th a.length = ⟨[], none⟩ ∧ f a.length = [] := by
      cases hx : s.live.net.go.th a.length with
      | mk todo pc =>
        simp only [Live.push, NetSys.push, hx, progsOf, hk, taskProg, GoThread.mk.injEq, List.append_eq_nil_iff] at hd
        obtain ⟨⟨rfl, h2⟩, rfl⟩ := hd
        exact ⟨rfl, h2⟩
    have hra := (hret a.length q .active hk (by simp)).mp hd'.2
    refine ⟨_, f, .tail .refl (.live s _ (.handled s.live a q b h' hd'.1) fun k q' h1 h2 => ?_) hf, ?_, ?_⟩
    · by_cases hka : k = a.length
      · subst hka; exact hra
      · exfalso
        rw [h'] at h1
        simp only at h2
        by_cases hk : k < a.length
        · rw [List.getElem?_append_left hk] at h1 h2; rw [h1] at h2; simp at h2
        · rw [List.getElem?_append_right (by omega)] at h1 h2
          cases hdd : k - a.length with
          | zero => omega
          | succ d => rw [hdd] at h1 h2; simp only [List.getElem?_cons_succ] at h1 h2; rw [h1] at h2; simp at h2
    · simp only [Live.push]
      rw [progsOf_same _ a b q .handled .active (by simp) (by simp), ← h']
    · intro k q' pc h1 h2
      simp only at h1
      by_cases hka : k = a.length
      · subst hka
        rw [at_length] at h1
        simp [hd'.2, hra]
      · refine hret k q' pc ?_ h2
        rw [h']
        by_cases hk : k < a.length
        · rw [List.getElem?_append_left hk] at h1 ⊢; exact h1
        · rw [List.getElem?_append_right (by omega)] at h1 ⊢
          cases hdd : k - a.length with
          | zero => omega
          | succ d => rw [hdd] at h1; simpa only [List.getElem?_cons_succ] using h1
  | begin a q b h =>
    obtain ⟨ops, inv⟩ := act_inv (fun _ _ _ => trivial) (act_steps_runs hs.steps)
    obtain ⟨rfl, hret⟩ := ha
    have h' : s.live.srv.tasks = a ++ (q, .pending) :: b := h
    have hk : s.live.srv.tasks[a.length]? = some (q, .pending) := by rw [h']; exact at_length a b q .pending
    obtain ⟨_, hra⟩ := inv.fresh a.length fun q' pc hx => by
      rw [hk] at hx
      simp only [Option.some.injEq, Prod.mk.injEq] at hx
      exact hx.2.symm
    refine ⟨_, fun k => if k = a.length then (T q).path call ++ [fin] else f k,
      .tail .refl (.live s _ (.begin s.live a q b h') fun k q' h1 h2 => ?_) ?_, ?_, ?_⟩
    · exfalso
      rw [h'] at h1
      simp only at h2
      by_cases hk : k < a.length
      · rw [List.getElem?_append_left hk] at h1 h2; rw [h1] at h2; simp at h2
      · rw [List.getElem?_append_right (by omega)] at h1 h2
        cases hdd : k - a.length with
        | zero => rw [hdd] at h1; simp at h1
        | succ d => rw [hdd] at h1 h2; simp only [List.getElem?_cons_succ] at h1 h2; rw [h1] at h2; simp at h2
    · exact fun h => act_calm_ok hs (spawn_failed _ _ h)
    · simp only [Live.push]
      have : (s.live.net.push (progsOf (fun k _ => f k) s.live.srv.tasks)).spawn a.length ((T q).path call ++ [fin]) =
          (s.live.net.spawn a.length []).push
            (progsOf (fun k _ => if k = a.length then (T q).path call ++ [fin] else f k) (a ++ (q, .active) :: b)) := by
        obtain ⟨_, p2, _⟩ := progsOf_begin (fun k _ => if k = a.length then (T q).path call ++ [fin] else f k) a b q
        obtain ⟨_, _, p3⟩ := progsOf_begin (fun k _ => f k) a b q
        simp only [NetSys.push, NetSys.spawn, NetSys.mk.injEq, GoSys.mk.injEq, true_and, and_true]
        funext k
        simp only [GoSys.set]
        by_cases hka : k = a.length
        · subst hka; simp [p2]
        · simp only [hka, if_false, h']
          rw [← p3 k hka]
          simp only [progsOf, hka, if_false]
      rw [this]
    · intro k q' pc h1 h2
      simp only at h1
      by_cases hka : k = a.length
      · subst hka; simp [hra]
      · simp only [hka, if_false]
        refine hret k q' pc ?_ h2
        rw [h']
        by_cases hk : k < a.length
        · rw [List.getElem?_append_left hk] at h1 ⊢; exact h1
        · rw [List.getElem?_append_right (by omega)] at h1 ⊢
          cases hdd : k - a.length with
          | zero => omega
          | succ d => rw [hdd] at h1; simpa only [List.getElem?_cons_succ] using h1
  | net n' st hcl =>
    have key : ∃ s' f', Act.Calm seq call (mayOf T) fin s s' ∧ Ahead s' l f' ∧
        ∀ i op rest, l.net.go.th i = ⟨op :: rest, none⟩ → n'.go.th i ≠ l.net.go.th i → (s'.live.net.go.th i).todo ≠ [] := by
      by_cases hex : ∃ i op rest, l.net.go.th i = ⟨op :: rest, none⟩ ∧ n'.go.th i ≠ l.net.go.th i
      · obtain ⟨i, op, rest, h1, h2⟩ := hex
        obtain ⟨s', f', g1, g2, g3⟩ := ahead_issue hs ha hl hc0 i op rest h1
        refine ⟨s', f', g1, g2, fun j op' rest' h3 h4 => ?_⟩
        have : j = i := by
          refine Decidable.byContradiction fun hne => ?_
          have set' : ∀ (m : Nat) (t : GoThread ω NetPos), l.net.go.set m t i ≠ l.net.go.th i → l.net.go.set m t j ≠ l.net.go.th j → False := by
            intro m t k1 k2
            simp only [GoSys.set] at k1 k2
            split at k1
            · split at k2
              · omega
              · exact k2 rfl
            · exact k1 rfl
          cases st with
          | close => exact h2 rfl
          | reset => exact set' _ _ h2 h4
          | take => exact set' _ _ h2 h4
          | sure h =>
            cases h with
            | abort => exact set' _ _ h2 h4
            | go c' h => cases h <;> exact set' _ _ h2 h4
        subst this
        exact g3
      · exact ⟨s, f, .refl, ha, fun i op rest h1 h2 => absurd ⟨i, op, rest, h1, h2⟩ hex⟩
    obtain ⟨s', f', g1, ⟨rfl, hret⟩, g3⟩ := key
    obtain ⟨n₁, k1, rfl⟩ := unpush st g3
    exact ⟨_, f', .tail g1 (.live s' _ (.net s'.live n₁ k1 hcl) (fun k q h1 h2 => by
      rw [show _ = _ from h1] at h2; simp at h2)) hf, rfl, hret⟩

/-- C68.  The converse of `adaptive_calm_run`: handlers that look at the results of their
operations can do what handlers can do that perform the operations of the case that nothing
fails. -/
theorem adaptive_follows (seq : Bool) (call : ω → Call ⊕ Option Err) (T : Request → Prog ω) (fin : ω) (r : Rd) (s : Act ω)
    (h : Act.Calm seq call (mayOf T) fin (.init r) s) (f : Nat → List ω)
    (hl : Live.Calm seq call (fun _ q => (T q).path call ++ [fin]) (.init r) (s.live.push f))
    (hret : ∀ (k : Nat) (q : Request) (pc : TaskPc), s.live.srv.tasks[k]? = some (q, pc) → pc ≠ .pending →
      (f k = [] ↔ s.ret k = true))
    (l : Live ω) (hl' : Live.Calm seq call (fun _ q => (T q).path call ++ [fin]) (s.live.push f) l)
    (hc : seq = true ∨ l.net.closed = false) :
    ∃ (s' : Act ω) (f' : Nat → List ω), Act.Calm seq call (mayOf T) fin s s' ∧ l = s'.live.push f' := by
  have : ∃ s' f', Act.Calm seq call (mayOf T) fin s s' ∧ Ahead s' l f' := by
    induction hl' with
    | refl => exact ⟨s, f, .refl, rfl, hret⟩
    | @tail l l' h1 st hf ih =>
      obtain ⟨s₁, f₁, g1, g2⟩ := ih (hc.imp_right (closed_mono st))
      obtain ⟨s₂, f₂, g3, g4⟩ := ahead_step (h.trans g1) g2 (hl.trans h1) st hf hc
      exact ⟨s₂, f₂, g1.trans g3, g4⟩
  obtain ⟨s', f', g1, g2⟩ := this
  exact ⟨s', f', g1, g2.eq⟩

/-- C68.  `SequentialRunner`, handlers that look at the results of their writes: wherever the
connection is (served, not stopped, its transport not failed), it can go on to where everything
that was on the stream has been handled and the connection is closed. -/
theorem adaptive_to_end (call : ω → Call ⊕ Option Err) (T : Request → Prog ω) (fin : ω) (F : Err) (r : Rd) (hr : r.Ok F)
    (s : Act ω) (h : Act.Calm true call (mayOf T) fin (.init r) s) (hl : s.live.srv.leaked = false)
    (ho : s.live.srv.rcv ≠ .off) :
    ∃ s', Act.Calm true call (mayOf T) fin s s' ∧ s'.live.srv.phase = .gone ∧ s'.live.srv.rcv = .ended := by
  obtain ⟨f, h1, h2⟩ := adaptive_calm_run true call T fin r s h (.inl rfl)
  obtain ⟨l, g1, g2, g3, _⟩ := served_to_end true call _ F r hr (s.live.push f) h1 hl ho
  obtain ⟨s', f', k1, rfl⟩ := adaptive_follows true call T fin r s h f h1 h2 l g1 (.inl rfl)
  exact ⟨s', k1, g2, g3⟩

/-- C68.  Any runner: while the connection is open, the handlers that have been started can
finish. -/
theorem adaptive_drains (seq : Bool) (call : ω → Call ⊕ Option Err) (T : Request → Prog ω) (fin : ω) (F : Err) (r : Rd)
    (hr : r.Ok F) (s : Act ω) (h : Act.Calm seq call (mayOf T) fin (.init r) s)
    (hc : seq = true ∨ s.live.net.closed = false) :
    ∃ s', Act.Calm seq call (mayOf T) fin s s' ∧ (∀ t ∈ s'.live.srv.tasks, t.2 = .done) ∧
      s'.live.srv.dispatched = s.live.srv.dispatched ∧ s'.live.net.closed = s.live.net.closed := by
  obtain ⟨f, h1, h2⟩ := adaptive_calm_run seq call T fin r s h hc
  obtain ⟨l, g1, g2, _, g3, g4⟩ := served_drains seq call _ F r hr (s.live.push f) h1
  obtain ⟨s', f', k1, rfl⟩ := adaptive_follows seq call T fin r s h f h1 h2 l g1 (hc.imp_right fun hc => by rw [g4]; exact hc)
  exact ⟨s', k1, g2, g3, g4⟩

/-- C68.  A connection that is admitted comes to where `adaptive_to_end` starts. -/
theorem adaptive_starts (seq : Bool) (call : ω → Call ⊕ Option Err) (T : Request → Prog ω) (fin : ω) (r : Rd) :
    ∃ s, Act.Calm seq call (mayOf T) fin (.init r) s ∧ s.live.srv.leaked = false ∧ s.live.srv.rcv ≠ .off := by
  have hn : ¬ TransportFailed (Live.init r : Live ω).net := by
    rintro ⟨_, i, op, q, k, e, a, h⟩; simp [Live.init, NetSys.init, GoSys.init] at h
  have hq : ∀ (s s' : ConnSt) t, s'.arrived = s.arrived → (s'.rcv = .offerErr → s.rcv = .offerErr) → s'.trace = s.trace ++ t →
      (∀ e ∈ t, e = .state .new ∨ e = .state .idle ∨ e = .state .closed) → s.Quiet s' := fun _ _ t h1 h2 h3 h4 => ⟨h1, h2, t, h3, h4⟩
  have a1 : Act.Calm seq call (mayOf T) fin (.init r) _ := .tail .refl (.live _ _ (.other _ _ _ true false (.new _ rfl)
    (hq _ _ [.state .new] rfl id rfl (by simp))) (by simp [Act.init, Live.init, ConnSt.fresh])) hn
  have a2 := Act.Calm.tail a1 (.live _ _ (.other _ _ _ true false (.admit _ rfl rfl) (hq _ _ [] rfl id (by simp) (by simp)))
    (by simp [Act.init, Live.init, ConnSt.fresh])) hn
  have a3 := Act.Calm.tail a2 (.live _ _ (.other _ _ _ true false (.add _ rfl) (hq _ _ [] rfl id (by simp) (by simp)))
    (by simp [Act.init, Live.init, ConnSt.fresh])) hn
  have a4 := Act.Calm.tail a3 (.live _ _ (.other _ _ _ true false (.start _ rfl) (hq _ _ [] rfl (by simp) (by simp) (by simp)))
    (by simp [Act.init, Live.init, ConnSt.fresh])) hn
  exact ⟨_, a4, rfl, by simp⟩

/-- C68.  The requests of a peer that sends `qs` in any fragmentation and shuts down its sending
side, with handlers of any kind and any runner. -/
theorem adaptive_stream (seq : Bool) (call : ω → Call ⊕ Option Err) (may : May ω) (fin : ω) (F : Err)
    (qs : List (Request × Bytes)) (h : ∀ p ∈ qs, p.1.body.Yields p.2 ∧ 8 + p.2.length ≤ 65535) (r : Rd)
    (hr : r.Ok F) (hsep : r.Sep) (hc : r.content = serialise (qs.map (·.1))) (s : Act ω)
    (hs : Act.Steps seq call may fin (.init r) s) :
    s.live.srv.dispatched <+: qs.map asReceived ∧
    (s.live.srv.rcv = .ended → s.live.srv.dispatched = qs.map asReceived) := by
  obtain ⟨ops, f, h1, _⟩ := adaptive_run seq call may fin r s hs
  exact served_stream _ _ _ F qs h r hr hsep hc (s.live.push f) h1

/-- C68.  From the bytes the server is sent to the bytes it sends, with `SequentialRunner` and
handlers that look at the results of their writes: wherever the connection is (served, not
stopped, its transport not failed), it can go on to a state in which the peer has been sent what
the handlers write for each of its requests when nothing fails, in order; until then the peer has
been sent a beginning of that. -/
theorem adaptive_delivered (T : Request → Prog ConnOp) (F : Err)
    (qs : List (Request × Bytes)) (h : ∀ p ∈ qs, p.1.body.Yields p.2 ∧ 8 + p.2.length ≤ 65535) (r : Rd)
    (hr : r.Ok F) (hsep : r.Sep) (hc : r.content = serialise (qs.map (·.1))) (s : Act ConnOp)
    (hs : Act.Calm true ConnOp.call (mayOf T) .flush (.init r) s) (hl : s.live.srv.leaked = false)
    (ho : s.live.srv.rcv ≠ .off) :
    s.live.net.go.sh.tr.out <+: qs.flatMap (fun p => ((T (asReceived p)).path ConnOp.call).flatMap ConnOp.message) ∧
    ∃ s', Act.Calm true ConnOp.call (mayOf T) .flush s s' ∧
      s'.live.net.go.sh.tr.out = qs.flatMap fun p => ((T (asReceived p)).path ConnOp.call).flatMap ConnOp.message := by
  have hmap : ∀ l : List (Request × Bytes),
      (l.map asReceived).flatMap (fun q => ((T q).path ConnOp.call).flatMap ConnOp.message) =
      l.flatMap fun p => ((T (asReceived p)).path ConnOp.call).flatMap ConnOp.message := by
    intro l; rw [List.flatMap_map]
  constructor
  · obtain ⟨⟨t, ht⟩, _⟩ := adaptive_stream true _ _ _ F qs h r hr hsep hc s hs.steps
    rw [← hmap, ← ht, List.flatMap_append]
    exact (adaptive_replies T r s hs.steps).trans (List.prefix_append _ _)
  · obtain ⟨s', g1, g2, g3⟩ := adaptive_to_end ConnOp.call T .flush F r hr s hs hl ho
    refine ⟨s', g1, ?_⟩
    rw [adaptive_all_healthy T r s' (hs.trans g1) (by simp [g2]),
      (adaptive_stream true _ _ _ F qs h r hr hsep hc s' (hs.trans g1).steps).2 g3, hmap]

/-! ## Non-vacuity -/

/-- A handler that answers with an echo reply; if that fails it reports an error, otherwise it
sends a second message. -/
private def carefulHandler (q : Request) : Prog ConnOp :=
  .op (.respond q.header.version ⟨0, 3, 0, q.header.transaction⟩ none) fun
    | some _ => .op (.respond q.header.version ⟨0, 1, 0, q.header.transaction⟩ none) fun _ => .done
    | none => .op (.respond q.header.version ⟨0, 20, 0, q.header.transaction⟩ none) fun _ => .done

/-- Non-vacuity of `adaptive_delivered` (and with it of `adaptive_calm_run`, `adaptive_follows`,
`adaptive_to_end` and `adaptive_all_healthy`): a peer that sends two requests in three pieces and
shuts down gets two messages for each, and never the error message. -/
example : ∃ s : Act ConnOp, Act.Calm true ConnOp.call (mayOf carefulHandler) .flush
      (.init (.buf [] none (.src (serialise [newRequest 2 (some fun _ => ⟨[9], 1, none⟩), newRequest 2 none]) [3, 8]
        .eof false))) s ∧
    s.live.net.go.sh.tr.out = [4, 3, 0, 8, 0, 0, 0, 0] ++ [4, 20, 0, 8, 0, 0, 0, 0] ++
      ([4, 3, 0, 8, 0, 0, 0, 0] ++ [4, 20, 0, 8, 0, 0, 0, 0]) := by
  obtain ⟨s, g1, g2, g3⟩ := adaptive_starts true ConnOp.call carefulHandler .flush
    (.buf [] none (.src (serialise [newRequest 2 (some fun _ => ⟨[9], 1, none⟩), newRequest 2 none]) [3, 8] .eof false))
  obtain ⟨_, s', k1, k2⟩ := adaptive_delivered carefulHandler .eof
    [(newRequest 2 (some fun _ => ⟨[9], 1, none⟩), [9]), (newRequest 2 none, [])]
    (by
      intro p hp
      simp only [List.mem_cons, List.not_mem_nil, or_false] at hp
      rcases hp with rfl | rfl
      · exact ⟨rfl, by decide⟩
      · exact ⟨rfl, by decide⟩)
    _ (by simp [Rd.Ok]) (by simp [Rd.Sep]) (by simp [Rd.content]) s g1 g2 g3
  refine ⟨s', g1.trans k1, ?_⟩
  rw [k2]
  decide +kernel

end Verif.Props
