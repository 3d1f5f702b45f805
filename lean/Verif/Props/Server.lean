import Verif.Server

/-!
# Properties C20, C21, C22, C55: the server
-/

namespace Verif.Props

open Verif

/-- The states reported to the `ConnState` callback, in order. -/
def reportedStates (t : List SrvEvent) : List CState :=
  t.filterMap (fun e => match e with | .state s => some s | _ => none)

/-- The requests the handler was called with, in order. -/
def handledRequests (t : List SrvEvent) : List Request :=
  t.filterMap (fun e => match e with | .handle q => some q | _ => none)

/-- How often the network connection was closed. -/
def timesClosed (t : List SrvEvent) : Nat :=
  t.countP (fun e => match e with | .close => true | _ => false)

/-! ## Invariants of one connection -/

private def closedReported : Phase → Nat
  | .refused | .closingNet | .gone => 1
  | _ => 0

private def pre : Phase → Bool
  | .accepted | .reported | .refusing | .refused | .admitted | .queued => true
  | _ => false

private structure ConnInv (s : ConnSt) : Prop where
  tasks : s.tasks.map (·.1) = s.dispatched
  arrived : s.arrived = s.dispatched ++ (match s.rcv with | .offer q => [q] | _ => [])
  off : pre s.phase = true → s.rcv = .off
  offTasks : s.rcv = .off → s.tasks = []
  first : (s.phase = .accepted → s.trace = []) ∧
    (s.phase ≠ .accepted → (reportedStates s.trace).head? = some .new)
  new : (reportedStates s.trace).count .new = if s.phase = .accepted then 0 else 1
  closed : (reportedStates s.trace).count .closed = closedReported s.phase
  closes : timesClosed s.trace = if s.phase = .gone then 1 else 0
  handled : List.Perm (handledRequests s.trace)
    ((s.tasks.filter (fun t => t.2 == .handled || t.2 == .done)).map (·.1))
  begun : (reportedStates s.trace).count .active + (reportedStates s.trace).count .handshake =
    s.tasks.countP (fun t => t.2 != .pending)
  idle : (reportedStates s.trace).count .idle = s.tasks.countP (fun t => t.2 == .done)
  busy : s.phase = .busy → s.rcv ≠ .off

private theorem rs_append (t : List SrvEvent) (e : SrvEvent) :
    reportedStates (t ++ [e]) = reportedStates t ++ (match e with | .state s => [s] | _ => []) := by
  cases e <;> simp [reportedStates]

private theorem hr_append (t : List SrvEvent) (e : SrvEvent) :
    handledRequests (t ++ [e]) = handledRequests t ++ (match e with | .handle q => [q] | _ => []) := by
  cases e <;> simp [handledRequests]

private theorem tc_append (t : List SrvEvent) (e : SrvEvent) :
    timesClosed (t ++ [e]) = timesClosed t + (match e with | .close => 1 | _ => 0) := by
  cases e <;> simp [timesClosed]

private theorem head_append {l : List CState} (h : l.head? = some .new) (m : List CState) :
    (l ++ m).head? = some .new := by
  cases l <;> simp_all

/-! With a sequential handler runner, the events of a connection are determined by its phase. -/

private def block (q : Request) : List SrvEvent :=
  [.state (requestState q), .handle q, .state .idle]

private def cur (q : Request) : TaskPc → List SrvEvent
  | .pending => []
  | .active => [.state (requestState q)]
  | .handled => [.state (requestState q), .handle q]
  | .done => block q

private def ending : Phase → List SrvEvent
  | .refused | .closingNet => [.state .closed]
  | .gone => [.state .closed, .close]
  | _ => []

private def SeqInv (s : ConnSt) : Prop :=
  (s.phase = .accepted ∧ s.tasks = [] ∧ s.trace = []) ∨
  (∃ D : List Request, s.phase ≠ .accepted ∧ s.phase ≠ .busy ∧ s.tasks = D.map (·, .done) ∧
    s.trace = .state .new :: D.flatMap block ++ ending s.phase) ∨
  (∃ (D : List Request) (q : Request) (pc : TaskPc), s.phase = .busy ∧ pc ≠ .done ∧
    s.tasks = D.map (·, .done) ++ [(q, pc)] ∧ s.trace = .state .new :: D.flatMap block ++ cur q pc)

private theorem done_split {D : List Request} {q : Request} {pc : TaskPc} {a b : List (Request × TaskPc)}
    (h : D.map (·, TaskPc.done) = a ++ (q, pc) :: b) : pc = .done := by
  have : (q, pc) ∈ D.map (·, TaskPc.done) := by rw [h]; simp
  simp only [List.mem_map, Prod.mk.injEq] at this
  obtain ⟨x, _, _, h⟩ := this
  exact h.symm

private theorem last_split {D : List Request} {q q' : Request} {pc pc' : TaskPc}
    {a b : List (Request × TaskPc)} (hpc : pc' ≠ .done)
    (h : D.map (·, TaskPc.done) ++ [(q, pc)] = a ++ (q', pc') :: b) :
    a = D.map (·, .done) ∧ b = [] ∧ q' = q ∧ pc' = pc := by
  induction D generalizing a with
  | nil =>
    cases a with
    | nil => simp at h; simp [h]
    | cons x a => simp at h
  | cons d D ih =>
    cases a with
    | nil =>
      simp only [List.map_cons, List.cons_append, List.nil_append, List.cons.injEq,
        Prod.mk.injEq] at h
      exact absurd h.1.2.symm hpc
    | cons x a =>
      simp only [List.map_cons, List.cons_append, List.cons.injEq] at h
      obtain ⟨h1, h2, h3, h4⟩ := ih h.2
      exact ⟨by simp [← h.1, h1], h2, h3, h4⟩

private theorem seq_inv {s : ConnSt} (h : ConnSt.Reach true s) : SeqInv s := by
  induction h with
  | init => exact .inl ⟨rfl, rfl, rfl⟩
  | @tail s s' eff room stopped _ st ih =>
    have quiet : s.phase ≠ .busy → s.phase ≠ .accepted → SeqInv s →
        ∃ D : List Request, s.tasks = D.map (·, .done) ∧
          s.trace = .state .new :: D.flatMap block ++ ending s.phase := by
      intro hb ha hi
      rcases hi with ⟨h1, _⟩ | ⟨D, _, _, h3, h4⟩ | ⟨_, _, _, h1, _⟩
      · exact absurd h1 ha
      · exact ⟨D, h3, h4⟩
      · exact absurd h1 hb
    cases st with
    | new h =>
      rcases ih with ⟨h1, h2, h3⟩ | ⟨D, h1, _⟩ | ⟨_, _, _, h1, _⟩
      · exact .inr (.inl ⟨[], by simp, by simp, by simp [h2], by simp [h3, ending]⟩)
      · exact absurd h h1
      · rw [h] at h1; simp at h1
    | refuse h hr =>
      obtain ⟨D, h1, h2⟩ := quiet (by simp [h]) (by simp [h]) ih
      exact .inr (.inl ⟨D, by simp, by simp, h1, by simp [h2, h, ending]⟩)
    | refuseState h =>
      obtain ⟨D, h1, h2⟩ := quiet (by simp [h]) (by simp [h]) ih
      exact .inr (.inl ⟨D, by simp, by simp, h1, by simp [h2, h, ending]⟩)
    | refuseClose h =>
      obtain ⟨D, h1, h2⟩ := quiet (by simp [h]) (by simp [h]) ih
      exact .inr (.inl ⟨D, by simp, by simp, h1, by simp [h2, h, ending]⟩)
    | admit h hr =>
      obtain ⟨D, h1, h2⟩ := quiet (by simp [h]) (by simp [h]) ih
      exact .inr (.inl ⟨D, by simp, by simp, h1, by simp [h2, h, ending]⟩)
    | add h =>
      obtain ⟨D, h1, h2⟩ := quiet (by simp [h]) (by simp [h]) ih
      exact .inr (.inl ⟨D, by simp, by simp, h1, by simp [h2, h, ending]⟩)
    | start h =>
      obtain ⟨D, h1, h2⟩ := quiet (by simp [h]) (by simp [h]) ih
      exact .inr (.inl ⟨D, by simp, by simp, h1, by simp [h2, h, ending]⟩)
    | receive q h => exact ih
    | receiveErr h => exact ih
    | deliver q h hq =>
      obtain ⟨D, h1, h2⟩ := quiet (by simp [h]) (by simp [h]) ih
      exact .inr (.inr ⟨D, q, .pending, by simp, by simp, by simp [h1], by simp [h2, h, ending, cur]⟩)
    | fail h hq =>
      obtain ⟨D, h1, h2⟩ := quiet (by simp [h]) (by simp [h]) ih
      exact .inr (.inl ⟨D, by simp, by simp, h1, by simp [h2, h, ending]⟩)
    | stop h hs =>
      obtain ⟨D, h1, h2⟩ := quiet (by simp [h]) (by simp [h]) ih
      exact .inr (.inl ⟨D, by simp, by simp, h1, by simp [h2, h, ending]⟩)
    | closeState h =>
      obtain ⟨D, h1, h2⟩ := quiet (by simp [h]) (by simp [h]) ih
      exact .inr (.inl ⟨D, by simp, by simp, h1, by simp [h2, h, ending]⟩)
    | closeNet h =>
      obtain ⟨D, h1, h2⟩ := quiet (by simp [h]) (by simp [h]) ih
      exact .inr (.inl ⟨D, by simp, by simp, h1, by simp [h2, h, ending]⟩)
    | taskActive a q b h =>
      rcases ih with ⟨h1, h2, h3⟩ | ⟨D, h1, h2, h3, h4⟩ | ⟨D, q', pc, h1, h2, h3, h4⟩
      · rw [h2] at h; simp at h
      · rw [h3] at h; have := done_split h; simp at this
      · rw [h3] at h
        obtain ⟨rfl, rfl, rfl, rfl⟩ := last_split (by simp) h
        exact .inr (.inr ⟨D, q, .active, h1, by simp, rfl, by simp [h4, cur]⟩)
    | taskHandle a q b h =>
      rcases ih with ⟨h1, h2, h3⟩ | ⟨D, h1, h2, h3, h4⟩ | ⟨D, q', pc, h1, h2, h3, h4⟩
      · rw [h2] at h; simp at h
      · rw [h3] at h; have := done_split h; simp at this
      · rw [h3] at h
        obtain ⟨rfl, rfl, rfl, rfl⟩ := last_split (by simp) h
        exact .inr (.inr ⟨D, q, .handled, h1, by simp, rfl, by simp [h4, cur]⟩)
    | taskDone a q b h =>
      rcases ih with ⟨h1, h2, h3⟩ | ⟨D, h1, h2, h3, h4⟩ | ⟨D, q', pc, h1, h2, h3, h4⟩
      · rw [h2] at h; simp at h
      · rw [h3] at h; have := done_split h; simp at this
      · rw [h3] at h
        obtain ⟨rfl, rfl, rfl, rfl⟩ := last_split (by simp) h
        exact .inr (.inl ⟨D ++ [q], by simp, by simp, by simp, by simp [h4, cur, ending, block]⟩)

private theorem seq_busy {s : ConnSt} (h : ConnSt.Reach true s) (ht : ∃ t ∈ s.tasks, t.2 ≠ .done) :
    s.phase = .busy := by
  obtain ⟨t, ht, hd⟩ := ht
  rcases seq_inv h with ⟨h1, h2, h3⟩ | ⟨D, h1, h2, h3, h4⟩ | ⟨D, q', pc, h1, h2, h3, h4⟩
  · rw [h2] at ht; simp at ht
  · rw [h3] at ht
    simp only [List.mem_map] at ht
    obtain ⟨x, _, rfl⟩ := ht
    exact absurd rfl hd
  · exact h1

private theorem conn_inv {seq : Bool} {s : ConnSt} (h : ConnSt.Reach seq s) : ConnInv s := by
  induction h with
  | init =>
    constructor <;> simp [ConnSt.fresh, reportedStates, handledRequests, timesClosed, pre,
      closedReported]
  | @tail s s' eff room stopped hreach st ih =>
    obtain ⟨i1, i2, i3, i4, i5, i6, i7, i8, i9, i10, i11, i12⟩ := ih
    cases st with
    | new h => constructor <;> simp_all [reportedStates, handledRequests, timesClosed, pre, closedReported]
    | refuse h hr => constructor <;> simp_all [pre, closedReported]
    | refuseState h => constructor <;> simp_all [rs_append, hr_append, tc_append, pre, closedReported]
    | refuseClose h => constructor <;> simp_all [rs_append, hr_append, tc_append, pre, closedReported]
    | admit h hr => constructor <;> simp_all [pre, closedReported]
    | add h => constructor <;> simp_all [pre, closedReported]
    | start h => constructor <;> simp_all [pre, closedReported]
    | receive q h => 
      constructor <;> simp_all [pre, closedReported]
    | receiveErr h => constructor <;> simp_all [pre, closedReported]
    | deliver q h hq =>
      cases seq <;> constructor <;> simp_all [pre, closedReported]
    | fail h hq => constructor <;> simp_all [pre, closedReported]
    | stop h hs => constructor <;> simp_all [pre, closedReported]
    | closeState h => constructor <;> simp_all [rs_append, hr_append, tc_append, pre, closedReported]
    | closeNet h => constructor <;> simp_all [rs_append, hr_append, tc_append, pre, closedReported]
    | taskActive a q b h =>
      have hoff : s.rcv ≠ .off := fun ho => by have := i4 ho; rw [h] at this; simp at this
      have hpre : pre s.phase = false := by
        cases hp : pre s.phase with
        | false => rfl
        | true => exact absurd (i3 hp) hoff
      have hacc : s.phase ≠ .accepted := fun ha => by rw [ha] at hpre; simp [pre] at hpre
      constructor
      · rw [h] at i1; simpa using i1
      · exact i2
      · exact i3
      · exact fun ho => absurd ho hoff
      · exact ⟨fun ha => absurd ha hacc, fun _ => by
          simp only [rs_append]; exact head_append (i5.2 hacc) _⟩
      · by_cases ht : q.header.type = 0 <;> simp [rs_append, i6, requestState, ht]
      · by_cases ht : q.header.type = 0 <;> simp [rs_append, i7, requestState, ht]
      · simp only [tc_append, Nat.add_zero, i8]
      · simp only [hr_append, List.append_nil]; rw [h] at i9; simpa using i9
      · rw [h] at i10
        simp only [rs_append, List.count_append, List.countP_append, List.countP_cons] at i10 ⊢
        by_cases ht : q.header.type = 0 <;> simp [requestState, ht] at i10 ⊢ <;> omega
      · rw [h] at i11
        simp only [rs_append, List.count_append, List.countP_append, List.countP_cons] at i11 ⊢
        by_cases ht : q.header.type = 0 <;> simp [requestState, ht] at i11 ⊢ <;> omega
      · exact i12
    | taskHandle a q b h =>
      have hoff : s.rcv ≠ .off := fun ho => by have := i4 ho; rw [h] at this; simp at this
      have hpre : pre s.phase = false := by
        cases hp : pre s.phase with
        | false => rfl
        | true => exact absurd (i3 hp) hoff
      have hacc : s.phase ≠ .accepted := fun ha => by rw [ha] at hpre; simp [pre] at hpre
      constructor
      · rw [h] at i1; simpa using i1
      · exact i2
      · exact i3
      · exact fun ho => absurd ho hoff
      · exact ⟨fun ha => absurd ha hacc, fun _ => by
          simp only [rs_append, List.append_nil]; exact i5.2 hacc⟩
      · simp only [rs_append, List.append_nil, i6]
      · simp only [rs_append, List.append_nil, i7]
      · simp only [tc_append, Nat.add_zero, i8]
      · rw [h] at i9
        simp only [hr_append, List.filter_append, List.map_append]
        simp at i9 ⊢
        have := i9.append_right [q]
        refine this.trans ?_
        rw [List.append_assoc]
        exact List.Perm.append_left _ (List.perm_append_singleton _ _)
      · rw [h] at i10
        simp only [rs_append, List.append_nil, List.countP_append, List.countP_cons] at i10 ⊢
        simp at i10 ⊢; omega
      · rw [h] at i11
        simp only [rs_append, List.append_nil, List.countP_append, List.countP_cons] at i11 ⊢
        simp at i11 ⊢; omega
      · exact i12
    | taskDone a q b h =>
      have hoff : s.rcv ≠ .off := fun ho => by have := i4 ho; rw [h] at this; simp at this
      have hpre : pre s.phase = false := by
        cases hp : pre s.phase with
        | false => rfl
        | true => exact absurd (i3 hp) hoff
      have hacc : s.phase ≠ .accepted := fun ha => by rw [ha] at hpre; simp [pre] at hpre
      have hph : ∀ p, (p = if seq = true then Phase.loop else s.phase) → pre p = false ∧
          closedReported p = closedReported s.phase ∧ (p = .gone ↔ s.phase = .gone) ∧
          p ≠ .accepted := by
        rintro p rfl
        cases seq with
        | false => exact ⟨hpre, rfl, Iff.rfl, hacc⟩
        | true =>
          rw [seq_busy hreach ⟨(q, .handled), by rw [h]; simp, by simp⟩]
          simp [pre, closedReported]
      obtain ⟨p1, p2, p3, p4⟩ := hph _ rfl
      constructor
      · rw [h] at i1; simpa using i1
      · exact i2
      · exact fun hp => by simp only at hp; rw [p1] at hp; simp at hp
      · exact fun ho => absurd ho hoff
      · exact ⟨fun ha => absurd ha p4, fun _ => by
          simp only [rs_append]; exact head_append (i5.2 hacc) _⟩
      · simp only [rs_append, List.count_append, i6]; rw [if_neg hacc, if_neg p4]; simp
      · simp only [rs_append, List.count_append, i7]; rw [p2]; simp
      · simp only [tc_append, Nat.add_zero, i8]; simp only [p3]
      · simp only [hr_append, List.append_nil]; rw [h] at i9; simpa using i9
      · rw [h] at i10
        simp only [rs_append, List.count_append, List.countP_append, List.countP_cons] at i10 ⊢
        simp at i10 ⊢; omega
      · rw [h] at i11
        simp only [rs_append, List.count_append, List.countP_append, List.countP_cons] at i11 ⊢
        simp at i11 ⊢; omega
      · intro hb; exact hoff

/-! ## C21 -/

/-- C21, with a sequential handler runner: the callback observes `New`, then for every
request `Handshake` or `Active` followed by `Idle` (for the last one possibly not yet), then
`Closed`, and nothing after it. -/
theorem states_sequential_partial (s : ConnSt) (h : ConnSt.Reach true s) :
    reportedStates s.trace = [] ∨
    ∃ (done : List Request) (tail : List CState),
      reportedStates s.trace = .new :: done.flatMap (fun q => [requestState q, .idle]) ++ tail ∧
      (tail = [] ∨ tail = [.closed] ∨ ∃ q, tail = [requestState q]) := by
  have hb : ∀ D : List Request, reportedStates (.state .new :: D.flatMap block) =
      .new :: D.flatMap (fun q => [requestState q, .idle]) := by
    intro D
    induction D with
    | nil => rfl
    | cons q D ih =>
      simp only [reportedStates, List.flatMap_cons, List.filterMap_cons, List.filterMap_append,
        List.cons.injEq, true_and] at ih ⊢
      rw [ih]; simp [block]
  have happ : ∀ a b : List SrvEvent, reportedStates (a ++ b) = reportedStates a ++ reportedStates b :=
    fun a b => by simp [reportedStates]
  rcases seq_inv h with ⟨h1, h2, h3⟩ | ⟨D, h1, h2, h3, h4⟩ | ⟨D, q, pc, h1, h2, h3, h4⟩
  · left; rw [h3]; rfl
  · right
    refine ⟨D, reportedStates (ending s.phase), by rw [h4, happ, hb], ?_⟩
    cases s.phase <;> simp [ending, reportedStates]
  · right
    refine ⟨D, reportedStates (cur q pc), by rw [h4, happ, hb], ?_⟩
    cases pc with
    | pending => exact .inl rfl
    | active => exact .inr (.inr ⟨q, rfl⟩)
    | handled => exact .inr (.inr ⟨q, rfl⟩)
    | done => exact absurd rfl h2

/-- C21, what holds for every handler runner: `New` is reported first and once, `Closed` at
most once, and exactly once when the connection has been closed; every `Idle` belongs to a
request for which `Active` or `Handshake` was reported before.  Missing: that `Closed` is
the last one, and that requests do not overlap, see `states_false`. -/
theorem states_any_runner_partial (seq : Bool) (s : ConnSt) (h : ConnSt.Reach seq s) :
    (s.trace ≠ [] → (reportedStates s.trace).head? = some .new ∧
      (reportedStates s.trace).count .new = 1) ∧
    (reportedStates s.trace).count .closed ≤ 1 ∧
    (timesClosed s.trace = 1 → (reportedStates s.trace).count .closed = 1) ∧
    (reportedStates s.trace).count .idle ≤
      (reportedStates s.trace).count .active + (reportedStates s.trace).count .handshake := by
  have inv := conn_inv h
  have hne : s.trace ≠ [] → s.phase ≠ .accepted := fun ht ha => ht (inv.first.1 ha)
  refine ⟨fun ht => ⟨inv.first.2 (hne ht), by rw [inv.new, if_neg (hne ht)]⟩, ?_, ?_, ?_⟩
  · rw [inv.closed]; cases s.phase <;> simp [closedReported]
  · intro hc
    rw [inv.closes] at hc
    have : s.phase = .gone := by
      apply Classical.byContradiction
      intro hn
      rw [if_neg hn] at hc
      simp at hc
    rw [inv.closed, this]; rfl
  · rw [inv.idle, inv.begun]
    refine List.countP_mono_left ?_
    intro t _ ht
    simp only [beq_iff_eq] at ht
    simp [ht]

/-- C21 is false with the default runner: a connection that is closed by the peer after one
request can be reported as `Active` and `Idle` after `Closed`; the handler then runs on a
closed connection. -/
theorem states_false : ∃ s, ConnSt.Reach false s ∧
    reportedStates s.trace = [.new, .closed, .active, .idle] := by
  let q : Request := { Request.zero with header := ⟨4, 10, 8, 1⟩ }
  have h : ConnSt.Reach false ⟨.gone, .ended, [(q, .done)], [q], [q],
      [.state .new, .state .closed, .close, .state .active, .handle q, .state .idle], false⟩ :=
    .tail true false (.tail true false (.tail true false (.tail true false (.tail true false
    (.tail true false (.tail true false (.tail true false (.tail true false (.tail true false
    (.tail true false (.tail true false .init
      (.new _ rfl)) (.admit _ rfl rfl)) (.add _ rfl)) (.start _ rfl)) (.receive _ q rfl))
      (.deliver _ q rfl rfl)) (.receiveErr _ rfl)) (.fail _ rfl rfl)) (.closeState _ rfl))
      (.closeNet _ rfl)) (.taskActive _ [] q [] rfl)) (.taskHandle _ [] q [] rfl)
    |> fun h => .tail true false h (.taskDone _ [] q [] rfl)
  exact ⟨_, h, rfl⟩

/-- C21 is false with the default runner: two requests can be `Active` at the same time. -/
theorem states_overlap_false : ∃ s, ConnSt.Reach false s ∧
    reportedStates s.trace = [.new, .active, .active] := by
  let q : Request := { Request.zero with header := ⟨4, 10, 8, 1⟩ }
  have h : ConnSt.Reach false ⟨.loop, .reading, [(q, .active), (q, .active)], [q, q], [q, q],
      [.state .new, .state .active, .state .active], false⟩ :=
    .tail true false (.tail true false (.tail true false (.tail true false (.tail true false
    (.tail true false (.tail true false (.tail true false (.tail true false (.tail true false .init
      (.new _ rfl)) (.admit _ rfl rfl)) (.add _ rfl)) (.start _ rfl)) (.receive _ q rfl))
      (.deliver _ q rfl rfl)) (.receive _ q rfl)) (.deliver _ q rfl rfl))
      (.taskActive _ [] q [(q, .pending)] rfl)) (.taskActive _ [(q, .active)] q [] rfl)
  exact ⟨_, h, rfl⟩

/-! ## C22 -/

/-- C22.  Requests are handed to the handler runner in arrival order, each once, and at most
the last one received has not been handed over yet. -/
theorem dispatch_order (seq : Bool) (s : ConnSt) (h : ConnSt.Reach seq s) :
    s.dispatched <+: s.arrived ∧ s.arrived.length ≤ s.dispatched.length + 1 := by
  have inv := conn_inv h
  refine ⟨⟨_, inv.arrived.symm⟩, ?_⟩
  rw [inv.arrived]
  cases s.rcv <;> simp

/-- C22.  When the receive error has arrived, all requests before it have been handed over. -/
theorem dispatch_all (seq : Bool) (s : ConnSt) (h : ConnSt.Reach seq s)
    (he : s.rcv = .offerErr ∨ s.rcv = .ended) : s.dispatched = s.arrived := by
  have inv := conn_inv h
  rcases he with he | he <;> · have := inv.arrived; rw [he] at this; simpa using this.symm

/-- C22, C106.  Unless a request is waiting for the serve loop, all have been handed over. -/
theorem dispatch_reading (seq : Bool) (s : ConnSt) (h : ConnSt.Reach seq s)
    (he : s.rcv = .offerErr ∨ s.rcv = .ended ∨ s.rcv = .reading) : s.dispatched = s.arrived := by
  have inv := conn_inv h
  rcases he with he | he | he <;> · have := inv.arrived; rw [he] at this; simpa using this.symm

/-- C22, C55.  Once the serve loop has ended (receive error or stop), nothing is handed to
the runner any more, and no request enters the loop. -/
theorem dispatch_none_after (seq room stopped : Bool) (s s' : ConnSt) (eff : Effect)
    (h : ConnSt.Reach seq s) (hp : s.phase = .closing ∨ s.phase = .closingNet ∨ s.phase = .gone)
    (st : ConnSt.Step seq room stopped s eff s') :
    s'.dispatched = s.dispatched ∧
    (s'.phase = .closing ∨ s'.phase = .closingNet ∨ s'.phase = .gone) := by
  cases st with
  | deliver q h1 hq => simp [h1] at hp
  | taskDone a q b ht =>
    refine ⟨rfl, ?_⟩
    cases seq with
    | false => simpa using hp
    | true =>
      have := seq_busy h ⟨(q, .handled), by rw [ht]; simp, by simp⟩
      simp [this] at hp
  | receive q h1 => exact ⟨rfl, hp⟩
  | receiveErr h1 => exact ⟨rfl, hp⟩
  | taskActive a q b ht => exact ⟨rfl, hp⟩
  | taskHandle a q b ht => exact ⟨rfl, hp⟩
  | closeState h1 => exact ⟨rfl, by simp⟩
  | closeNet h1 => exact ⟨rfl, by simp⟩
  | new h1 => simp [h1] at hp
  | refuse h1 => simp [h1] at hp
  | refuseState h1 => simp [h1] at hp
  | refuseClose h1 => simp [h1] at hp
  | admit h1 => simp [h1] at hp
  | add h1 => simp [h1] at hp
  | start h1 => simp [h1] at hp
  | fail h1 => simp [h1] at hp
  | stop h1 => simp [h1] at hp

/-- C22.  The handler is called at most once per dispatched request, for every runner that
calls each function once; when all tasks are done, exactly once. -/
theorem handle_once (seq : Bool) (s : ConnSt) (h : ConnSt.Reach seq s) :
    (∃ rest, List.Perm (handledRequests s.trace ++ rest) s.dispatched) ∧
    ((∀ t ∈ s.tasks, t.2 = .done) → List.Perm (handledRequests s.trace) s.dispatched) := by
  have inv := conn_inv h
  refine ⟨⟨(s.tasks.filter (fun t => !(t.2 == .handled || t.2 == .done))).map (·.1), ?_⟩, fun hd => ?_⟩
  · refine (inv.handled.append_right _).trans ?_
    rw [← List.map_append, ← inv.tasks]
    exact (List.filter_append_perm _ _).map _
  · refine inv.handled.trans ?_
    rw [← inv.tasks, List.filter_eq_self.mpr]
    intro t ht
    simp [hd t ht]

/-- C22.  The tasks are the requests that were handed to the runner. -/
theorem tasks_dispatched (seq : Bool) (s : ConnSt) (h : ConnSt.Reach seq s) : s.tasks.map (·.1) = s.dispatched :=
  (conn_inv h).tasks

/-- C22.  Nothing is received before the connection is served. -/
theorem receiver_off (seq : Bool) (s : ConnSt) (h : ConnSt.Reach seq s) (hp : s.phase = .queued) : s.rcv = .off :=
  (conn_inv h).off (by simp [hp, pre])

/-- C22, C55.  While the serve loop runs the receiver runs, too. -/
theorem receiver_runs (seq : Bool) (s : ConnSt) (h : ConnSt.Reach seq s) (hp : s.phase = .loop ∨ s.phase = .busy) :
    s.rcv ≠ .off ∧ s.rcv ≠ .ended := by
  induction h with
  | init => simp [ConnSt.fresh] at hp
  | @tail s s' eff room stopped hs st ih =>
    cases st with
    | new h => simp at hp
    | refuse h hr => simp at hp
    | refuseState h => simp at hp
    | refuseClose h => simp at hp
    | admit h hr => simp at hp
    | add h => simp at hp
    | start h => simp
    | receive q h => simp
    | receiveErr h => simp
    | deliver q h hq => simp
    | fail h hq => simp at hp
    | stop h hq => simp at hp
    | closeState h => simp at hp
    | closeNet h => simp at hp
    | taskActive a q b h => exact ih hp
    | taskHandle a q b h => exact ih hp
    | taskDone a q b h =>
      refine ih ?_
      cases seq with
      | false => exact hp
      | true => exact .inr (seq_busy hs ⟨(q, .handled), by rw [h]; simp, by simp⟩)

/-- C22.  The serve loop waits for a handler only with a sequential runner. -/
theorem never_busy (s : ConnSt) (h : ConnSt.Reach false s) : s.phase ≠ .busy := by
  induction h with
  | init => simp [ConnSt.fresh]
  | @tail s s' eff room stopped hs st ih => cases st <;> simp_all

/-- C22, C55.  A connection that is being closed was refused, or stopped, or its stream has
ended. -/
theorem closing_reason (seq : Bool) (s : ConnSt) (h : ConnSt.Reach seq s)
    (hp : s.phase = .closing ∨ s.phase = .closingNet ∨ s.phase = .gone) :
    s.leaked = true ∨ s.rcv = .ended ∨ s.rcv = .off := by
  induction h with
  | init => simp [ConnSt.fresh] at hp
  | @tail s s' eff room stopped hs st ih =>
    cases st with
    | new h => simp at hp
    | refuse h hr => simp at hp
    | refuseState h => simp at hp
    | refuseClose h => exact .inr (.inr ((conn_inv hs).off (by simp [h, pre])))
    | admit h hr => simp at hp
    | add h => simp at hp
    | start h => simp at hp
    | receive q h =>
      rcases ih hp with g | g | g
      · exact .inl g
      · rw [h] at g; simp at g
      · rw [h] at g; simp at g
    | receiveErr h =>
      rcases ih hp with g | g | g
      · exact .inl g
      · rw [h] at g; simp at g
      · rw [h] at g; simp at g
    | deliver q h hq => cases seq <;> simp at hp
    | fail h hq => simp
    | stop h hq => simp
    | closeState h => exact ih (.inl h)
    | closeNet h => exact ih (.inr (.inl h))
    | taskActive a q b h => exact ih hp
    | taskHandle a q b h => exact ih hp
    | taskDone a q b h =>
      cases seq with
      | false => exact ih hp
      | true => simp at hp

/-- C22.  With a sequential runner all tasks are done, or all but the last, and then the serve
loop waits for it. -/
theorem tasks_sequential (s : ConnSt) (h : ConnSt.Reach true s) :
    ∃ D : List Request, (s.phase ≠ .busy ∧ s.tasks = D.map (·, .done)) ∨
      ∃ q pc, s.phase = .busy ∧ pc ≠ .done ∧ s.tasks = D.map (·, .done) ++ [(q, pc)] := by
  rcases seq_inv h with ⟨h1, h2, _⟩ | ⟨D, _, h2, h3, _⟩ | ⟨D, q, pc, h1, h2, h3, _⟩
  · exact ⟨[], .inl ⟨by simp [h1], h2⟩⟩
  · exact ⟨D, .inl ⟨h2, h3⟩⟩
  · exact ⟨D, .inr ⟨q, pc, h1, h2, h3⟩⟩

/-- C22.  With a sequential runner handlers run in arrival order, one after the other. -/
theorem handle_sequential (s : ConnSt) (h : ConnSt.Reach true s) :
    handledRequests s.trace <+: s.dispatched := by
  have inv := conn_inv h
  have happ : ∀ a b : List SrvEvent,
      handledRequests (a ++ b) = handledRequests a ++ handledRequests b :=
    fun a b => by simp [handledRequests]
  have hb : ∀ D : List Request, handledRequests (.state .new :: D.flatMap block) = D := by
    intro D
    induction D with
    | nil => rfl
    | cons q D ih =>
      simp only [handledRequests, List.flatMap_cons, List.filterMap_cons, List.filterMap_append] at ih ⊢
      rw [ih]; simp [block]
  rw [← inv.tasks]
  rcases seq_inv h with ⟨h1, h2, h3⟩ | ⟨D, h1, h2, h3, h4⟩ | ⟨D, q, pc, h1, h2, h3, h4⟩
  · rw [h3]; exact List.nil_prefix
  · rw [h4, h3, happ, hb]
    have he : handledRequests (ending s.phase) = [] := by cases s.phase <;> rfl
    rw [he]; simp [Function.comp_def]
  · rw [h4, h3, happ, hb]
    cases pc with
    | pending => simp [cur, handledRequests, Function.comp_def]
    | active => simp [cur, handledRequests, Function.comp_def]
    | handled => simp [cur, handledRequests, Function.comp_def]
    | done => exact absurd rfl h2

/-- C22, C106.  With a sequential runner at most the last request handed over has not been handled. -/
theorem handle_sequential_all (s : ConnSt) (h : ConnSt.Reach true s) :
    s.dispatched.length ≤ (handledRequests s.trace).length + 1 := by
  have inv := conn_inv h
  rw [inv.handled.length_eq, List.length_map, ← inv.tasks, List.length_map]
  obtain ⟨D, ⟨_, h2⟩ | ⟨q, pc, _, _, h2⟩⟩ := tasks_sequential s h
  · have : s.tasks.filter (fun t => t.2 == .handled || t.2 == .done) = s.tasks := by
      rw [List.filter_eq_self, h2]
      intro t ht
      obtain ⟨q, _, rfl⟩ := List.mem_map.mp ht
      rfl
    rw [this]; omega
  · rw [h2, List.filter_append]
    have : (D.map (fun q => (q, TaskPc.done))).filter (fun t => t.2 == .handled || t.2 == .done) =
        D.map (fun q => (q, TaskPc.done)) := by
      rw [List.filter_eq_self]
      intro t ht
      obtain ⟨q, _, rfl⟩ := List.mem_map.mp ht
      rfl
    rw [this]
    simp only [List.length_append, List.length_map, List.length_singleton]
    omega

/-- Non-vacuity of the sequential theorems: a request, handled, and a closed connection. -/
example : ∃ s, ConnSt.Reach true s ∧ (handledRequests s.trace).length = 1 ∧
    reportedStates s.trace = [.new, .handshake, .idle, .closed] ∧ s.phase = .gone := by
  let q : Request := Request.zero
  have h : ConnSt.Reach true ⟨.gone, .ended, [(q, .done)], [q], [q],
      [.state .new, .state .handshake, .handle q, .state .idle, .state .closed, .close], false⟩ :=
    .tail true false (.tail true false (.tail true false (.tail true false (.tail true false
    (.tail true false (.tail true false (.tail true false (.tail true false (.tail true false
    (.tail true false (.tail true false .init
      (.new _ rfl)) (.admit _ rfl rfl)) (.add _ rfl)) (.start _ rfl)) (.receive _ q rfl))
      (.deliver _ q rfl rfl)) (.taskActive _ [] q [] rfl)) (.taskHandle _ [] q [] rfl))
      (.receiveErr _ rfl)) (.taskDone _ [] q [] rfl)) (.fail _ rfl rfl)) (.closeState _ rfl)
    |> fun h => .tail true false h (.closeNet _ rfl)
  exact ⟨_, h, rfl, rfl, rfl⟩

/-! ## C55 -/

/-- C55.  The network connection is closed at most once, and not before `Closed` has been
reported.  (This holds in every reachable state, so also at the moment of closing.) -/
theorem closed_once (seq : Bool) (s : ConnSt) (h : ConnSt.Reach seq s) :
    timesClosed s.trace ≤ 1 ∧
    (timesClosed s.trace = 1 ↔ s.phase = .gone) ∧
    (timesClosed s.trace = 1 → (reportedStates s.trace).count .closed = 1) := by
  have inv := conn_inv h
  refine ⟨?_, ?_, (states_any_runner_partial seq s h).2.2.1⟩
  · rw [inv.closes]; split <;> omega
  · rw [inv.closes]; split <;> simp_all

/-- C55.  A receive error, or the stop channel, ends a waiting serve loop: the step is
possible, and whatever else happens, the loop takes that step or is told about it again. -/
theorem close_starts (seq room : Bool) (s : ConnSt) (hp : s.phase = .loop) :
    (s.rcv = .offerErr → ∀ stopped, ∃ s', ConnSt.Step seq room stopped s ⟨-1, 0⟩ s' ∧
      s'.phase = .closing) ∧
    (∃ s', ConnSt.Step seq room true s ⟨0, 0⟩ s' ∧ s'.phase = .closing) :=
  ⟨fun he _ => ⟨_, .fail s hp he, rfl⟩, ⟨_, .stop s hp rfl, rfl⟩⟩

/-- C55.  From then on (and for a refused connection from the refusal on) the goroutine is
never blocked until the connection is closed: its next step is possible in every state,
whatever the receiver, the handlers and the rest of the server do; it takes at most two
steps. -/
theorem close_completes (seq room stopped : Bool) (s : ConnSt) :
    (s.phase = .closing → ∃ s', ConnSt.Step seq room stopped s ⟨0, 0⟩ s' ∧ s'.phase = .closingNet ∧
      s'.trace = s.trace ++ [.state .closed]) ∧
    (s.phase = .closingNet → ∃ s', ConnSt.Step seq room stopped s ⟨0, 0⟩ s' ∧ s'.phase = .gone ∧
      s'.trace = s.trace ++ [.close]) ∧
    (s.phase = .refusing → ∃ s', ConnSt.Step seq room stopped s ⟨0, 0⟩ s' ∧ s'.phase = .refused ∧
      s'.trace = s.trace ++ [.state .closed]) ∧
    (s.phase = .refused → ∃ s', ConnSt.Step seq room stopped s ⟨0, 1⟩ s' ∧ s'.phase = .gone ∧
      s'.trace = s.trace ++ [.close]) :=
  ⟨fun h => ⟨_, .closeState s h, rfl, rfl⟩, fun h => ⟨_, .closeNet s h, rfl, rfl⟩,
   fun h => ⟨_, .refuseState s h, rfl, rfl⟩, fun h => ⟨_, .refuseClose s h, rfl, rfl⟩⟩

/-- C55.  A refused connection is never served: no request is received on it. -/
theorem refused_not_served (seq : Bool) (s : ConnSt) (h : ConnSt.Reach seq s)
    (hp : s.phase = .refusing ∨ s.phase = .refused) : s.dispatched = [] ∧ s.rcv = .off := by
  have inv := conn_inv h
  have hoff : s.rcv = .off := inv.off (by rcases hp with hp | hp <;> simp [hp, pre])
  exact ⟨by rw [← inv.tasks, inv.offTasks hoff]; rfl, hoff⟩

/-! ## C20 -/

/-- The connection occupies a slot: it has been counted, and its serve loop has not ended. -/
def Served (s : ConnSt) : Bool := s.phase == .queued || s.phase == .loop || s.phase == .busy

/-- The connection is still in `accept`. -/
private def inAccept (s : ConnSt) : Bool :=
  s.phase == .accepted || s.phase == .reported || s.phase == .refusing || s.phase == .refused ||
    s.phase == .admitted

private def isAdmitted (s : ConnSt) : Bool := s.phase == .admitted

private structure SrvInv (m : Int) (loops : Nat) (v : Srv) : Prop where
  count : v.conns = v.cs.countP Served + v.cs.countP (·.leaked)
  free : v.free + v.cs.countP inAccept ≤ loops
  leaked : ∀ s ∈ v.cs, s.leaked = true → v.stopped = true
  bound : 0 < m → m < 2 ^ 31 → v.conns + v.cs.countP isAdmitted ≤ m - 1 + loops

private theorem toInt32_small {m : Int} (h0 : 0 < m) (h1 : m < 2 ^ 31) : toInt32 m = m := by
  unfold toInt32; omega

private theorem leaked_closed {seq : Bool} {s : ConnSt} (h : ConnSt.Reach seq s) :
    s.leaked = true → s.phase = .closing ∨ s.phase = .closingNet ∨ s.phase = .gone := by
  induction h with
  | init => intro h; cases h
  | @tail s s' eff _ _ h st ih =>
    cases st with
    | taskDone a q b ht =>
      cases seq with
      | false => simpa using ih
      | true =>
        have := seq_busy h ⟨(q, .handled), by rw [ht]; simp, by simp⟩
        intro hl
        simp [this] at ih
        simp [ih] at hl
    | _ => simp_all

private theorem step_counts {seq : Bool} {m : Int} {v : Srv} {s s' : ConnSt} {eff : Effect}
    {stopped : Bool} (hr : ConnSt.Reach seq s)
    (st : ConnSt.Step seq (hasRoom m v.conns) stopped s eff s') :
    ((if Served s' then 1 else 0 : Int) + (if s'.leaked then 1 else 0) =
      (if Served s then 1 else 0) + (if s.leaked then 1 else 0) + eff.conns) ∧
    (eff.free + (if inAccept s' then 1 else 0 : Nat) = if inAccept s then 1 else 0) ∧
    (s'.leaked = true → s.leaked = true ∨ stopped = true) ∧
    ((eff.conns : Int) + (if isAdmitted s' then 1 else 0) ≤ (if isAdmitted s then 1 else 0) ∨
      (isAdmitted s' = true ∧ eff.conns = 0 ∧ isAdmitted s = false ∧ inAccept s = true ∧
        hasRoom m v.conns = true)) := by
  cases st with
  | stop h hs =>
    refine ⟨?_, ?_, ?_, ?_⟩
    · cases hl : s.leaked with
      | false => simp [Served, h]
      | true => have := leaked_closed hr hl; simp [h] at this
    · simp [inAccept, h]
    · intro _; exact .inr hs
    · left; simp [isAdmitted, h]
  | deliver q h hq => cases seq <;> simp [Served, inAccept, isAdmitted, h] <;> intro h <;> simp [h]
  | taskDone a q b ht =>
    cases seq with
    | false => simp [Served, inAccept, isAdmitted]; intro h; simp [h]
    | true =>
      have := seq_busy hr ⟨(q, .handled), by rw [ht]; simp, by simp⟩
      simp [Served, inAccept, isAdmitted, this]; intro h; simp [h]
  | _ => simp_all [Served, inAccept, isAdmitted] <;> (first | omega | (intro h; simp [h]))

private theorem countP_split {p : ConnSt → Bool} {l a b : List ConnSt} {s : ConnSt}
    (h : l = a ++ s :: b) :
    l.countP p = a.countP p + b.countP p + if p s then 1 else 0 := by
  rw [h, List.countP_append, List.countP_cons]; omega

private theorem srv_inv {seq : Bool} {m : Int} {loops : Nat} {v : Srv}
    (h : Srv.Reach seq m loops v) : SrvInv m loops v := by
  induction h with
  | init => exact ⟨rfl, by simp [Srv.init], by simp [Srv.init], by simp [Srv.init]; omega⟩
  | @tail v v' hv st ih =>
    cases st with
    | accept h =>
      refine ⟨?_, ?_, ?_, ?_⟩
      · have := ih.count
        simp [Served, ConnSt.fresh] at this ⊢; exact this
      · have := ih.free
        simp [inAccept, ConnSt.fresh] at this ⊢; omega
      · intro s hs
        simp only [List.mem_append, List.mem_singleton] at hs
        rcases hs with hs | rfl
        · exact ih.leaked s hs
        · intro h; cases h
      · have := ih.bound
        simp [isAdmitted, ConnSt.fresh] at this ⊢; exact this
    | acceptErr h =>
      refine ⟨ih.count, ?_, ih.leaked, ih.bound⟩
      have := ih.free
      show v.free - 1 + v.cs.countP inAccept ≤ _
      omega
    | stop => exact ⟨ih.count, ih.free, fun _ _ _ => rfl, ih.bound⟩
    | conn a s b eff s' h st =>
      have hr := hv.conn s (by rw [h]; simp)
      obtain ⟨h1, h2, h3, h4⟩ := step_counts hr st
      have c1 := ih.count
      have c2 := ih.free
      rw [countP_split h, countP_split h] at c1
      rw [countP_split h] at c2
      refine ⟨?_, ?_, ?_, ?_⟩
      · show v.conns + eff.conns = _
        rw [countP_split rfl, countP_split rfl]
        rw [c1]
        clear c1 c2 h2 h3 h4 ih
        have e : ∀ p : Prop, ∀ [Decidable p], ((if p then 1 else 0 : Nat) : Int) = if p then 1 else 0 :=
          fun p _ => by split <;> rfl
        simp only [Int.natCast_add, e]
        omega
      · show v.free + eff.free + _ ≤ _
        rw [countP_split rfl]
        omega
      · intro t ht hl
        simp only [List.mem_append, List.mem_cons] at ht
        rcases ht with ht | rfl | ht
        · exact ih.leaked t (by rw [h]; simp [ht]) hl
        · rcases h3 hl with h3 | h3
          · exact ih.leaked s (by rw [h]; simp) h3
          · exact h3
        · exact ih.leaked t (by rw [h]; simp [ht]) hl
      · intro m0 m1
        have c4 := ih.bound m0 m1
        rw [countP_split h] at c4
        show v.conns + eff.conns + _ ≤ _
        rw [countP_split rfl]
        rcases h4 with h4 | ⟨k1, k2, k3, k4, k5⟩
        · have e : ∀ p : Prop, ∀ [Decidable p],
              ((if p then 1 else 0 : Nat) : Int) = if p then 1 else 0 := fun p _ => by split <;> rfl
          simp only [Int.natCast_add, e] at c4 ⊢
          omega
        · have hroom : v.conns < m := by
            have hm : ¬ m = 0 := by omega
            simp [hasRoom, hm, toInt32_small m0 m1] at k5
            exact k5
          have hle : ∀ l : List ConnSt, l.countP isAdmitted ≤ l.countP inAccept := by
            intro l
            refine List.countP_mono_left ?_
            intro t _ ht
            simp [isAdmitted] at ht
            simp [inAccept, ht]
          have := hle a
          have := hle b
          simp only [k1, k2, k4, if_true] at c2 ⊢
          omega

/-- C20, one `Serve` loop and `0 < m < 2^31`: never more than `MaxConns` connections are
served.  Missing: several loops (`limit_two_loops_false`, `limit_loops_partial`) and larger
values (`limit_large_false`). -/
theorem limit_partial (seq : Bool) (m : Int) (v : Srv) (h0 : 0 < m) (h1 : m < 2 ^ 31)
    (h : Srv.Reach seq m 1 v) : (v.cs.countP Served : Int) ≤ m := by
  have inv := srv_inv h
  have := inv.bound h0 h1
  have := inv.count
  omega

/-- C20, any number of `Serve` loops: the limit can be exceeded by the number of loops less
one, and not by more. -/
theorem limit_loops_partial (seq : Bool) (m : Int) (loops : Nat) (v : Srv) (h0 : 0 < m)
    (h1 : m < 2 ^ 31) (h : Srv.Reach seq m loops v) :
    (v.cs.countP Served : Int) ≤ m + loops - 1 := by
  have inv := srv_inv h
  have := inv.bound h0 h1
  have := inv.count
  omega

private theorem go {seq : Bool} {m : Int} {loops : Nat} {v v' : Srv} {s s' : ConnSt} {eff : Effect}
    (h : Srv.Reach seq m loops v) (a b : List ConnSt) (hc : v.cs = a ++ s :: b)
    (st : ConnSt.Step seq (hasRoom m v.conns) v.stopped s eff s')
    (hv : v' = { v with cs := a ++ s' :: b, conns := v.conns + eff.conns, free := v.free + eff.free }) :
    Srv.Reach seq m loops v' := by
  subst hv; exact .tail h (.conn v a s b eff s' hc st)

/-- C20 is false for two `Serve` loops: both read the counter before either increments it. -/
theorem limit_two_loops_false : ∃ v, Srv.Reach false 1 2 v ∧ v.cs.countP Served = 2 := by
  let t : List SrvEvent := [.state .new]
  let c (p : Phase) (t : List SrvEvent) : ConnSt := ⟨p, .off, [], [], [], t, false⟩
  have h1 : Srv.Reach false 1 2 ⟨0, 0, [c .accepted [], c .accepted []], false⟩ :=
    .tail (.tail .init (.accept _ (by decide))) (.accept _ (by decide))
  have h2 : Srv.Reach false 1 2 ⟨0, 0, [c .reported t, c .accepted []], false⟩ :=
    go h1 [] [c .accepted []] rfl (.new _ rfl) rfl
  have h3 : Srv.Reach false 1 2 ⟨0, 0, [c .reported t, c .reported t], false⟩ :=
    go h2 [c .reported t] [] rfl (.new _ rfl) rfl
  have h4 : Srv.Reach false 1 2 ⟨0, 0, [c .admitted t, c .reported t], false⟩ :=
    go h3 [] [c .reported t] rfl (.admit _ rfl rfl) rfl
  have h5 : Srv.Reach false 1 2 ⟨0, 0, [c .admitted t, c .admitted t], false⟩ :=
    go h4 [c .admitted t] [] rfl (.admit _ rfl rfl) rfl
  have h6 : Srv.Reach false 1 2 ⟨1, 1, [c .queued t, c .admitted t], false⟩ :=
    go h5 [] [c .admitted t] rfl (.add _ rfl) rfl
  have h7 : Srv.Reach false 1 2 ⟨2, 2, [c .queued t, c .queued t], false⟩ :=
    go h6 [c .queued t] [] rfl (.add _ rfl) rfl
  exact ⟨_, h7, rfl⟩

/-- C20.  The counter is exactly the number of served connections, plus those the stop
channel ended, which never give back their slot; without a stop it is exact. -/
theorem limit_counter (seq : Bool) (m : Int) (loops : Nat) (v : Srv)
    (h : Srv.Reach seq m loops v) :
    (v.stopped = false → v.conns = v.cs.countP Served) ∧ (v.cs.countP Served : Int) ≤ v.conns := by
  have inv := srv_inv h
  have hc := inv.count
  refine ⟨fun hs => ?_, by omega⟩
  have hz : v.cs.countP (·.leaked) = 0 := by
    rw [List.countP_eq_zero]
    intro s hm hl
    have := inv.leaked s hm hl
    simp [hs] at this
  rw [hc, hz]; simp

/-- C20, `0 < m < 2^31`, server not stopped: a new connection is refused if `m` connections
are being served, and only then. -/
theorem limit_refuses (seq : Bool) (m : Int) (loops : Nat) (v : Srv) (s : ConnSt)
    (h0 : 0 < m) (h1 : m < 2 ^ 31) (hs : v.stopped = false)
    (h : Srv.Reach seq m loops v) (hp : s.phase = .reported) :
    ((∃ eff s', ConnSt.Step seq (hasRoom m v.conns) v.stopped s eff s' ∧ s'.phase = .refusing) ↔
      m ≤ v.cs.countP Served) ∧
    ((∃ eff s', ConnSt.Step seq (hasRoom m v.conns) v.stopped s eff s' ∧ s'.phase = .admitted) ↔
      v.cs.countP Served < m) := by
  have hm : ¬ m = 0 := by omega
  have hroom : hasRoom m v.conns = decide ((v.cs.countP Served : Int) < m) := by
    rw [(limit_counter seq m loops v h).1 hs]
    by_cases hlt : (v.cs.countP Served : Int) < m
    · simp [hasRoom, hm, toInt32_small h0 h1, hlt]
    · simp [hasRoom, hm, toInt32_small h0 h1, hlt]; omega
  refine ⟨⟨?_, fun hl => ⟨_, _, .refuse s hp (by simp [hroom]; omega), rfl⟩⟩,
    ⟨?_, fun hl => ⟨_, _, .admit s hp (by simp [hroom]; omega), rfl⟩⟩⟩
  · rintro ⟨eff, s', st, hq⟩
    cases st <;> simp_all <;> (try (cases seq <;> simp_all))
  · rintro ⟨eff, s', st, hq⟩
    cases st <;> simp_all <;> (try (cases seq <;> simp_all))

/-- C20.  With `MaxConns = 0` no connection is ever refused. -/
theorem limit_zero (seq : Bool) (loops : Nat) (v : Srv) (h : Srv.Reach seq 0 loops v) :
    ∀ s ∈ v.cs, s.phase ≠ .refusing ∧ s.phase ≠ .refused := by
  induction h with
  | init => simp [Srv.init]
  | @tail v v' hv st ih =>
    cases st with
    | accept h =>
      intro s hs
      simp only [List.mem_append, List.mem_singleton] at hs
      rcases hs with hs | rfl
      · exact ih s hs
      · simp [ConnSt.fresh]
    | acceptErr h => exact ih
    | stop => exact ih
    | conn a s b eff s' h st =>
      have hs := ih s (by rw [h]; simp)
      intro t ht
      simp only [List.mem_append, List.mem_cons] at ht
      rcases ht with ht | rfl | ht
      · exact ih t (by rw [h]; simp [ht])
      · cases st <;> simp_all [hasRoom] <;> (try (cases seq <;> simp_all))
      · exact ih t (by rw [h]; simp [ht])

/-- C20.  Capacity is released: when a receive error ends the serve loop of a connection, one
connection less is counted. -/
theorem limit_released (seq : Bool) (m : Int) (v : Srv) (a b : List ConnSt)
    (s : ConnSt) (hc : v.cs = a ++ s :: b)
    (hp : s.phase = .loop) (he : s.rcv = .offerErr) :
    ∃ v', Srv.Step seq m v v' ∧ v'.conns = v.conns - 1 ∧
      (v'.cs.countP Served : Int) = v.cs.countP Served - 1 := by
  refine ⟨_, .conn v a s b _ _ hc (.fail s hp he), rfl, ?_⟩
  rw [countP_split (p := Served) (l := a ++ _ :: b) rfl, countP_split hc]
  simp [Served, hp]

/-- C20 is false for large values: `int32(MaxConns)` truncates, so with `MaxConns = 2^31` the
very first connection can only be refused. -/
theorem limit_large_false : ∃ v s, Srv.Reach false (2 ^ 31) 1 v ∧ v.cs = [s] ∧
    s.phase = .reported ∧ v.cs.countP Served = 0 ∧ hasRoom (2 ^ 31) v.conns = false := by
  have h : Srv.Reach false (2 ^ 31) 1
      ⟨0, 0, [⟨.reported, .off, [], [], [], [.state .new], false⟩], false⟩ :=
    go (.tail .init (.accept _ (by decide))) [] [] rfl (.new _ rfl) rfl
  exact ⟨_, _, h, rfl, rfl, rfl, by decide⟩

/-- C20 is false after a stop: connections ended by the stop channel keep their slot, so a
server with nobody served refuses the next connection. -/
theorem limit_stop_false : ∃ v, Srv.Reach false 1 1 v ∧ v.cs.countP Served = 0 ∧
    hasRoom 1 v.conns = false := by
  let t : List SrvEvent := [.state .new]
  let c (p : Phase) (t : List SrvEvent) : ConnSt := ⟨p, .off, [], [], [], t, false⟩
  have h1 : Srv.Reach false 1 1 ⟨0, 0, [c .accepted []], false⟩ :=
    .tail .init (.accept _ (by decide))
  have h2 : Srv.Reach false 1 1 ⟨0, 0, [c .reported t], false⟩ :=
    go h1 [] [] rfl (.new _ rfl) rfl
  have h3 : Srv.Reach false 1 1 ⟨0, 0, [c .admitted t], false⟩ :=
    go h2 [] [] rfl (.admit _ rfl rfl) rfl
  have h4 : Srv.Reach false 1 1 ⟨1, 1, [c .queued t], false⟩ :=
    go h3 [] [] rfl (.add _ rfl) rfl
  have h5 : Srv.Reach false 1 1 ⟨1, 1, [⟨.loop, .reading, [], [], [], t, false⟩], false⟩ :=
    go h4 [] [] rfl (.start _ rfl) rfl
  have h6 : Srv.Reach false 1 1 ⟨1, 1, [⟨.loop, .reading, [], [], [], t, false⟩], true⟩ :=
    .tail h5 (.stop _)
  have h7 : Srv.Reach false 1 1 ⟨1, 1, [⟨.closing, .reading, [], [], [], t, true⟩], true⟩ :=
    go h6 [] [] rfl (.stop _ rfl rfl) rfl
  exact ⟨_, h7, rfl, by decide⟩

/-- Non-vacuity: one loop, `MaxConns = 1`, one connection served and the next refused. -/
example : ∃ v s, Srv.Reach false 1 1 v ∧ v.cs.countP Served = 1 ∧ s ∈ v.cs ∧
    s.phase = .refusing := by
  let t : List SrvEvent := [.state .new]
  let c (p : Phase) (t : List SrvEvent) : ConnSt := ⟨p, .off, [], [], [], t, false⟩
  have h1 : Srv.Reach false 1 1 ⟨0, 0, [c .accepted []], false⟩ :=
    .tail .init (.accept _ (by decide))
  have h2 : Srv.Reach false 1 1 ⟨0, 0, [c .reported t], false⟩ :=
    go h1 [] [] rfl (.new _ rfl) rfl
  have h3 : Srv.Reach false 1 1 ⟨0, 0, [c .admitted t], false⟩ :=
    go h2 [] [] rfl (.admit _ rfl rfl) rfl
  have h4 : Srv.Reach false 1 1 ⟨1, 1, [c .queued t], false⟩ :=
    go h3 [] [] rfl (.add _ rfl) rfl
  have h5 : Srv.Reach false 1 1 ⟨1, 0, [c .queued t, c .accepted []], false⟩ :=
    .tail h4 (.accept _ (by decide))
  have h6 : Srv.Reach false 1 1 ⟨1, 0, [c .queued t, c .reported t], false⟩ :=
    go h5 [c .queued t] [] rfl (.new _ rfl) rfl
  have h7 : Srv.Reach false 1 1 ⟨1, 0, [c .queued t, c .refusing t], false⟩ :=
    go h6 [c .queued t] [] rfl (.refuse _ rfl rfl) rfl
  exact ⟨_, c .refusing t, h7, rfl, by simp, rfl⟩


/-! ## C55: every fair execution closes the connection -/

/-- An execution of one connection: at every moment either the connection makes a step or
something else happens in the program. -/
structure ConnRun (seq : Bool) where
  st : Nat → ConnSt
  room : Nat → Bool
  stopped : Nat → Bool
  init : st 0 = .fresh
  next : ∀ t, st (t + 1) = st t ∨
    ∃ eff, ConnSt.Step seq (room t) (stopped t) (st t) eff (st (t + 1))

/-- Weak fairness of the scheduler: a step of the goroutine in charge of the connection, or of
its request handlers, that stays possible is taken at some time; in particular handlers return. -/
structure ConnRun.Fair {seq : Bool} (r : ConnRun seq) : Prop where
  owner : ∀ t, ∃ u, t ≤ u ∧ ((r.st (u + 1)).phase ≠ (r.st u).phase ∨
    ¬ ∃ eff s', ConnSt.Step seq (r.room u) (r.stopped u) (r.st u) eff s' ∧ s'.phase ≠ (r.st u).phase)
  handlers : ∀ t, ∃ u, t ≤ u ∧ ((r.st (u + 1)).tasks ≠ (r.st u).tasks ∨
    ¬ ∃ eff s', ConnSt.Step seq (r.room u) (r.stopped u) (r.st u) eff s' ∧ s'.tasks ≠ (r.st u).tasks)

private theorem run_reach {seq : Bool} (r : ConnRun seq) : ∀ t, ConnSt.Reach seq (r.st t)
  | 0 => by rw [r.init]; exact .init
  | t + 1 => by
    rcases r.next t with h | ⟨eff, h⟩
    · rw [h]; exact run_reach r t
    · exact .tail _ _ (run_reach r t) h

private theorem leaves {seq : Bool} (r : ConnRun seq) {α : Type} (f : ConnSt → α)
    (hf : ∀ t, ∃ u, t ≤ u ∧ (f (r.st (u + 1)) ≠ f (r.st u) ∨
      ¬ ∃ eff s', ConnSt.Step seq (r.room u) (r.stopped u) (r.st u) eff s' ∧ f s' ≠ f (r.st u)))
    (Q : ConnSt → Prop) (c : α) (hQ : ∀ s, Q s → f s = c) (t : Nat) (h : Q (r.st t))
    (hen : ∀ u, t ≤ u → Q (r.st u) →
      ∃ eff s', ConnSt.Step seq (r.room u) (r.stopped u) (r.st u) eff s' ∧ f s' ≠ f (r.st u)) :
    ∃ u eff, t ≤ u ∧ Q (r.st u) ∧ ¬ Q (r.st (u + 1)) ∧
      ConnSt.Step seq (r.room u) (r.stopped u) (r.st u) eff (r.st (u + 1)) := by
  refine Classical.byContradiction fun hc => ?_
  have hk : ∀ k, Q (r.st (t + k)) := by
    intro k
    induction k with
    | zero => exact h
    | succ k ih =>
      refine Classical.byContradiction fun hn => ?_
      rcases r.next (t + k) with he | ⟨eff, st⟩
      · rw [← Nat.add_assoc, he] at hn; exact hn ih
      · exact hc ⟨t + k, eff, by omega, ih, hn, st⟩
  have hall : ∀ u, t ≤ u → Q (r.st u) := fun u hu => by
    have := hk (u - t)
    rwa [Nat.add_sub_cancel' hu] at this
  obtain ⟨u, hu, hne | hne⟩ := hf t
  · exact hne ((hQ _ (hall (u + 1) (by omega))).trans (hQ _ (hall u hu)).symm)
  · exact hne (hen u hu (hall u hu))

private theorem closing_ends {seq : Bool} (r : ConnRun seq) (hf : r.Fair) (t : Nat)
    (h : (r.st t).phase = .closing ∨ (r.st t).phase = .closingNet ∨ (r.st t).phase = .gone) :
    ∃ u, t ≤ u ∧ (r.st u).phase = .gone := by
  have h2 : ∀ t, (r.st t).phase = .closingNet → ∃ u, t ≤ u ∧ (r.st u).phase = .gone := by
    intro t h
    obtain ⟨u, eff, hu, hq, hn, st⟩ := leaves r (·.phase) hf.owner (fun s => s.phase = .closingNet) _
      (fun _ h => h) t h (fun u _ hq => ⟨_, _, .closeNet _ hq, by simp [hq]⟩)
    refine ⟨u + 1, by omega, ?_⟩
    generalize r.st (u + 1) = s' at st hn
    have hr := run_reach r u
    cases st <;> simp_all
    rename_i a q b h
    cases seq with
    | false => simp_all
    | true => have := seq_busy hr ⟨(q, .handled), by rw [h]; simp, by simp⟩; simp_all
  rcases h with h | h | h
  · obtain ⟨u, eff, hu, hq, hn, st⟩ := leaves r (·.phase) hf.owner (fun s => s.phase = .closing) _
      (fun _ h => h) t h (fun u _ hq => ⟨_, _, .closeState _ hq, by simp [hq]⟩)
    have : (r.st (u + 1)).phase = .closingNet := by
      generalize r.st (u + 1) = s' at st hn
      have hr := run_reach r u
      cases st <;> simp_all
      rename_i a q b h
      cases seq with
      | false => simp_all
      | true => have := seq_busy hr ⟨(q, .handled), by rw [h]; simp, by simp⟩; simp_all
    obtain ⟨v, hv, hg⟩ := h2 (u + 1) this
    exact ⟨v, by omega, hg⟩
  · exact h2 t h
  · exact ⟨t, by omega, h⟩

private theorem gone_closed {seq : Bool} (r : ConnRun seq) (u : Nat) (h : (r.st u).phase = .gone) :
    timesClosed (r.st u).trace = 1 ∧ (reportedStates (r.st u).trace).count .closed = 1 := by
  obtain ⟨_, h2, h3⟩ := closed_once seq _ (run_reach r u)
  exact ⟨h2.2 h, h3 (h2.2 h)⟩

private theorem loop_ends {seq : Bool} (r : ConnRun seq) (hf : r.Fair) (t : Nat)
    (h : (r.st t).phase = .loop ∧ (r.st t).rcv = .offerErr) :
    ∃ u, t ≤ u ∧ (r.st u).phase = .gone := by
  obtain ⟨u, eff, hu, hq, hn, st⟩ := leaves r (·.phase) hf.owner
    (fun s => s.phase = .loop ∧ s.rcv = .offerErr) .loop (fun _ h => h.1) t h
    (fun u _ hq => ⟨_, _, .fail _ hq.1 hq.2, by simp [hq]⟩)
  have : (r.st (u + 1)).phase = .closing := by
    generalize r.st (u + 1) = s' at st hn
    have hr := run_reach r u
    cases st <;> simp_all
  obtain ⟨v, hv, hg⟩ := closing_ends r hf (u + 1) (.inl this)
  exact ⟨v, by omega, hg⟩

private theorem busy_seq {seq : Bool} {s : ConnSt} (h : ConnSt.Reach seq s) :
    s.phase = .busy → seq = true := by
  induction h with
  | init => simp [ConnSt.fresh]
  | tail _ _ _ st ih => cases st <;> cases seq <;> simp_all

/-- A sequential runner is at work on the last request; the reader has failed. -/
private def AtTask (D : List Request) (q : Request) (pc : TaskPc) (s : ConnSt) : Prop :=
  s.phase = .busy ∧ s.rcv = .offerErr ∧ s.tasks = D.map (·, .done) ++ [(q, pc)]

private theorem task_step {D : List Request} {q : Request} {pc : TaskPc} {room stopped : Bool}
    {s s' : ConnSt} {eff : Effect} (h : AtTask D q pc s) (hn : ¬ AtTask D q pc s')
    (st : ConnSt.Step true room stopped s eff s') :
    (pc = .pending ∧ AtTask D q .active s') ∨ (pc = .active ∧ AtTask D q .handled s') ∨
      (pc = .handled ∧ s'.phase = .loop ∧ s'.rcv = .offerErr) := by
  obtain ⟨h1, h2, h3⟩ := h
  cases st with
  | taskActive a q' b ht =>
    obtain ⟨rfl, rfl, rfl, rfl⟩ := last_split (by simp) (h3.symm.trans ht)
    exact .inl ⟨rfl, h1, h2, rfl⟩
  | taskHandle a q' b ht =>
    obtain ⟨rfl, rfl, rfl, rfl⟩ := last_split (by simp) (h3.symm.trans ht)
    exact .inr (.inl ⟨rfl, h1, h2, rfl⟩)
  | taskDone a q' b ht =>
    obtain ⟨rfl, rfl, rfl, rfl⟩ := last_split (by simp) (h3.symm.trans ht)
    exact .inr (.inr ⟨rfl, rfl, h2⟩)
  | _ => simp_all

private theorem busy_ends {seq : Bool} (r : ConnRun seq) (hf : r.Fair) (t : Nat)
    (h : (r.st t).phase = .busy ∧ (r.st t).rcv = .offerErr) :
    ∃ u, t ≤ u ∧ (r.st u).phase = .gone := by
  obtain rfl := busy_seq (run_reach r t) h.1
  have h3 : ∀ D q t, AtTask D q .handled (r.st t) → ∃ u, t ≤ u ∧ (r.st u).phase = .gone := by
    intro D q t h
    obtain ⟨u, eff, hu, hq, hn, st⟩ := leaves r (·.tasks) hf.handlers (AtTask D q .handled) _
      (fun _ h => h.2.2) t h (fun u _ hq => ⟨_, _, .taskDone _ _ _ _ hq.2.2, by simp [hq.2.2]⟩)
    rcases task_step hq hn st with ⟨h, _⟩ | ⟨h, _⟩ | ⟨_, h⟩
    · simp at h
    · simp at h
    · obtain ⟨v, hv, hg⟩ := loop_ends r hf (u + 1) h
      exact ⟨v, by omega, hg⟩
  have h2 : ∀ D q t, AtTask D q .active (r.st t) → ∃ u, t ≤ u ∧ (r.st u).phase = .gone := by
    intro D q t h
    obtain ⟨u, eff, hu, hq, hn, st⟩ := leaves r (·.tasks) hf.handlers (AtTask D q .active) _
      (fun _ h => h.2.2) t h (fun u _ hq => ⟨_, _, .taskHandle _ _ _ _ hq.2.2, by simp [hq.2.2]⟩)
    rcases task_step hq hn st with ⟨h, _⟩ | ⟨_, h⟩ | ⟨h, _⟩
    · simp at h
    · obtain ⟨v, hv, hg⟩ := h3 D q (u + 1) h
      exact ⟨v, by omega, hg⟩
    · simp at h
  have h1 : ∀ D q t, AtTask D q .pending (r.st t) → ∃ u, t ≤ u ∧ (r.st u).phase = .gone := by
    intro D q t h
    obtain ⟨u, eff, hu, hq, hn, st⟩ := leaves r (·.tasks) hf.handlers (AtTask D q .pending) _
      (fun _ h => h.2.2) t h (fun u _ hq => ⟨_, _, .taskActive _ _ _ _ hq.2.2, by simp [hq.2.2]⟩)
    rcases task_step hq hn st with ⟨_, h⟩ | ⟨h, _⟩ | ⟨h, _⟩
    · obtain ⟨v, hv, hg⟩ := h2 D q (u + 1) h
      exact ⟨v, by omega, hg⟩
    · simp at h
    · simp at h
  rcases seq_inv (run_reach r t) with ⟨h', _⟩ | ⟨D, _, h', _⟩ | ⟨D, q, pc, hb, hd, ht, _⟩
  · simp [h.1] at h'
  · exact absurd h.1 h'
  · cases pc with
    | pending => exact h1 D q t ⟨hb, h.2, ht⟩
    | active => exact h2 D q t ⟨hb, h.2, ht⟩
    | handled => exact h3 D q t ⟨hb, h.2, ht⟩
    | done => exact absurd rfl hd

/-- C55, liveness.  In every fair execution: once `Receive` has failed on a served connection,
the connection is closed, and `Closed` is reported, once. -/
theorem closed_eventually {seq : Bool} (r : ConnRun seq) (hf : r.Fair) (t : Nat)
    (h : (r.st t).rcv = .offerErr) :
    ∃ u, t ≤ u ∧ timesClosed (r.st u).trace = 1 ∧ (reportedStates (r.st u).trace).count .closed = 1 := by
  have hg : ∃ u, t ≤ u ∧ (r.st u).phase = .gone := by
    have inv := conn_inv (run_reach r t)
    have hpre : pre (r.st t).phase ≠ true := fun hp => by have := inv.off hp; rw [h] at this; simp at this
    cases hp : (r.st t).phase with
    | loop => exact loop_ends r hf t ⟨hp, h⟩
    | busy => exact busy_ends r hf t ⟨hp, h⟩
    | closing => exact closing_ends r hf t (.inl hp)
    | closingNet => exact closing_ends r hf t (.inr (.inl hp))
    | gone => exact ⟨t, by omega, hp⟩
    | _ => simp [hp, pre] at hpre
  obtain ⟨u, hu, hg⟩ := hg
  exact ⟨u, hu, gone_closed r u hg⟩

/-- C55, liveness.  The same for a connection that was refused. -/
theorem refused_closed_eventually {seq : Bool} (r : ConnRun seq) (hf : r.Fair) (t : Nat)
    (h : (r.st t).phase = .refusing) :
    ∃ u, t ≤ u ∧ timesClosed (r.st u).trace = 1 ∧ (reportedStates (r.st u).trace).count .closed = 1 := by
  have tasks : ∀ u, (r.st u).phase = .refusing ∨ (r.st u).phase = .refused → (r.st u).tasks = [] := by
    intro u hu
    have inv := conn_inv (run_reach r u)
    exact inv.offTasks (inv.off (by rcases hu with hu | hu <;> simp [hu, pre]))
  obtain ⟨u, eff, hu, hq, hn, st⟩ := leaves r (·.phase) hf.owner (fun s => s.phase = .refusing) _
    (fun _ h => h) t h (fun u _ hq => ⟨_, _, .refuseState _ hq, by simp [hq]⟩)
  have h1 : (r.st (u + 1)).phase = .refused := by
    generalize r.st (u + 1) = s' at st hn
    have := tasks u (.inl hq)
    cases st <;> simp_all
  obtain ⟨v, eff, hv, hq, hn, st⟩ := leaves r (·.phase) hf.owner (fun s => s.phase = .refused) _
    (fun _ h => h) (u + 1) h1 (fun u _ hq => ⟨_, _, .refuseClose _ hq, by simp [hq]⟩)
  have h2 : (r.st (v + 1)).phase = .gone := by
    generalize r.st (v + 1) = s' at st hn
    have := tasks v (.inr hq)
    cases st <;> simp_all
  exact ⟨v + 1, by omega, gone_closed r _ h2⟩

/-- C55, liveness.  The same for a served connection once the stop channel is closed, with a
runner that does not block the serve loop. -/
theorem stopped_closed_eventually (r : ConnRun false) (hf : r.Fair) (t : Nat)
    (h : (r.st t).phase = .loop) (hs : ∀ u, t ≤ u → r.stopped u = true) :
    ∃ u, t ≤ u ∧ timesClosed (r.st u).trace = 1 ∧ (reportedStates (r.st u).trace).count .closed = 1 := by
  obtain ⟨u, eff, hu, hq, hn, st⟩ := leaves r (·.phase) hf.owner (fun s => s.phase = .loop) _
    (fun _ h => h) t h (fun u hu hq => ⟨_, _, .stop _ hq (hs u hu), by simp [hq]⟩)
  have h1 : (r.st (u + 1)).phase = .closing := by
    generalize r.st (u + 1) = s' at st hn
    cases st <;> simp_all
  obtain ⟨v, hv, hg⟩ := closing_ends r hf (u + 1) (.inl h1)
  exact ⟨v, by omega, gone_closed r v hg⟩

/-- The `select` statement of the serve loop (server.go:295-309) is fair: when the loop is at it
again and again, with the stop channel closed, that case is chosen at some time. -/
def ConnRun.SelectFair {seq : Bool} (r : ConnRun seq) : Prop :=
  ∀ t, (∀ u, t ≤ u → ∃ v, u ≤ v ∧ (r.st v).phase = .loop ∧ r.stopped v = true) →
    ∃ v, t ≤ v ∧ (r.st v).phase = .loop ∧ (r.st (v + 1)).phase = .closing

/-- A sequential runner is at work on the last request. -/
private def OnTask (D : List Request) (q : Request) (pc : TaskPc) (s : ConnSt) : Prop :=
  s.phase = .busy ∧ s.tasks = D.map (·, .done) ++ [(q, pc)]

private theorem onTask_step {D : List Request} {q : Request} {pc : TaskPc} {room stopped : Bool}
    {s s' : ConnSt} {eff : Effect} (h : OnTask D q pc s) (hn : ¬ OnTask D q pc s')
    (st : ConnSt.Step true room stopped s eff s') :
    (pc = .pending ∧ OnTask D q .active s') ∨ (pc = .active ∧ OnTask D q .handled s') ∨
      (pc = .handled ∧ s'.phase = .loop) := by
  obtain ⟨h1, h3⟩ := h
  cases st with
  | taskActive a q' b ht =>
    obtain ⟨rfl, rfl, rfl, rfl⟩ := last_split (by simp) (h3.symm.trans ht)
    exact .inl ⟨rfl, h1, rfl⟩
  | taskHandle a q' b ht =>
    obtain ⟨rfl, rfl, rfl, rfl⟩ := last_split (by simp) (h3.symm.trans ht)
    exact .inr (.inl ⟨rfl, h1, rfl⟩)
  | taskDone a q' b ht =>
    obtain ⟨rfl, rfl, rfl, rfl⟩ := last_split (by simp) (h3.symm.trans ht)
    exact .inr (.inr ⟨rfl, rfl⟩)
  | receive | receiveErr => exact absurd ⟨h1, h3⟩ hn
  | _ => simp_all

private theorem busy_loops (r : ConnRun true) (hf : r.Fair) (t : Nat) (h : (r.st t).phase = .busy) :
    ∃ u, t ≤ u ∧ (r.st u).phase = .loop := by
  have h3 : ∀ D q t, OnTask D q .handled (r.st t) → ∃ u, t ≤ u ∧ (r.st u).phase = .loop := by
    intro D q t h
    obtain ⟨u, eff, hu, hq, hn, st⟩ := leaves r (·.tasks) hf.handlers (OnTask D q .handled) _
      (fun _ h => h.2) t h (fun u _ hq => ⟨_, _, .taskDone _ _ _ _ hq.2, by simp [hq.2]⟩)
    rcases onTask_step hq hn st with ⟨h, _⟩ | ⟨h, _⟩ | ⟨_, h⟩
    · simp at h
    · simp at h
    · exact ⟨u + 1, by omega, h⟩
  have h2 : ∀ D q t, OnTask D q .active (r.st t) → ∃ u, t ≤ u ∧ (r.st u).phase = .loop := by
    intro D q t h
    obtain ⟨u, eff, hu, hq, hn, st⟩ := leaves r (·.tasks) hf.handlers (OnTask D q .active) _
      (fun _ h => h.2) t h (fun u _ hq => ⟨_, _, .taskHandle _ _ _ _ hq.2, by simp [hq.2]⟩)
    rcases onTask_step hq hn st with ⟨h, _⟩ | ⟨_, h⟩ | ⟨h, _⟩
    · simp at h
    · obtain ⟨v, hv, hg⟩ := h3 D q (u + 1) h
      exact ⟨v, by omega, hg⟩
    · simp at h
  rcases seq_inv (run_reach r t) with ⟨h', _⟩ | ⟨D, _, h', _⟩ | ⟨D, q, pc, hb, hd, ht, _⟩
  · simp [h] at h'
  · exact absurd h h'
  · cases pc with
    | active => exact h2 D q t ⟨hb, ht⟩
    | handled => exact h3 D q t ⟨hb, ht⟩
    | done => exact absurd rfl hd
    | pending =>
      obtain ⟨u, eff, hu, hq, hn, st⟩ := leaves r (·.tasks) hf.handlers (OnTask D q .pending) _
        (fun _ h => h.2) t ⟨hb, ht⟩ (fun u _ hq => ⟨_, _, .taskActive _ _ _ _ hq.2, by simp [hq.2]⟩)
      rcases onTask_step hq hn st with ⟨_, h⟩ | ⟨h, _⟩ | ⟨h, _⟩
      · obtain ⟨v, hv, hg⟩ := h2 D q (u + 1) h
        exact ⟨v, by omega, hg⟩
      · simp at h
      · simp at h

private theorem served_step {room stopped : Bool} {s s' : ConnSt} {eff : Effect}
    (h : s.phase = .loop ∨ s.phase = .busy) (st : ConnSt.Step true room stopped s eff s') :
    s'.phase = .loop ∨ s'.phase = .busy ∨ s'.phase = .closing := by
  rcases h with h | h <;> cases st <;> simp_all

/-- C55, liveness.  The same for `SequentialRunner`, if the `select` statement is fair; the
connection may also be at a request when the server is stopped. -/
theorem stopped_closed_sequential (r : ConnRun true) (hf : r.Fair) (hsel : r.SelectFair) (t : Nat)
    (h : (r.st t).phase = .loop ∨ (r.st t).phase = .busy) (hs : ∀ u, t ≤ u → r.stopped u = true) :
    ∃ u, t ≤ u ∧ timesClosed (r.st u).trace = 1 ∧ (reportedStates (r.st u).trace).count .closed = 1 := by
  have key : ∃ u, t ≤ u ∧ (r.st u).phase = .closing := by
    refine Classical.byContradiction fun hc => ?_
    have hk : ∀ k, (r.st (t + k)).phase = .loop ∨ (r.st (t + k)).phase = .busy := by
      intro k
      induction k with
      | zero => exact h
      | succ k ih =>
        rcases r.next (t + k) with he | ⟨eff, st⟩
        · rw [← Nat.add_assoc, he]; exact ih
        · rcases served_step ih st with h | h | h
          · exact .inl h
          · exact .inr h
          · exact absurd ⟨t + k + 1, by omega, h⟩ hc
    obtain ⟨v, hv, _, h⟩ := hsel t fun u hu => by
      have h := hk (u - t)
      rw [Nat.add_sub_cancel' hu] at h
      rcases h with h | h
      · exact ⟨u, Nat.le_refl _, h, hs u hu⟩
      · obtain ⟨v, hv, h⟩ := busy_loops r hf u h
        exact ⟨v, hv, h, hs v (by omega)⟩
    exact hc ⟨v + 1, by omega, h⟩
  obtain ⟨u, hu, h1⟩ := key
  obtain ⟨v, hv, hg⟩ := closing_ends r hf u (.inl h1)
  exact ⟨v, by omega, gone_closed r v hg⟩

/-- The states of a connection that is served, whose peer hangs up at once. -/
private def hangup : Nat → ConnSt
  | 0 => .fresh
  | 1 => { ConnSt.fresh with phase := .reported, trace := [.state .new] }
  | 2 => { ConnSt.fresh with phase := .admitted, trace := [.state .new] }
  | 3 => { ConnSt.fresh with phase := .queued, trace := [.state .new] }
  | 4 => { ConnSt.fresh with phase := .loop, rcv := .reading, trace := [.state .new] }
  | 5 => { ConnSt.fresh with phase := .loop, rcv := .offerErr, trace := [.state .new] }
  | 6 => { ConnSt.fresh with phase := .closing, rcv := .ended, trace := [.state .new] }
  | 7 => { ConnSt.fresh with phase := .closingNet, rcv := .ended, trace := [.state .new, .state .closed] }
  | _ => { ConnSt.fresh with phase := .gone, rcv := .ended,
                             trace := [.state .new, .state .closed, .close] }

private def hangupRun (seq : Bool) : ConnRun seq where
  st := hangup
  room _ := true
  stopped _ := false
  init := rfl
  next
    | 0 => .inr ⟨_, .new _ rfl⟩
    | 1 => .inr ⟨_, .admit _ rfl rfl⟩
    | 2 => .inr ⟨_, .add _ rfl⟩
    | 3 => .inr ⟨_, .start _ rfl⟩
    | 4 => .inr ⟨_, .receiveErr _ rfl⟩
    | 5 => .inr ⟨_, .fail _ rfl rfl⟩
    | 6 => .inr ⟨_, .closeState _ rfl⟩
    | 7 => .inr ⟨_, .closeNet _ rfl⟩
    | _ + 8 => .inl rfl

private theorem hangup_fair (seq : Bool) : (hangupRun seq).Fair where
  owner t := ⟨t + 8, by omega, .inr (by
    rintro ⟨eff, s', st, h⟩
    have : (hangupRun seq).st (t + 8) = hangup 8 := rfl
    rw [this] at st h
    cases st <;> simp_all [hangup, ConnSt.fresh])⟩
  handlers t := ⟨t + 8, by omega, .inr (by
    rintro ⟨eff, s', st, h⟩
    have : (hangupRun seq).st (t + 8) = hangup 8 := rfl
    rw [this] at st h
    cases st <;> simp_all [hangup, ConnSt.fresh])⟩

/-- The hypotheses of `closed_eventually` hold for the execution in which the peer hangs up at
once. -/
example : ∃ u, 5 ≤ u ∧ timesClosed ((hangupRun true).st u).trace = 1 ∧
    (reportedStates ((hangupRun true).st u).trace).count .closed = 1 :=
  closed_eventually _ (hangup_fair _) 5 rfl

/-- The states of a connection that is refused. -/
private def refusal : Nat → ConnSt
  | 0 => .fresh
  | 1 => { ConnSt.fresh with phase := .reported, trace := [.state .new] }
  | 2 => { ConnSt.fresh with phase := .refusing, trace := [.state .new] }
  | 3 => { ConnSt.fresh with phase := .refused, trace := [.state .new, .state .closed] }
  | _ => { ConnSt.fresh with phase := .gone, trace := [.state .new, .state .closed, .close] }

private def refusalRun (seq : Bool) : ConnRun seq where
  st := refusal
  room _ := false
  stopped _ := false
  init := rfl
  next
    | 0 => .inr ⟨_, .new _ rfl⟩
    | 1 => .inr ⟨_, .refuse _ rfl rfl⟩
    | 2 => .inr ⟨_, .refuseState _ rfl⟩
    | 3 => .inr ⟨_, .refuseClose _ rfl⟩
    | _ + 4 => .inl rfl

private theorem refusal_fair (seq : Bool) : (refusalRun seq).Fair where
  owner t := ⟨t + 4, by omega, .inr (by
    rintro ⟨eff, s', st, h⟩
    have : (refusalRun seq).st (t + 4) = refusal 4 := rfl
    rw [this] at st h
    cases st <;> simp_all [refusal, ConnSt.fresh])⟩
  handlers t := ⟨t + 4, by omega, .inr (by
    rintro ⟨eff, s', st, h⟩
    have : (refusalRun seq).st (t + 4) = refusal 4 := rfl
    rw [this] at st h
    cases st <;> simp_all [refusal, ConnSt.fresh])⟩

example : ∃ u, 2 ≤ u ∧ timesClosed ((refusalRun true).st u).trace = 1 ∧
    (reportedStates ((refusalRun true).st u).trace).count .closed = 1 :=
  refused_closed_eventually _ (refusal_fair _) 2 rfl

/-- The states of a connection of a server that is stopped. -/
private def halt : Nat → ConnSt
  | 0 => .fresh
  | 1 => { ConnSt.fresh with phase := .reported, trace := [.state .new] }
  | 2 => { ConnSt.fresh with phase := .admitted, trace := [.state .new] }
  | 3 => { ConnSt.fresh with phase := .queued, trace := [.state .new] }
  | 4 => { ConnSt.fresh with phase := .loop, rcv := .reading, trace := [.state .new] }
  | 5 => { ConnSt.fresh with phase := .closing, rcv := .reading, trace := [.state .new], leaked := true }
  | 6 => { ConnSt.fresh with phase := .closingNet, rcv := .reading, leaked := true,
                             trace := [.state .new, .state .closed] }
  | _ => { ConnSt.fresh with phase := .gone, rcv := .reading, leaked := true,
                             trace := [.state .new, .state .closed, .close] }

private def haltRun (seq : Bool) : ConnRun seq where
  st := halt
  room _ := true
  stopped _ := true
  init := rfl
  next
    | 0 => .inr ⟨_, .new _ rfl⟩
    | 1 => .inr ⟨_, .admit _ rfl rfl⟩
    | 2 => .inr ⟨_, .add _ rfl⟩
    | 3 => .inr ⟨_, .start _ rfl⟩
    | 4 => .inr ⟨_, .stop _ rfl rfl⟩
    | 5 => .inr ⟨_, .closeState _ rfl⟩
    | 6 => .inr ⟨_, .closeNet _ rfl⟩
    | _ + 7 => .inl rfl

private theorem halt_fair (seq : Bool) : (haltRun seq).Fair where
  owner t := ⟨t + 7, by omega, .inr (by
    rintro ⟨eff, s', st, h⟩
    have : (haltRun seq).st (t + 7) = halt 7 := rfl
    rw [this] at st h
    cases st <;> simp_all [halt, ConnSt.fresh])⟩
  handlers t := ⟨t + 7, by omega, .inr (by
    rintro ⟨eff, s', st, h⟩
    have : (haltRun seq).st (t + 7) = halt 7 := rfl
    rw [this] at st h
    cases st <;> simp_all [halt, ConnSt.fresh])⟩

example : ∃ u, 4 ≤ u ∧ timesClosed ((haltRun false).st u).trace = 1 ∧
    (reportedStates ((haltRun false).st u).trace).count .closed = 1 :=
  stopped_closed_eventually _ (halt_fair _) 4 rfl (fun _ _ => rfl)

private theorem halt_select (seq : Bool) : (haltRun seq).SelectFair := by
  intro t h
  obtain ⟨v, hv, hp, _⟩ := h (t + 7) (by omega)
  obtain ⟨k, rfl⟩ : ∃ k, v = k + 7 := ⟨v - 7, by omega⟩
  simp [haltRun, halt] at hp

example : ∃ u, 4 ≤ u ∧ timesClosed ((haltRun true).st u).trace = 1 ∧
    (reportedStates ((haltRun true).st u).trace).count .closed = 1 :=
  stopped_closed_sequential _ (halt_fair _) (halt_select _) 4 (.inl rfl) (fun _ _ => rfl)

private def someReq : Request := Request.zero

/-- The states of a connection whose only request is never finished, and whose peer has gone. -/
private def stuck : Nat → ConnSt
  | 0 => .fresh
  | 1 => { ConnSt.fresh with phase := .reported, trace := [.state .new] }
  | 2 => { ConnSt.fresh with phase := .admitted, trace := [.state .new] }
  | 3 => { ConnSt.fresh with phase := .queued, trace := [.state .new] }
  | 4 => { ConnSt.fresh with phase := .loop, rcv := .reading, trace := [.state .new] }
  | 5 => { ConnSt.fresh with phase := .loop, rcv := .offer someReq, trace := [.state .new],
                             arrived := [someReq] }
  | 6 => { ConnSt.fresh with phase := .busy, rcv := .reading, trace := [.state .new],
                             arrived := [someReq], dispatched := [someReq],
                             tasks := [(someReq, .pending)] }
  | 7 => { ConnSt.fresh with phase := .busy, rcv := .reading,
                             trace := [.state .new, .state (requestState someReq)],
                             arrived := [someReq], dispatched := [someReq],
                             tasks := [(someReq, .active)] }
  | _ => { ConnSt.fresh with phase := .busy, rcv := .offerErr,
                             trace := [.state .new, .state (requestState someReq)],
                             arrived := [someReq], dispatched := [someReq],
                             tasks := [(someReq, .active)] }

private def stuckRun : ConnRun true where
  st := stuck
  room _ := true
  stopped _ := true
  init := rfl
  next
    | 0 => .inr ⟨_, .new _ rfl⟩
    | 1 => .inr ⟨_, .admit _ rfl rfl⟩
    | 2 => .inr ⟨_, .add _ rfl⟩
    | 3 => .inr ⟨_, .start _ rfl⟩
    | 4 => .inr ⟨_, .receive _ someReq rfl⟩
    | 5 => .inr ⟨_, .deliver _ someReq rfl rfl⟩
    | 6 => .inr ⟨_, .taskActive _ [] someReq [] rfl⟩
    | 7 => .inr ⟨_, .receiveErr _ rfl⟩
    | _ + 8 => .inl rfl

/-- C55, why the theorems above speak of handlers that return: with `SequentialRunner`, a
handler that does not return keeps the connection open for ever, although the peer has gone
and the server has been stopped, and although the goroutine in charge of the connection is
never denied a step. -/
theorem closed_needs_handlers : ∃ r : ConnRun true,
    (∀ t, ∃ u, t ≤ u ∧ ((r.st (u + 1)).phase ≠ (r.st u).phase ∨
      ¬ ∃ eff s', ConnSt.Step true (r.room u) (r.stopped u) (r.st u) eff s' ∧
        s'.phase ≠ (r.st u).phase)) ∧
    (∀ u, 8 ≤ u → (r.st u).rcv = .offerErr ∧ r.stopped u = true) ∧
    ∀ u, timesClosed (r.st u).trace = 0 := by
  refine ⟨stuckRun, fun t => ⟨t + 8, by omega, .inr ?_⟩, fun u hu => ?_, fun u => ?_⟩
  · rintro ⟨eff, s', st, h⟩
    have : stuckRun.st (t + 8) = stuck 8 := rfl
    rw [this] at st h
    cases st with
    | taskDone a q b ht => 
      have := last_split (D := []) (by simp) ht
      simp at this
    | _ => simp_all [stuck, ConnSt.fresh]
  · obtain ⟨k, rfl⟩ := Nat.exists_eq_add_of_le' hu
    exact ⟨rfl, rfl⟩
  · match u with
    | 0 | 1 | 2 | 3 | 4 | 5 | 6 | 7 => rfl
    | _ + 8 => rfl

/-- What `n` requests that have been served leave behind. -/
private def floodTrace : Nat → List SrvEvent
  | 0 => [.state .new]
  | n + 1 => floodTrace n ++ [.state (requestState someReq)] ++ [.handle someReq] ++ [.state .idle]

/-- The states of a connection that has served `n` requests, and is at the next one. -/
private def floodAt (n : Nat) : Nat → ConnSt
  | 0 => { ConnSt.fresh with
      phase := .loop, rcv := .reading, trace := floodTrace n, arrived := .replicate n someReq,
      dispatched := .replicate n someReq, tasks := .replicate n (someReq, .done) }
  | 1 => { ConnSt.fresh with
      phase := .loop, rcv := .offer someReq, trace := floodTrace n,
      arrived := .replicate n someReq ++ [someReq],
      dispatched := .replicate n someReq, tasks := .replicate n (someReq, .done) }
  | 2 => { ConnSt.fresh with
      phase := .busy, rcv := .reading, trace := floodTrace n,
      arrived := .replicate n someReq ++ [someReq],
      dispatched := .replicate n someReq ++ [someReq],
      tasks := .replicate n (someReq, .done) ++ [(someReq, .pending)] }
  | 3 => { ConnSt.fresh with
      phase := .busy, rcv := .reading, trace := floodTrace n ++ [.state (requestState someReq)],
      arrived := .replicate n someReq ++ [someReq],
      dispatched := .replicate n someReq ++ [someReq],
      tasks := .replicate n (someReq, .done) ++ [(someReq, .active)] }
  | _ => { ConnSt.fresh with
      phase := .busy, rcv := .reading,
      trace := floodTrace n ++ [.state (requestState someReq)] ++ [.handle someReq],
      arrived := .replicate n someReq ++ [someReq],
      dispatched := .replicate n someReq ++ [someReq],
      tasks := .replicate n (someReq, .done) ++ [(someReq, .handled)] }

private theorem flood_again (n : Nat) : ∃ eff, ConnSt.Step true true true (floodAt n 4) eff (floodAt (n + 1) 0) := by
  have h : floodAt (n + 1) 0 = { floodAt n 4 with
      tasks := List.replicate n (someReq, TaskPc.done) ++ (someReq, .done) :: [],
      trace := (floodAt n 4).trace ++ [.state .idle], phase := if true then .loop else (floodAt n 4).phase } := by
    simp [floodAt, floodTrace, List.replicate_succ', ConnSt.fresh]
  rw [h]
  exact ⟨_, .taskDone (floodAt n 4) _ someReq [] rfl⟩

private def flood (t : Nat) : ConnSt :=
  match t with
  | 0 => .fresh
  | 1 => { ConnSt.fresh with phase := .reported, trace := [.state .new] }
  | 2 => { ConnSt.fresh with phase := .admitted, trace := [.state .new] }
  | 3 => { ConnSt.fresh with phase := .queued, trace := [.state .new] }
  | t + 4 => floodAt (t / 5) (t % 5)

private def floodRun : ConnRun true where
  st := flood
  room _ := true
  stopped _ := true
  init := rfl
  next
    | 0 => .inr ⟨_, .new _ rfl⟩
    | 1 => .inr ⟨_, .admit _ rfl rfl⟩
    | 2 => .inr ⟨_, .add _ rfl⟩
    | 3 => .inr ⟨_, .start _ rfl⟩
    | t + 4 => .inr (by
      show ∃ eff, ConnSt.Step true true true (floodAt (t / 5) (t % 5)) eff
        (floodAt ((t + 1) / 5) ((t + 1) % 5))
      have h5 : t % 5 = 0 ∨ t % 5 = 1 ∨ t % 5 = 2 ∨ t % 5 = 3 ∨ t % 5 = 4 := by omega
      rcases h5 with h | h | h | h | h
      · rw [h, show (t + 1) / 5 = t / 5 by omega, show (t + 1) % 5 = 1 by omega]
        exact ⟨_, .receive (floodAt (t / 5) 0) someReq rfl⟩
      · rw [h, show (t + 1) / 5 = t / 5 by omega, show (t + 1) % 5 = 2 by omega]
        exact ⟨_, .deliver (floodAt (t / 5) 1) someReq rfl rfl⟩
      · rw [h, show (t + 1) / 5 = t / 5 by omega, show (t + 1) % 5 = 3 by omega]
        exact ⟨_, .taskActive (floodAt (t / 5) 2) _ someReq [] rfl⟩
      · rw [h, show (t + 1) / 5 = t / 5 by omega, show (t + 1) % 5 = 4 by omega]
        exact ⟨_, .taskHandle (floodAt (t / 5) 3) _ someReq [] rfl⟩
      · rw [h, show (t + 1) / 5 = t / 5 + 1 by omega, show (t + 1) % 5 = 0 by omega]
        exact flood_again _)

private theorem flood_at (n j : Nat) (h : j < 5) : floodRun.st (5 * n + j + 4) = floodAt n j := by
  show floodAt ((5 * n + j) / 5) ((5 * n + j) % 5) = _
  rw [show (5 * n + j) / 5 = n by omega, show (5 * n + j) % 5 = j by omega]

private theorem flood_open (n : Nat) : timesClosed (floodTrace n) = 0 := by
  induction n with
  | zero => rfl
  | succ n ih =>
    rw [floodTrace, tc_append, tc_append, tc_append, ih]
    rfl

/-- C55, why `stopped_closed_sequential` needs a fair `select`: with `SequentialRunner` and a
peer that always has another request, a serve loop that prefers requests serves them for ever,
although the server has been stopped, every handler returns and no goroutine is denied a step
that stays possible. -/
theorem stopped_needs_select : ∃ r : ConnRun true, r.Fair ∧ (∀ u, r.stopped u = true) ∧
    (∀ n, ∃ u, (handledRequests (r.st u).trace).length = n) ∧
    ∀ u, timesClosed (r.st u).trace = 0 := by
  refine ⟨floodRun, ⟨fun t => ⟨5 * t + 1 + 4, by omega, .inl ?_⟩, fun t => ⟨5 * t + 1 + 4, by omega, .inl ?_⟩⟩,
    fun _ => rfl, fun n => ⟨5 * n + 0 + 4, ?_⟩, fun u => ?_⟩
  · rw [flood_at _ 1 (by omega), show 5 * t + 1 + 4 + 1 = 5 * t + 2 + 4 by omega, flood_at _ 2 (by omega)]
    simp [floodAt]
  · rw [flood_at _ 1 (by omega), show 5 * t + 1 + 4 + 1 = 5 * t + 2 + 4 by omega, flood_at _ 2 (by omega)]
    simp [floodAt]
  · rw [flood_at _ 0 (by omega)]
    show (handledRequests (floodTrace n)).length = n
    induction n with
    | zero => rfl
    | succ n ih =>
      rw [floodTrace, hr_append, hr_append, hr_append, List.length_append, List.length_append,
        List.length_append, ih]
      rfl
  · match u with
    | 0 | 1 | 2 | 3 => rfl
    | t + 4 =>
      show timesClosed (floodAt (t / 5) (t % 5)).trace = 0
      have h5 : t % 5 = 0 ∨ t % 5 = 1 ∨ t % 5 = 2 ∨ t % 5 = 3 ∨ t % 5 = 4 := by omega
      rcases h5 with h | h | h | h | h <;> rw [h] <;> simp only [floodAt]
      · exact flood_open _
      · exact flood_open _
      · exact flood_open _
      · rw [tc_append, flood_open]; rfl
      · rw [tc_append, tc_append, flood_open]; rfl

end Verif.Props
