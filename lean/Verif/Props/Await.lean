import Verif.Await

/-!
# C108: a handler may wait for the reply to a request of its own
-/

namespace Verif.Props

open Verif

/-- Nothing is left to do. -/
def AwaitDone (s : Await) : Prop :=
  s.todo = [] ∧ s.inbox = [] ∧ s.queue = [] ∧ s.running = [] ∧ s.asked = []

/-- The reply to what the handler of `i` asked is on its way or has been given to it. -/
private def Coming (s : Await) (i : Nat) : Prop :=
  i ∈ s.asked ∨ .reply i ∈ s.inbox ∨ .reply i ∈ s.queue ∨ .fresh (.reply i) ∈ s.running ∨ i ∈ s.handed

private theorem coming_step {K : AKind} {waits : Nat → Bool} {s s' : Await} (st : Await.Step K waits s s') (i : Nat)
    (h : Coming s i) : Coming s' i := by
  unfold Coming at *
  cases st with
  | arrive j t e => rcases h with h | h | h | h | h <;> simp_all
  | answer a j b e =>
    rcases h with h | h | h | h | h
    · rw [e] at h
      simp only [List.mem_append, List.mem_cons] at h
      rcases h with h | rfl | h <;> simp_all
    all_goals simp_all
  | dispatchDemand m t hk e =>
    rcases h with h | h | h | h | h
    · simp_all
    · rw [e] at h
      simp only [List.mem_cons] at h
      rcases h with rfl | h <;> simp_all
    all_goals simp_all
  | dispatchSeq m t hk e hr =>
    rcases h with h | h | h | h | h
    · simp_all
    · rw [e] at h
      simp only [List.mem_cons] at h
      rcases h with rfl | h <;> simp_all
    all_goals simp_all
  | dispatchPool m t n hk e hq =>
    rcases h with h | h | h | h | h
    · simp_all
    · rw [e] at h
      simp only [List.mem_cons] at h
      rcases h with rfl | h <;> simp_all
    all_goals simp_all
  | start m t n hk e hr =>
    rcases h with h | h | h | h | h
    · simp_all
    · simp_all
    · rw [e] at h
      simp only [List.mem_cons] at h
      rcases h with rfl | h <;> simp_all
    all_goals simp_all
  | ask a j b e hw =>
    rcases h with h | h | h | h | h
    · simp_all
    · simp_all
    · simp_all
    · rw [e] at h
      simp only [List.mem_append, List.mem_cons] at h
      rcases h with h | h | h <;> simp_all
    · simp_all
  | plain a j b e hw =>
    rcases h with h | h | h | h | h
    · simp_all
    · simp_all
    · simp_all
    · rw [e] at h
      simp only [List.mem_append, List.mem_cons] at h
      rcases h with h | h | h <;> simp_all
    · simp_all
  | reply a j b e =>
    rcases h with h | h | h | h | h
    · simp_all
    · simp_all
    · simp_all
    · rw [e] at h
      simp only [List.mem_append, List.mem_cons] at h
      rcases h with h | h | h <;> simp_all
    · simp_all
  | resume a j b e hj =>
    rcases h with h | h | h | h | h
    · simp_all
    · simp_all
    · simp_all
    · rw [e] at h
      simp only [List.mem_append, List.mem_cons] at h
      rcases h with h | h | h <;> simp_all
    · simp_all

private theorem waiting_coming {K : AKind} {waits : Nat → Bool} {todo : List Nat} {s : Await}
    (h : Await.Steps K waits (.init todo) s) : ∀ i, .waiting i ∈ s.running → Coming s i := by
  induction h with
  | refl => intro i hi; simp [Await.init] at hi
  | @tail s s' _ st ih =>
    intro i hi
    by_cases hs : ATask.waiting i ∈ s.running
    · exact coming_step st i (ih i hs)
    · cases st with
      | ask a j b e hw =>
        rw [e] at hs
        simp at hi hs
        simp_all [Coming]
      | arrive j t e => exact absurd hi hs
      | answer a j b e => exact absurd hi hs
      | dispatchPool m t n hk e hq => exact absurd hi hs
      | dispatchDemand m t hk e => simp at hi; exact absurd hi hs
      | dispatchSeq m t hk e hr => simp at hi; exact absurd hi hs
      | start m t n hk e hr => simp at hi; exact absurd hi hs
      | plain a j b e hw => rw [e] at hs; simp at hi hs; simp_all
      | reply a j b e => rw [e] at hs; simp at hi hs; simp_all
      | resume a j b e hj => rw [e] at hs; simp at hi hs; simp_all

/-- The handlers that wait or are going to. -/
private def msgW (waits : Nat → Bool) : AMsg → Nat
  | .req i => if waits i then 1 else 0
  | .reply _ => 0

private def taskW (waits : Nat → Bool) : ATask → Nat
  | .fresh m => msgW waits m
  | .waiting _ => 1

private def totalW (waits : Nat → Bool) (s : Await) : Nat :=
  s.todo.countP waits + (s.inbox.map (msgW waits)).sum + (s.queue.map (msgW waits)).sum + (s.running.map (taskW waits)).sum

private theorem totalW_le {K : AKind} {waits : Nat → Bool} {todo : List Nat} {s : Await}
    (h : Await.Steps K waits (.init todo) s) : totalW waits s ≤ todo.countP waits := by
  induction h with
  | refl => simp [totalW, Await.init]
  | tail _ st ih =>
    refine Nat.le_trans ?_ ih
    cases st <;> simp_all [totalW, msgW, taskW, List.countP_cons] <;> omega

/-- Only a pool has a queue. -/
private theorem queue_pool {K : AKind} {waits : Nat → Bool} {todo : List Nat} {s : Await}
    (h : Await.Steps K waits (.init todo) s) : s.queue = [] ∨ ∃ n, K = .pool n := by
  induction h with
  | refl => left; rfl
  | tail _ st ih =>
    rcases ih with ih | ih
    · cases st <;> simp_all
    · exact .inr ih

private theorem fresh_steps {K : AKind} {waits : Nat → Bool} {s : Await} {m : AMsg} (h : .fresh m ∈ s.running) :
    ∃ s', Await.Step K waits s s' := by
  obtain ⟨a, b, e⟩ := List.append_of_mem h
  cases m with
  | req i =>
    cases hw : waits i with
    | true => exact ⟨_, .ask s a i b e hw⟩
    | false => exact ⟨_, .plain s a i b e hw⟩
  | reply i => exact ⟨_, .reply s a i b e⟩

/-- C108, what holds: with the default runner, with a pool that has more workers than there are
handlers that wait, and with any runner if none waits, something can always happen until everything is done.
Missing: the other cases (`await_sequential_false`, `await_pool_false`). -/
theorem await_progress_partial (K : AKind) (waits : Nat → Bool) (todo : List Nat)
    (hK : K = .onDemand ∨ (∃ n, K = .pool n ∧ todo.countP waits < n) ∨ (K = .sequential ∧ todo.countP waits = 0)) (s : Await)
    (h : Await.Steps K waits (.init todo) s) : AwaitDone s ∨ ∃ s', Await.Step K waits s s' := by
  cases ht : s.todo with
  | cons i t => exact .inr ⟨_, .arrive s i t ht⟩
  | nil =>
  cases ha : s.asked with
  | cons i t => exact .inr ⟨_, .answer s [] i t (by simpa using ha)⟩
  | nil =>
  by_cases hf : ∃ m, .fresh m ∈ s.running
  · obtain ⟨m, hm⟩ := hf; exact .inr (fresh_steps hm)
  have hW : s.running.length ≤ todo.countP waits := by
    refine Nat.le_trans ?_ (totalW_le h)
    have : s.running.length ≤ (s.running.map (taskW waits)).sum := by
      have hall : ∀ t ∈ s.running, taskW waits t = 1 := by
        intro t ht'
        cases t with
        | fresh m => exact absurd ⟨m, ht'⟩ hf
        | waiting i => rfl
      generalize s.running = l at hall
      induction l with
      | nil => simp
      | cons t l ih =>
        have := ih (fun t ht => hall t (by simp [ht]))
        simp [hall t (by simp)]; omega
    simp only [totalW]; omega
  cases hi : s.inbox with
  | cons m t =>
    rcases hK with rfl | ⟨n, rfl, hn⟩ | ⟨rfl, hn⟩
    · exact .inr ⟨_, .dispatchDemand s m t rfl hi⟩
    · cases hq : s.queue with
      | nil => exact .inr ⟨_, .dispatchPool s m t n rfl hi (by rw [hq]; simp; omega)⟩
      | cons m' q => exact .inr ⟨_, .start s m' q n rfl hq (by omega)⟩
    · exact .inr ⟨_, .dispatchSeq s m t rfl hi (List.eq_nil_of_length_eq_zero (by omega))⟩
  | nil =>
  cases hq : s.queue with
  | cons m q =>
    rcases hK with rfl | ⟨n, rfl, hn⟩ | ⟨rfl, hn⟩
    · rcases queue_pool h with e | ⟨n, e⟩
      · rw [hq] at e; simp at e
      · simp at e
    · exact .inr ⟨_, .start s m q n rfl hq (by omega)⟩
    · rcases queue_pool h with e | ⟨n, e⟩
      · rw [hq] at e; simp at e
      · simp at e
  | nil =>
  cases hr : s.running with
  | nil => exact .inl ⟨ht, hi, hq, hr, ha⟩
  | cons t l =>
    right
    cases t with
    | fresh m => exact absurd ⟨m, by rw [hr]; simp⟩ hf
    | waiting i =>
      have hc := waiting_coming h i (by rw [hr]; simp)
      simp only [Coming, ha, hi, hq] at hc
      rcases hc with hc | hc | hc | hc | hc
      · simp at hc
      · simp at hc
      · simp at hc
      · exact absurd ⟨_, hc⟩ hf
      · exact ⟨_, .resume s [] i l (by simpa using hr) hc⟩

/-! ## Executions end -/

private def msgCost : AMsg → Nat
  | .req _ => 6
  | .reply _ => 1

private def taskCost : ATask → Nat
  | .fresh m => msgCost m
  | .waiting _ => 1

private def awaitDue (s : Await) : Nat :=
  9 * s.todo.length + (s.inbox.map (fun m => msgCost m + 2)).sum + (s.queue.map (fun m => msgCost m + 1)).sum +
    (s.running.map taskCost).sum + 4 * s.asked.length

private theorem awaitDue_step {K : AKind} {waits : Nat → Bool} {s s' : Await} (st : Await.Step K waits s s') :
    awaitDue s' < awaitDue s := by
  cases st <;> simp_all [awaitDue, msgCost, taskCost] <;> omega

/-- C108.  Every execution ends, with every runner. -/
theorem await_finite (K : AKind) (waits : Nat → Bool) (todo : List Nat) (f : Nat → Await) (k : Nat)
    (h0 : f 0 = .init todo) (hf : ∀ i < k, Await.Step K waits (f i) (f (i + 1))) : k ≤ 9 * todo.length := by
  have key : ∀ i ≤ k, awaitDue (f i) + i ≤ awaitDue (f 0) := by
    intro i hi
    induction i with
    | zero => simp
    | succ i ih =>
      have h1 := ih (by omega)
      have h2 := awaitDue_step (hf i (by omega))
      omega
  have h1 := key k (Nat.le_refl _)
  have h2 : awaitDue (f 0) = 9 * todo.length := by rw [h0]; simp [awaitDue, Await.init]
  omega

/-! ## Every request is handled once -/

private def msgReq : AMsg → List Nat
  | .req i => [i]
  | .reply _ => []

private def taskReq : ATask → List Nat
  | .fresh m => msgReq m
  | .waiting i => [i]

private def open' (s : Await) : List Nat :=
  s.running.flatMap taskReq ++ s.queue.flatMap msgReq ++ s.inbox.flatMap msgReq ++ s.todo

private theorem await_kept {K : AKind} {waits : Nat → Bool} {todo : List Nat} {s : Await}
    (h : Await.Steps K waits (.init todo) s) (z : Nat) : (s.handled ++ open' s).count z = todo.count z := by
  induction h with
  | refl => simp [open', Await.init]
  | tail _ st ih =>
    rw [← ih]
    cases st <;> simp_all [open', msgReq, taskReq, List.count_append, List.count_cons] <;> omega

/-- C108.  When nothing is left to do, every request has been handled, each once. -/
theorem await_handled (K : AKind) (waits : Nat → Bool) (todo : List Nat) (s : Await)
    (h : Await.Steps K waits (.init todo) s) (hd : AwaitDone s) : s.handled.Perm todo := by
  rw [List.perm_iff_count]
  intro z
  obtain ⟨h1, h2, h3, h4, _⟩ := hd
  have := await_kept h z
  simpa [open', h1, h2, h3, h4] using this

private theorem atrans {K : AKind} {waits : Nat → Bool} {a b c : Await} (h1 : Await.Steps K waits a b)
    (h2 : Await.Steps K waits b c) : Await.Steps K waits a c := by
  induction h2 with
  | refl => exact h1
  | tail _ st ih => exact .tail ih st

/-- C108.  Under the hypotheses of `await_progress_partial`, whatever has happened so far, the
connection can be served to the end, and then every request has been handled once.  Since every
execution ends (`await_finite`), each that is not stopped gets there. -/
theorem await_completes_partial (K : AKind) (waits : Nat → Bool) (todo : List Nat)
    (hK : K = .onDemand ∨ (∃ n, K = .pool n ∧ todo.countP waits < n) ∨ (K = .sequential ∧ todo.countP waits = 0)) (s : Await)
    (h : Await.Steps K waits (.init todo) s) :
    ∃ s', Await.Steps K waits s s' ∧ AwaitDone s' ∧ s'.handled.Perm todo := by
  generalize hn : awaitDue s = n
  induction n using Nat.strongRecOn generalizing s with
  | _ n ih =>
    rcases await_progress_partial K waits todo hK s h with hd | ⟨s1, st⟩
    · exact ⟨s, .refl, hd, await_handled K waits todo s h hd⟩
    · have hlt := awaitDue_step st
      rw [hn] at hlt
      obtain ⟨s', h1, h2, h3⟩ := ih _ hlt s1 (.tail h st) rfl
      exact ⟨s', atrans (.tail .refl st) h1, h2, h3⟩

/-! ## Runners with a limit -/

private structure SeqInv (waits : Nat → Bool) (todo : List Nat) (s : Await) : Prop where
  order : s.handled ++ open' s = todo
  plain : ∀ j ∈ s.handled, waits j = false
  handed : s.handed = []
  queue : s.queue = []
  mode : (∃ i, s.running = [.waiting i]) ∨ ((s.running = [] ∨ ∃ i, s.running = [.fresh (.req i)]) ∧ s.asked = [] ∧
    ∀ m ∈ s.inbox, ∃ i, m = .req i)

private theorem seq_inv {waits : Nat → Bool} {todo : List Nat} {s : Await}
    (h : Await.Steps .sequential waits (.init todo) s) : SeqInv waits todo s := by
  induction h with
  | refl => exact ⟨by simp [open', Await.init], by simp [Await.init], rfl, rfl, .inr ⟨.inl rfl, rfl, by simp [Await.init]⟩⟩
  | @tail s s' _ st ih =>
    obtain ⟨h1, h2, h3, h4, h5⟩ := ih
    cases st with
    | arrive i t e =>
      refine ⟨by rw [← h1]; simp [open', e, msgReq], h2, h3, h4, ?_⟩
      rcases h5 with h5 | ⟨h5, h6, h7⟩
      · exact .inl h5
      · refine .inr ⟨h5, h6, ?_⟩
        intro m hm
        simp only [List.mem_append, List.mem_singleton] at hm
        rcases hm with hm | rfl
        · exact h7 m hm
        · exact ⟨_, rfl⟩
    | answer a i b e =>
      refine ⟨by rw [← h1]; simp [open', msgReq], h2, h3, h4, ?_⟩
      rcases h5 with h5 | ⟨h5, h6, h7⟩
      · exact .inl h5
      · rw [h6] at e; simp at e
    | dispatchDemand m t hk e => simp at hk
    | dispatchPool m t n hk e hq => simp at hk
    | start m t n hk e hr => simp at hk
    | dispatchSeq m t hk e hr =>
      rcases h5 with ⟨i, h5⟩ | ⟨_, h6, h7⟩
      · rw [hr] at h5; simp at h5
      · obtain ⟨i, rfl⟩ := h7 m (by rw [e]; simp)
        refine ⟨by rw [← h1]; simp [open', e, hr, h4, msgReq, taskReq], h2, h3, h4, .inr ⟨.inr ⟨i, by simp [hr]⟩, h6, ?_⟩⟩
        intro m hm
        exact h7 m (by rw [e]; simp [hm])
    | ask a i b e hw =>
      rcases h5 with ⟨j, h5⟩ | ⟨h5 | ⟨j, h5⟩, h6, h7⟩
      · rw [h5] at e; cases a <;> simp at e
      · rw [h5] at e; simp at e
      · rw [h5] at e
        cases a with
        | nil =>
          simp at e
          obtain ⟨rfl, rfl⟩ := e
          exact ⟨by rw [← h1]; simp [open', h5, msgReq, taskReq], h2, h3, h4, .inl ⟨_, rfl⟩⟩
        | cons _ a => simp at e
    | plain a i b e hw =>
      rcases h5 with ⟨j, h5⟩ | ⟨h5 | ⟨j, h5⟩, h6, h7⟩
      · rw [h5] at e; cases a <;> simp at e
      · rw [h5] at e; simp at e
      · rw [h5] at e
        cases a with
        | nil =>
          simp at e
          obtain ⟨rfl, rfl⟩ := e
          refine ⟨by rw [← h1]; simp [open', h5, msgReq, taskReq], ?_, h3, h4, .inr ⟨.inl rfl, h6, h7⟩⟩
          intro k hk
          simp only [List.mem_append, List.mem_singleton] at hk
          rcases hk with hk | rfl
          · exact h2 k hk
          · exact hw
        | cons _ a => simp at e
    | reply a i b e =>
      rcases h5 with ⟨j, h5⟩ | ⟨h5 | ⟨j, h5⟩, h6, h7⟩
      · rw [h5] at e; cases a <;> simp at e
      · rw [h5] at e; simp at e
      · rw [h5] at e; cases a <;> simp at e
    | resume a i b e hi => rw [h3] at hi; simp at hi

/-- C108, false as stated: with `SequentialRunner` a handler that waits for a reply waits for
ever, whatever the peer does: the serve loop, which would have to read the reply, is executing
it.  Neither this request nor any after it is handled in any execution. -/
theorem await_sequential_false (waits : Nat → Bool) (a b : List Nat) (i : Nat) (hi : waits i = true) (s : Await)
    (h : Await.Steps .sequential waits (.init (a ++ i :: b)) s) : s.handled <+: a := by
  obtain ⟨h1, h2, _⟩ := seq_inv h
  have hp : s.handled <+: a ++ i :: b := ⟨_, h1⟩
  by_cases hl : s.handled.length ≤ a.length
  · exact List.prefix_of_prefix_length_le hp (List.prefix_append _ _) hl
  · have hq : a ++ [i] <+: s.handled :=
      List.prefix_of_prefix_length_le (l₃ := a ++ i :: b) ⟨b, by simp⟩ hp (by simp; omega)
    have := h2 i (hq.subset (by simp))
    rw [hi] at this
    simp at this

private theorem arrive_all {K : AKind} {waits : Nat → Bool} (l : List Nat) (s : Await) (h : s.todo = l) :
    ∃ s', Await.Steps K waits s s' ∧ s' = { s with todo := [], inbox := s.inbox ++ l.map .req } := by
  induction l generalizing s with
  | nil => exact ⟨s, .refl, by cases s; simp_all⟩
  | cons i t ih =>
    obtain ⟨s', h1, h2⟩ := ih { s with todo := t, inbox := s.inbox ++ [.req i] } rfl
    exact ⟨s', atrans (.tail .refl (.arrive s i t h)) h1, by rw [h2]; simp⟩

private theorem take_workers {n : Nat} {waits : Nat → Bool} (l : List Nat) (s : Await) (hi : s.inbox = l.map .req)
    (hq : s.queue = []) (hr : ∀ t ∈ s.running, ∃ i, t = .waiting i) (hn : s.running.length ≤ n)
    (hl : n ≤ s.running.length + l.countP waits) (hh : s.handed = []) :
    ∃ s', Await.Steps (.pool n) waits s s' ∧ (∀ t ∈ s'.running, ∃ i, t = .waiting i) ∧ s'.running.length = n ∧
      s'.handed = [] := by
  induction l generalizing s with
  | nil => exact ⟨s, .refl, hr, by simp at hl; omega, hh⟩
  | cons i t ih =>
    by_cases he : s.running.length = n
    · exact ⟨s, .refl, hr, he, hh⟩
    have st1 : Await.Step (.pool n) waits s { s with inbox := t.map .req, queue := s.queue ++ [.req i] } :=
      .dispatchPool s (.req i) (t.map .req) n rfl (by simpa using hi) (by rw [hq]; simp; omega)
    have st2 : Await.Step (.pool n) waits { s with inbox := t.map .req, queue := s.queue ++ [.req i] }
        { s with inbox := t.map .req, queue := [], running := s.running ++ [.fresh (.req i)] } :=
      .start _ (.req i) [] n rfl (by simp [hq]) (by dsimp only; omega)
    have two : Await.Steps (.pool n) waits s
        { s with inbox := t.map .req, queue := [], running := s.running ++ [.fresh (.req i)] } := .tail (.tail .refl st1) st2
    cases hw : waits i with
    | true =>
      have st3 := Await.Step.ask (K := .pool n) (waits := waits)
        { s with inbox := t.map .req, queue := [], running := s.running ++ [.fresh (.req i)] } s.running i [] rfl hw
      obtain ⟨s', h1, h2⟩ := ih { s with inbox := t.map .req, queue := [], running := s.running ++ [.waiting i], asked := s.asked ++ [i] } rfl rfl
        (by intro u hu; simp only [List.mem_append, List.mem_singleton] at hu
            rcases hu with hu | rfl
            · exact hr u hu
            · exact ⟨_, rfl⟩) (by simp; omega) (by simp [hw] at hl ⊢; omega) hh
      exact ⟨s', atrans (.tail two st3) h1, h2⟩
    | false =>
      have st3 := Await.Step.plain (K := .pool n) (waits := waits)
        { s with inbox := t.map .req, queue := [], running := s.running ++ [.fresh (.req i)] } s.running i [] rfl hw
      obtain ⟨s', h1, h2⟩ := ih { s with inbox := t.map .req, queue := [], running := s.running ++ [], handled := s.handled ++ [i] } rfl rfl
        (by simpa using hr) (by simpa using hn) (by simp [hw] at hl ⊢; omega) hh
      exact ⟨s', atrans (.tail two st3) h1, h2⟩

private theorem workers_stuck {n : Nat} {waits : Nat → Bool} {s s' : Await} (h : Await.Steps (.pool n) waits s s')
    (hr : ∀ t ∈ s.running, ∃ i, t = .waiting i) (hn : s.running.length = n) (hh : s.handed = []) :
    s'.running = s.running ∧ s'.handled = s.handled ∧ s'.handed = [] := by
  induction h with
  | refl => exact ⟨rfl, rfl, hh⟩
  | tail _ st ih =>
    obtain ⟨h1, h2, h3⟩ := ih
    cases st with
    | arrive => exact ⟨h1, h2, h3⟩
    | answer => exact ⟨h1, h2, h3⟩
    | dispatchDemand m t hk e => simp at hk
    | dispatchSeq m t hk e => simp at hk
    | dispatchPool m t n hk e hq => exact ⟨h1, h2, h3⟩
    | start m t n' hk e hl => simp at hk; rw [h1, hn] at hl; omega
    | ask a i b e hw => obtain ⟨j, hj⟩ := hr (.fresh (.req i)) (by rw [← h1, e]; simp); simp at hj
    | plain a i b e hw => obtain ⟨j, hj⟩ := hr (.fresh (.req i)) (by rw [← h1, e]; simp); simp at hj
    | reply a i b e => obtain ⟨j, hj⟩ := hr (.fresh (.reply i)) (by rw [← h1, e]; simp); simp at hj
    | resume a i b e hi => rw [h3] at hi; simp at hi

/-- C108, false as stated: with a pool of `n` workers, as soon as `n` requests come whose handlers
wait, however many others there are, it can happen that all workers wait for ever, and no request
is handled any more.  With `await_progress_partial`: a pool is safe if and only if it has more
workers than there are handlers that wait. -/
theorem await_pool_false (n : Nat) (waits : Nat → Bool) (todo : List Nat) (hn : n ≤ todo.countP waits) :
    ∃ s, Await.Steps (.pool n) waits (.init todo) s ∧ s.running.length = n ∧
      ∀ s', Await.Steps (.pool n) waits s s' → s'.running = s.running ∧ s'.handled = s.handled := by
  obtain ⟨s1, h1, e1⟩ := arrive_all (K := .pool n) (waits := waits) todo (.init todo) rfl
  obtain ⟨s2, h2, h3, h4, h5⟩ := take_workers (n := n) (waits := waits) todo s1 (by rw [e1]; simp [Await.init])
    (by rw [e1]; rfl) (by rw [e1]; simp [Await.init]) (by rw [e1]; simp [Await.init])
    (by rw [e1]; simpa [Await.init] using hn) (by rw [e1]; rfl)
  refine ⟨s2, atrans h1 h2, h4, fun s' h' => ?_⟩
  obtain ⟨g1, g2, _⟩ := workers_stuck h' h3 h4 h5
  exact ⟨g1, g2⟩

/-- Non-vacuity: three requests, the handler of the second waits; a pool of two workers is enough,
one of one worker is not. -/
example : [1, 2, 3].countP (fun i => i == 2) < 2 ∧ 1 ≤ [1, 2, 3].countP (fun i => i == 2) := by decide

end Verif.Props
