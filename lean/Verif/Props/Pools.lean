import Verif.Pools

/-!
# Property C71: worker pools for connections and handlers
-/

namespace Verif.Props

open Verif

/-- The jobs of a pool. -/
def Pool.jobs (p : Pool) : List Job := p.queue ++ p.busy

/-- Nothing is left to do: all connections have been accepted (or refused) and served to the end,
all handlers have returned. -/
def PoolSrv.Idle (s : PoolSrv) : Prop :=
  s.todo = [] ∧ s.pend = none ∧ ∀ x, Pool.jobs (s.pool x) = []

/-! ## Invariants -/

private structure PoolInv (n : Bool → Nat) (h : Bool) (s : PoolSrv) : Prop where
  queue : ∀ x, (s.pool x).queue.length ≤ n x
  busy : ∀ x, (s.pool x).busy.length ≤ n x
  conns : ∀ j ∈ Pool.jobs (s.pool true), j.isConn = false
  reqs : h = true → ∀ j ∈ Pool.jobs (s.pool false), j.isConn = true

private theorem set_same (s : PoolSrv) (x : Bool) (p : Pool) : s.set x p x = p := by simp [PoolSrv.set]

private theorem set_other (s : PoolSrv) {x y : Bool} (p : Pool) (h : y ≠ x) : s.set x p y = s.pool y := by
  simp [PoolSrv.set, h]

private theorem pool_inv {n : Bool → Nat} {h : Bool} {lim : Nat} {todo : List (List Nat)} {s : PoolSrv}
    (hs : PoolSrv.Steps n h lim (.init todo) s) : PoolInv n h s := by
  induction hs with
  | refl => exact ⟨by simp [PoolSrv.init], by simp [PoolSrv.init], by simp [PoolSrv.init, Pool.jobs],
      by simp [PoolSrv.init, Pool.jobs]⟩
  | @tail s s' hs st ih =>
    obtain ⟨h1, h2, h3, h4⟩ := ih
    cases st with
    | admit c t ht hp hl => exact ⟨h1, h2, h3, h4⟩
    | refuse c t ht hp hl hc => exact ⟨h1, h2, h3, h4⟩
    | submit c hp hq =>
      have := h1 true; have := h1 false; have := h2 true; have := h2 false
      refine ⟨?_, ?_, ?_, ?_⟩
      · simp [PoolSrv.set]; omega
      · simp [PoolSrv.set]; omega
      · simpa [PoolSrv.set] using h3
      · intro hh j hj
        simp [PoolSrv.set, Pool.jobs] at hj
        rcases hj with hj | rfl | hj
        · exact h4 hh j (by simp [Pool.jobs, hj])
        · rfl
        · exact h4 hh j (by simp [Pool.jobs, hj])
    | take x j q hq hb =>
      have hql := h1 x
      rw [hq] at hql
      simp at hql
      refine ⟨fun y => ?_, fun y => ?_, fun k hk => ?_, fun hh k hk => ?_⟩
      · by_cases hy : y = x
        · subst hy; simp [PoolSrv.set]; omega
        · simp only [set_other s _ hy]; exact h1 y
      · by_cases hy : y = x
        · subst hy; simp [PoolSrv.set]; omega
        · simp only [set_other s _ hy]; exact h2 y
      · refine h3 k ?_
        cases x with
        | false => simpa [PoolSrv.set] using hk
        | true =>
          simp [PoolSrv.set, Pool.jobs] at hk
          simp [Pool.jobs, hq]
          rcases hk with hk | hk | hk <;> simp [hk]
      · refine h4 hh k ?_
        cases x with
        | true => simpa [PoolSrv.set] using hk
        | false =>
          simp [PoolSrv.set, Pool.jobs] at hk
          simp [Pool.jobs, hq]
          rcases hk with hk | hk | hk <;> simp [hk]
    | dispatch a r c b hb hq =>
      have q0 := h1 false; have q1 := h1 true; have b0 := h2 false; have b1 := h2 true
      rw [hb] at b0
      simp at b0
      cases h with
      | false =>
        refine ⟨?_, ?_, ?_, by simp⟩
        · simp [PoolSrv.set]; omega
        · simp [PoolSrv.set]; omega
        · simpa [PoolSrv.set] using h3
      | true =>
        refine ⟨?_, ?_, ?_, fun hh k hk => ?_⟩
        · simp [PoolSrv.set]; omega
        · simp [PoolSrv.set]; omega
        · intro k hk
          simp [PoolSrv.set, Pool.jobs] at hk
          rcases hk with hk | rfl | hk
          · exact h3 k (by simp [Pool.jobs, hk])
          · rfl
          · exact h3 k (by simp [Pool.jobs, hk])
        · simp [PoolSrv.set, Pool.jobs] at hk
          rcases hk with hk | hk | rfl | hk
          · exact h4 rfl k (by simp [Pool.jobs, hk])
          · exact h4 rfl k (by simp [Pool.jobs, hb, hk])
          · rfl
          · exact h4 rfl k (by simp [Pool.jobs, hb, hk])
    | close a b hb =>
      have q0 := h1 false; have q1 := h1 true; have b0 := h2 false; have b1 := h2 true
      rw [hb] at b0
      simp at b0
      refine ⟨?_, ?_, ?_, fun hh k hk => ?_⟩
      · simp [PoolSrv.set]; omega
      · simp [PoolSrv.set]; omega
      · simpa [PoolSrv.set] using h3
      · simp [PoolSrv.set, Pool.jobs] at hk
        refine h4 hh k ?_
        simp [Pool.jobs, hb]
        rcases hk with hk | hk | hk <;> simp [hk]
    | handle x a r b hb =>
      have hbl := h2 x
      rw [hb] at hbl
      simp at hbl
      refine ⟨fun y => ?_, fun y => ?_, fun k hk => ?_, fun hh k hk => ?_⟩
      · by_cases hy : y = x
        · subst hy; simpa [PoolSrv.set] using h1 y
        · simp only [set_other s _ hy]; exact h1 y
      · by_cases hy : y = x
        · subst hy; simp [PoolSrv.set]; omega
        · simp only [set_other s _ hy]; exact h2 y
      · refine h3 k ?_
        cases x with
        | false => simpa [PoolSrv.set] using hk
        | true =>
          simp [PoolSrv.set, Pool.jobs] at hk
          simp [Pool.jobs, hb]
          rcases hk with hk | hk | hk <;> simp [hk]
      · refine h4 hh k ?_
        cases x with
        | true => simpa [PoolSrv.set] using hk
        | false =>
          simp [PoolSrv.set, Pool.jobs] at hk
          simp [Pool.jobs, hb]
          rcases hk with hk | hk | hk <;> simp [hk]

/-- C71.  At most `n` connections are served, and at most `n` handlers run, at the same time. -/
theorem pools_bound (n : Bool → Nat) (h : Bool) (lim : Nat) (todo : List (List Nat)) (s : PoolSrv)
    (hs : PoolSrv.Steps n h lim (.init todo) s) (x : Bool) : (s.pool x).busy.length ≤ n x :=
  (pool_inv hs).busy x

/-- C71.  With `MaxConns` = `lim` at most `lim` connections are waiting for a worker or being
served. -/
theorem pools_limit (n : Bool → Nat) (h : Bool) (lim : Nat) (hl : lim ≠ 0) (todo : List (List Nat)) (s : PoolSrv)
    (hs : PoolSrv.Steps n h lim (.init todo) s) : s.conns ≤ lim := by
  induction hs with
  | refl => simp [PoolSrv.init, PoolSrv.conns]
  | @tail s s' hs st ih =>
    cases st with
    | admit c t ht hp hl' =>
      have : s.conns < lim := hl'.resolve_left hl
      simp only [PoolSrv.conns, hp] at this ⊢
      simp at this ⊢
      omega
    | refuse c t ht hp hl hc => exact ih
    | submit c hp hq =>
      simp only [PoolSrv.conns, hp] at ih ⊢
      simp [PoolSrv.set, Job.isConn] at ih ⊢
      omega
    | take x j q hq hb =>
      simp only [PoolSrv.conns] at ih ⊢
      cases x with
      | true => simpa [PoolSrv.set] using ih
      | false =>
        simp [PoolSrv.set, hq, List.countP_cons] at ih ⊢
        omega
    | dispatch a r c b hb hq =>
      simp only [PoolSrv.conns] at ih ⊢
      cases h <;> simp [PoolSrv.set, hb, List.countP_cons, Job.isConn] at ih ⊢ <;> omega
    | close a b hb =>
      simp only [PoolSrv.conns] at ih ⊢
      simp [PoolSrv.set, hb, List.countP_cons, Job.isConn] at ih ⊢
      omega
    | handle x a r b hb =>
      simp only [PoolSrv.conns] at ih ⊢
      cases x with
      | true => simpa [PoolSrv.set] using ih
      | false =>
        simp [PoolSrv.set, hb, Job.isConn] at ih ⊢
        omega

/-- In a shared pool the other one is not used. -/
private theorem pool_unused {n : Bool → Nat} {lim : Nat} {todo : List (List Nat)} {s : PoolSrv}
    (hs : PoolSrv.Steps n false lim (.init todo) s) : s.pool true = ⟨[], []⟩ := by
  induction hs with
  | refl => rfl
  | @tail s s' hs st ih =>
    cases st with
    | admit c t ht hp hl' => exact ih
    | refuse c t ht hp hl hc => exact ih
    | submit c hp hq => simpa [PoolSrv.set] using ih
    | take x j q hq hb =>
      cases x with
      | true => simp [ih] at hq
      | false => simpa [PoolSrv.set] using ih
    | dispatch a r c b hb hq => simpa [PoolSrv.set] using ih
    | close a b hb => simpa [PoolSrv.set] using ih
    | handle x a r b hb =>
      cases x with
      | true => simp [ih] at hb
      | false => simpa [PoolSrv.set] using ih

/-! ## Every execution ends -/

private def jobWeight : Job → Nat
  | .conn c => 3 * c.length + 1
  | .req _ => 1

private def poolWeight (p : Pool) : Nat :=
  (p.queue.map fun j => jobWeight j + 1).sum + (p.busy.map jobWeight).sum

private def poolMeasure (s : PoolSrv) : Nat :=
  (s.todo.map fun c => 3 * c.length + 4).sum + (s.pend.toList.map fun c => 3 * c.length + 3).sum
    + poolWeight (s.pool false) + poolWeight (s.pool true)

private theorem pool_less {n : Bool → Nat} {h : Bool} {lim : Nat} {s s' : PoolSrv} (st : PoolSrv.Step n h lim s s') :
    poolMeasure s' < poolMeasure s := by
  cases st with
  | admit c t ht hp hl' => simp [poolMeasure, ht, hp]; omega
  | refuse c t ht hp hl hc => simp [poolMeasure, ht, hp]
  | submit c hp hq => simp [poolMeasure, hp, PoolSrv.set, poolWeight, jobWeight]; omega
  | take x j q hq hb => cases x <;> simp [poolMeasure, PoolSrv.set, poolWeight, hq] <;> omega
  | dispatch a r c b hb hq =>
    cases h <;> simp [poolMeasure, PoolSrv.set, poolWeight, hb, jobWeight] <;> omega
  | close a b hb => simp [poolMeasure, PoolSrv.set, poolWeight, hb, jobWeight]
  | handle x a r b hb => cases x <;> simp [poolMeasure, PoolSrv.set, poolWeight, hb, jobWeight]

private theorem todo_weight (todo : List (List Nat)) :
    (todo.map fun c => 3 * c.length + 4).sum = 3 * todo.flatten.length + 4 * todo.length := by
  induction todo with
  | nil => rfl
  | cons c t ih => simp only [List.map_cons, List.sum_cons, ih, List.flatten_cons, List.length_append, List.length_cons]; omega

/-- C71.  Every execution is finite: with pools of any size, shared or not, the server takes at
most three steps per request and four per connection. -/
theorem pools_terminate (n : Bool → Nat) (h : Bool) (lim : Nat) (todo : List (List Nat)) (f : Nat → PoolSrv) (k : Nat)
    (h0 : f 0 = .init todo) (hf : ∀ i < k, PoolSrv.Step n h lim (f i) (f (i + 1))) :
    k ≤ 3 * todo.flatten.length + 4 * todo.length := by
  have key : ∀ i ≤ k, poolMeasure (f i) + i ≤ poolMeasure (f 0) := by
    intro i
    induction i with
    | zero => simp
    | succ i ih =>
      intro hi
      have := ih (by omega)
      have := pool_less (hf i (by omega))
      omega
  have := key k (Nat.le_refl k)
  have hm : poolMeasure (f 0) = 3 * todo.flatten.length + 4 * todo.length := by
    rw [h0, ← todo_weight]
    simp [poolMeasure, PoolSrv.init, poolWeight]
  omega

/-! ## Every request is handled once -/

private def jobReqs : Job → List Nat
  | .conn c => c
  | .req r => [r]

private def poolReqs (p : Pool) : List Nat := p.queue.flatMap jobReqs ++ p.busy.flatMap jobReqs

private def allReqs (s : PoolSrv) : List Nat :=
  s.handled ++ s.refused.flatten ++ s.todo.flatten ++ s.pend.toList.flatten ++ poolReqs (s.pool false) ++ poolReqs (s.pool true)

private theorem pool_count {n : Bool → Nat} {h : Bool} {lim : Nat} {s s' : PoolSrv} (st : PoolSrv.Step n h lim s s')
    (i : Nat) : (allReqs s').count i = (allReqs s).count i := by
  cases st with
  | admit c t ht hp hl' => simp [allReqs, ht, hp, List.count_append]; omega
  | refuse c t ht hp hl hc => simp [allReqs, ht, hp, List.count_append]
  | submit c hp hq => simp [allReqs, hp, PoolSrv.set, poolReqs, jobReqs, List.count_append]; omega
  | take x j q hq hb => cases x <;> simp [allReqs, PoolSrv.set, poolReqs, hq, List.count_append] <;> omega
  | dispatch a r c b hb hq =>
    cases h <;> simp [allReqs, PoolSrv.set, poolReqs, hb, jobReqs, List.count_append, List.count_cons] <;> omega
  | close a b hb => simp [allReqs, PoolSrv.set, poolReqs, hb, jobReqs]
  | handle x a r b hb =>
    cases x <;> simp [allReqs, PoolSrv.set, poolReqs, hb, jobReqs, List.count_append, List.count_cons] <;> omega

private theorem pool_counts {n : Bool → Nat} {h : Bool} {lim : Nat} {todo : List (List Nat)} {s : PoolSrv}
    (hs : PoolSrv.Steps n h lim (.init todo) s) (i : Nat) : (allReqs s).count i = todo.flatten.count i := by
  induction hs with
  | refl => simp [allReqs, PoolSrv.init, poolReqs]
  | tail hs st ih => rw [pool_count st, ih]

/-- C71.  No request is handled more often than it has been sent. -/
theorem pools_at_most_once (n : Bool → Nat) (h : Bool) (lim : Nat) (todo : List (List Nat)) (s : PoolSrv)
    (hs : PoolSrv.Steps n h lim (.init todo) s) (r : Nat) : s.handled.count r ≤ todo.flatten.count r := by
  have := pool_counts hs r
  simp only [allReqs, List.count_append] at this
  omega

/-- The requests that are still to come on the connections among the functions `l`. -/
def toCome (l : List Job) : Nat := (l.map fun j => match j with | .conn c => c.length | .req _ => 0).sum

/-- The requests that the server has not taken from the peers. -/
def withPeers (s : PoolSrv) : Nat :=
  s.todo.flatten.length + s.pend.toList.flatten.length + s.refused.flatten.length +
  toCome (s.pool false).queue + toCome (s.pool false).busy + toCome (s.pool true).queue + toCome (s.pool true).busy

private theorem reqs_length (l : List Job) : (l.flatMap jobReqs).length = toCome l + l.countP (fun j => !j.isConn) := by
  induction l with
  | nil => rfl
  | cons j l ih =>
    cases j <;> simp [toCome, jobReqs, Job.isConn] at ih ⊢ <;> omega

private theorem no_reqs (l : List Job) (h : ∀ j ∈ l, j.isConn = true) : l.countP (fun j => !j.isConn) = 0 := by
  rw [List.countP_eq_zero]
  intro j hj
  simp [h j hj]

/-- C71, C106.  With worker pools, whatever the number of connections and whatever their peers
send: all that has been taken from the peers has been handled, except for at most one request
for each worker and one for each place in the queue. -/
theorem backlog_pool (n : Bool → Nat) (h : Bool) (lim : Nat) (todo : List (List Nat)) (s : PoolSrv)
    (hs : PoolSrv.Steps n h lim (.init todo) s) :
    todo.flatten.length ≤ withPeers s + s.handled.length + 2 * n h := by
  have hp : (allReqs s).Perm todo.flatten := by
    rw [List.perm_iff_count]; exact pool_counts hs
  have hl := hp.length_eq
  simp only [allReqs, poolReqs, List.length_append, reqs_length] at hl
  have inv := pool_inv hs
  have hq := inv.queue h
  have hb := inv.busy h
  have c1 := List.countP_le_length (p := fun j : Job => !j.isConn) (l := (s.pool h).queue)
  have c2 := List.countP_le_length (p := fun j : Job => !j.isConn) (l := (s.pool h).busy)
  cases h with
  | true =>
    have r1 := no_reqs (s.pool false).queue (fun j hj => inv.reqs rfl j (by simp [Pool.jobs, hj]))
    have r2 := no_reqs (s.pool false).busy (fun j hj => inv.reqs rfl j (by simp [Pool.jobs, hj]))
    simp only [withPeers]
    omega
  | false =>
    have hu := pool_unused hs
    rw [hu] at hl
    simp only [List.countP_nil] at hl
    simp only [withPeers, hu]
    omega

/-- The bound is reached: one worker, one connection with two requests, the handler busy with the
first, the second in the queue. -/
example : ∃ s, PoolSrv.Steps (fun _ => 1) true 0 (.init [[7, 8]]) s ∧ withPeers s = 0 ∧ s.handled = [] := by
  have h1 := PoolSrv.Steps.tail (n := fun _ => 1) (h := true) (lim := 0) (s₀ := .init [[7, 8]]) .refl
    (.admit _ [7, 8] [] rfl rfl (.inl rfl))
  have h2 := h1.tail (.submit _ [7, 8] rfl (by decide))
  have h3 := h2.tail (.take _ false (.conn [7, 8]) [] rfl (by decide))
  have h4 := h3.tail (.dispatch _ [] 7 [8] [] rfl (by decide))
  have h5 := h4.tail (.take _ true (.req 7) [] rfl (by decide))
  have h6 := h5.tail (.dispatch _ [] 8 [] [] rfl (by decide))
  exact ⟨_, h6, by decide, rfl⟩

/-- C71.  When nothing is left to do, every request of every connection that was not refused
has been handled exactly once. -/
theorem pools_once (n : Bool → Nat) (h : Bool) (lim : Nat) (todo : List (List Nat)) (s : PoolSrv)
    (hs : PoolSrv.Steps n h lim (.init todo) s) (hi : PoolSrv.Idle s) :
    (s.handled ++ s.refused.flatten).Perm todo.flatten := by
  obtain ⟨h1, h2, h3⟩ := hi
  have h4 := h3 true; have h5 := h3 false
  simp [Pool.jobs] at h4 h5
  rw [List.perm_iff_count]
  intro i
  rw [← pool_counts hs i]
  simp [allReqs, h1, h2, h4, h5, poolReqs]

/-- Without `MaxConns` no connection is refused. -/
theorem pools_unlimited (n : Bool → Nat) (h : Bool) (todo : List (List Nat)) (s : PoolSrv)
    (hs : PoolSrv.Steps n h 0 (.init todo) s) : s.refused = [] := by
  induction hs with
  | refl => rfl
  | tail hs st ih =>
    cases st with
    | refuse c t ht hp hl hc => exact absurd rfl hl
    | _ => exact ih

/-! ## Separate pools never block -/

private theorem pool_trans {n : Bool → Nat} {h : Bool} {lim : Nat} {a b c : PoolSrv}
    (h1 : PoolSrv.Steps n h lim a b) (h2 : PoolSrv.Steps n h lim b c) : PoolSrv.Steps n h lim a c := by
  induction h2 with
  | refl => exact h1
  | tail _ st ih => exact .tail ih st

private theorem busy_pick {l : List Job} (h : l ≠ []) : ∃ j b, l = j :: b := by
  cases l with
  | nil => exact absurd rfl h
  | cons j b => exact ⟨j, b, rfl⟩

private theorem conn_step {n : Bool → Nat} {h : Bool} {lim : Nat} {s : PoolSrv} (hq : (s.pool h).queue.length < n h)
    {j : Job} {b : List Job} (hb : (s.pool false).busy = j :: b) (hj : j.isConn = true) :
    ∃ s', PoolSrv.Step n h lim s s' := by
  cases j with
  | req r => simp [Job.isConn] at hj
  | conn c =>
    cases c with
    | nil => exact ⟨_, .close s [] b hb⟩
    | cons r c => exact ⟨_, .dispatch s [] r c b hb hq⟩

private theorem accept_step {n : Bool → Nat} {h : Bool} {lim : Nat} {s : PoolSrv}
    (hq : (s.pool false).queue.length < n false) (hi : ¬ (s.todo = [] ∧ s.pend = none)) :
    ∃ s', PoolSrv.Step n h lim s s' := by
  cases hp : s.pend with
  | some c => exact ⟨_, .submit s c hp hq⟩
  | none =>
    cases ht : s.todo with
    | nil => exact absurd ⟨ht, hp⟩ hi
    | cons c t =>
      by_cases hl : lim = 0 ∨ s.conns < lim
      · exact ⟨_, .admit s c t ht hp hl⟩
      · exact ⟨_, .refuse s c t ht hp (by omega) (by omega)⟩

/-- C71.  When connections and handlers have a pool each, of whatever size, the server never
blocks: every reachable state in which there is something left to do has a step. -/
theorem pools_separate_progress (n : Bool → Nat) (hn : ∀ x, 0 < n x) (lim : Nat) (todo : List (List Nat)) (s : PoolSrv)
    (hs : PoolSrv.Steps n true lim (.init todo) s) (hi : ¬ PoolSrv.Idle s) :
    ∃ s', PoolSrv.Step n true lim s s' := by
  have inv := pool_inv hs
  by_cases h1 : (s.pool true).busy = []
  · by_cases h2 : (s.pool true).queue = []
    · have hq : (s.pool true).queue.length < n true := by rw [h2]; exact hn true
      by_cases h3 : (s.pool false).busy = []
      · by_cases h4 : (s.pool false).queue = []
        · refine accept_step (by rw [h4]; exact hn false) fun ⟨a, b⟩ => hi ⟨a, b, fun x => ?_⟩
          cases x <;> simp [Pool.jobs, *]
        · obtain ⟨j, q, hj⟩ := busy_pick h4
          exact ⟨_, .take s false j q hj (by rw [h3]; exact hn false)⟩
      · obtain ⟨j, b, hj⟩ := busy_pick h3
        exact conn_step hq hj (inv.reqs rfl j (by simp [Pool.jobs, hj]))
    · obtain ⟨j, q, hj⟩ := busy_pick h2
      exact ⟨_, .take s true j q hj (by rw [h1]; exact hn true)⟩
  · obtain ⟨j, b, hj⟩ := busy_pick h1
    have := inv.conns j (by simp [Pool.jobs, hj])
    cases j with
    | conn c => simp [Job.isConn] at this
    | req r => exact ⟨_, .handle s true [] r b hj⟩

/-- C71.  With a pool each, an execution can stop only when every request has been handled. -/
theorem pools_separate_handled (n : Bool → Nat) (hn : ∀ x, 0 < n x) (todo : List (List Nat)) (s : PoolSrv)
    (hs : PoolSrv.Steps n true 0 (.init todo) s) (hstop : ∀ s', ¬ PoolSrv.Step n true 0 s s') :
    s.handled.Perm todo.flatten := by
  have hi : PoolSrv.Idle s := by
    apply Classical.byContradiction
    intro hi
    obtain ⟨s', st⟩ := pools_separate_progress n hn 0 todo s hs hi
    exact hstop s' st
  have := pools_once n true 0 todo s hs hi
  simpa [pools_unlimited n true todo s hs] using this

private theorem pool_end {n : Bool → Nat} {h : Bool} {lim : Nat} (m : Nat) :
    ∀ s, poolMeasure s ≤ m → ∃ s', PoolSrv.Steps n h lim s s' ∧ ∀ s'', ¬ PoolSrv.Step n h lim s' s'' := by
  induction m with
  | zero => exact fun s hm => ⟨s, .refl, fun s'' st => by have := pool_less st; omega⟩
  | succ m ih =>
    intro s hm
    by_cases hst : ∃ s', PoolSrv.Step n h lim s s'
    · obtain ⟨s', st⟩ := hst
      obtain ⟨s'', h1, h2⟩ := ih s' (by have := pool_less st; omega)
      exact ⟨s'', pool_trans (PoolSrv.Steps.refl.tail st) h1, h2⟩
    · exact ⟨s, .refl, fun s' st => hst ⟨s', st⟩⟩

/-- C71.  Whatever has happened so far, the server with a pool each can go on until every request
has been handled; by `pools_terminate` and `pools_separate_progress` it cannot but do so. -/
theorem pools_separate_finishes (n : Bool → Nat) (hn : ∀ x, 0 < n x) (todo : List (List Nat)) (s : PoolSrv)
    (hs : PoolSrv.Steps n true 0 (.init todo) s) :
    ∃ s', PoolSrv.Steps n true 0 s s' ∧ PoolSrv.Idle s' ∧ s'.handled.Perm todo.flatten := by
  obtain ⟨s', h1, h2⟩ := pool_end (n := n) (h := true) (lim := 0) (poolMeasure s) s (Nat.le_refl _)
  refine ⟨s', h1, ?_, pools_separate_handled n hn todo s' (pool_trans hs h1) h2⟩
  apply Classical.byContradiction
  intro hi
  obtain ⟨s'', st⟩ := pools_separate_progress n hn 0 todo s' (pool_trans hs h1) hi
  exact h2 s'' st

/-- One worker for the connections and one for the handlers are enough for three connections. -/
example : ∃ s, PoolSrv.Steps (fun _ => 1) true 0 (.init [[1, 2, 3], [4], [5, 6]]) s ∧
    s.handled.Perm [1, 2, 3, 4, 5, 6] := by
  obtain ⟨s, h1, -, h2⟩ := pools_separate_finishes (fun _ => 1) (by simp) [[1, 2, 3], [4], [5, 6]] _ .refl
  exact ⟨s, h1, h2⟩

/-! ## A shared pool -/

/-- C71, the part of the property that a shared pool has: when `MaxConns` is smaller than the
pool, there is always a worker left for the handlers, and the server never blocks.
Missing, and false (`pools_shared_deadlock`): the same without such a limit. -/
theorem pools_shared_progress_partial (n : Bool → Nat) (lim : Nat) (hl : 0 < lim) (hn : lim < n false)
    (todo : List (List Nat)) (s : PoolSrv)
    (hs : PoolSrv.Steps n false lim (.init todo) s) (hi : ¬ PoolSrv.Idle s) :
    ∃ s', PoolSrv.Step n false lim s s' := by
  have hlim := pools_limit n false lim (by omega) todo s hs
  have hun := pool_unused hs
  by_cases hr : ∃ j ∈ (s.pool false).busy, j.isConn = false
  · obtain ⟨j, hj, hc⟩ := hr
    obtain ⟨a, b, hab⟩ := List.append_of_mem hj
    cases j with
    | conn c => simp [Job.isConn] at hc
    | req r => exact ⟨_, .handle s false a r b hab⟩
  · have hall : ∀ j ∈ (s.pool false).busy, j.isConn = true := by
      intro j hj
      cases hc : j.isConn with
      | true => rfl
      | false => exact absurd ⟨j, hj, hc⟩ hr
    have hlen : (s.pool false).busy.length ≤ lim := by
      have := List.countP_eq_length.mpr hall
      simp only [PoolSrv.conns] at hlim
      omega
    by_cases h4 : (s.pool false).queue = []
    · have hq : (s.pool false).queue.length < n false := by rw [h4]; simp; omega
      by_cases h3 : (s.pool false).busy = []
      · refine accept_step hq fun ⟨a, b⟩ => hi ⟨a, b, fun x => ?_⟩
        cases x <;> simp [Pool.jobs, *]
      · obtain ⟨j, b, hj⟩ := busy_pick h3
        exact conn_step hq hj (hall j (by simp [hj]))
    · obtain ⟨j, q, hj⟩ := busy_pick h4
      exact ⟨_, .take s false j q hj (by omega)⟩

/-- Connections are accepted and given to the workers, one after the other. -/
private theorem accept_all {n : Bool → Nat} {h : Bool} {lim : Nat} {rest : List (List Nat)} (cs : List (List Nat)) :
    ∀ done : List (List Nat), done.length + cs.length ≤ n false → (lim = 0 ∨ done.length + cs.length ≤ lim) →
    ∀ s : PoolSrv, s.todo = cs ++ rest → s.pend = none → s.pool false = ⟨[], done.map Job.conn⟩ →
    ∃ s', PoolSrv.Steps n h lim s s' ∧ s'.todo = rest ∧ s'.pend = none ∧
      s'.pool false = ⟨[], (done ++ cs).map Job.conn⟩ ∧ s'.pool true = s.pool true ∧ s'.handled = s.handled := by
  induction cs with
  | nil =>
    intro done _ _ s h1 h2 h3
    exact ⟨s, .refl, h1, h2, by simpa using h3, rfl, rfl⟩
  | cons c cs ih =>
    intro done hn hl s h1 h2 h3
    simp at hn hl
    have hc : s.conns = done.length := by
      simp only [PoolSrv.conns, h2, h3]
      simp [List.countP_eq_length, Job.isConn]
    have st1 : PoolSrv.Step n h lim s _ := .admit s c (cs ++ rest) h1 h2 (by omega)
    let s2 : PoolSrv := { s with todo := cs ++ rest, pend := none,
                                 pool := s.set false ⟨(s.pool false).queue ++ [.conn c], (s.pool false).busy⟩ }
    have st2 : PoolSrv.Step n h lim { s with todo := cs ++ rest, pend := some c } s2 :=
      .submit { s with todo := cs ++ rest, pend := some c } c rfl (by simp [h3]; omega)
    have hp2 : s2.pool false = ⟨[.conn c], done.map Job.conn⟩ := by simp [s2, PoolSrv.set, h3]
    let s3 : PoolSrv := { s2 with pool := s2.set false ⟨[], (s2.pool false).busy ++ [.conn c]⟩ }
    have st3 : PoolSrv.Step n h lim s2 s3 := .take s2 false (.conn c) [] (by rw [hp2]) (by rw [hp2]; simp; omega)
    obtain ⟨s', g1, g2, g3, g4, g5, g6⟩ := ih (done ++ [c]) (by simp; omega) (by simp; omega) s3 rfl rfl (by
      simp [s3, PoolSrv.set, hp2])
    refine ⟨s', pool_trans (((PoolSrv.Steps.refl.tail st1).tail st2).tail st3) g1, g2, g3, by simpa using g4, ?_, g6⟩
    rw [g5]
    simp [s3, s2, PoolSrv.set]

/-- Every connection of the workers submits its first request. -/
private theorem dispatch_all {n : Bool → Nat} {lim : Nat} (cs : List (Nat × List Nat)) :
    ∀ (done : List (Nat × List Nat)), done.length + cs.length ≤ n false →
    ∀ s : PoolSrv, s.pool false = ⟨done.map (fun p => .req p.1),
        done.map (fun p => .conn p.2) ++ cs.map (fun p => .conn (p.1 :: p.2))⟩ →
    ∃ s', PoolSrv.Steps n false lim s s' ∧
      s'.pool false = ⟨(done ++ cs).map (fun p => .req p.1), (done ++ cs).map (fun p => .conn p.2)⟩ ∧
      s'.pool true = s.pool true ∧ s'.handled = s.handled := by
  induction cs with
  | nil =>
    intro done _ s h1
    exact ⟨s, .refl, by simpa using h1, rfl, rfl⟩
  | cons c cs ih =>
    intro done hn s h1
    simp at hn
    let s1 : PoolSrv := { s with pool := s.set false ⟨(s.pool false).queue,
      done.map (fun p => .conn p.2) ++ .conn c.2 :: cs.map (fun p => .conn (p.1 :: p.2))⟩ }
    let s2 : PoolSrv := { s1 with pool := s1.set false ⟨(s1.pool false).queue ++ [.req c.1], (s1.pool false).busy⟩ }
    have st : PoolSrv.Step n false lim s s2 := .dispatch s (done.map (fun p => .conn p.2)) c.1 c.2
      (cs.map (fun p => .conn (p.1 :: p.2))) (by rw [h1]; simp) (by rw [h1]; simp; omega)
    obtain ⟨s', g1, g2, g3, g4⟩ := ih (done ++ [c]) (by simp; omega) s2 (by
      simp [s2, s1, PoolSrv.set, h1])
    refine ⟨s', pool_trans (PoolSrv.Steps.refl.tail st) g1, by simpa using g2, ?_, g4⟩
    rw [g3]
    simp [s2, s1, PoolSrv.set]

/-- Every worker serves a connection and waits for room in the queue, which is full. -/
private structure Dead (n : Bool → Nat) (s : PoolSrv) : Prop where
  queue : (s.pool false).queue.length = n false
  busy : (s.pool false).busy.length = n false
  jobs : ∀ j ∈ (s.pool false).busy, ∃ r c, j = .conn (r :: c)
  unused : s.pool true = ⟨[], []⟩
  handled : s.handled = []

private theorem dead_step {n : Bool → Nat} {lim : Nat} {s s' : PoolSrv} (hd : Dead n s)
    (st : PoolSrv.Step n false lim s s') : Dead n s' := by
  obtain ⟨h1, h2, h3, h4, h5⟩ := hd
  cases st with
  | admit c t ht hp hl' => exact ⟨h1, h2, h3, h4, h5⟩
  | refuse c t ht hp hl hc => exact ⟨h1, h2, h3, h4, h5⟩
  | submit c hp hq => omega
  | take x j q hq hb =>
    cases x with
    | false => omega
    | true => simp [h4] at hq
  | dispatch a r c b hb hq => omega
  | close a b hb =>
    obtain ⟨r, c, h⟩ := h3 (.conn []) (by simp [hb])
    cases h
  | handle x a r b hb =>
    cases x with
    | false =>
      obtain ⟨r', c, h⟩ := h3 (.req r) (by simp [hb])
      cases h
    | true => simp [h4] at hb

/-- C71 is violated by a pool that connections and handlers share.  Whatever its size, as many
connections as it has workers, with two requests each, block it for ever: each worker serves a
connection and waits for room in the queue, which is full of handlers that wait for a worker.
No request is ever handled, of these connections or of any other. -/
theorem pools_shared_deadlock (n : Bool → Nat) (hn : 0 < n false) (lim : Nat) (hl : lim = 0 ∨ n false ≤ lim)
    (cs rest : List (List Nat)) (hlen : cs.length = n false) (hc : ∀ c ∈ cs, 2 ≤ c.length) :
    ∃ s, PoolSrv.Steps n false lim (.init (cs ++ rest)) s ∧
      ∀ s', PoolSrv.Steps n false lim s s' → s'.handled = [] ∧ ¬ PoolSrv.Idle s' := by
  obtain ⟨s1, a1, -, -, a4, a5, a6⟩ := accept_all (n := n) (h := false) (lim := lim) (rest := rest) cs [] (by simp; omega)
    (by simp; omega) (.init (cs ++ rest)) rfl rfl rfl
  let ps : List (Nat × List Nat) := cs.map fun c => (c.headD 0, c.tail)
  have hps : cs.map Job.conn = ps.map (fun p => .conn (p.1 :: p.2)) := by
    simp only [ps, List.map_map]
    refine List.map_congr_left fun c hcm => ?_
    have := hc c hcm
    cases c with
    | nil => simp at this
    | cons r c => rfl
  obtain ⟨s2, b1, b2, b3, b4⟩ := dispatch_all (n := n) (lim := lim) ps [] (by simp [ps]; omega) s1 (by
    rw [a4]; simp [hps])
  refine ⟨s2, pool_trans a1 b1, fun s' hs' => ?_⟩
  have hd : Dead n s' := by
    induction hs' with
    | refl =>
      refine ⟨?_, ?_, ?_, ?_, ?_⟩
      · rw [b2]; simp [ps, hlen]
      · rw [b2]; simp [ps, hlen]
      · rw [b2]
        intro j hj
        simp [ps] at hj
        obtain ⟨c, hcm, rfl⟩ := hj
        have := hc c hcm
        match c with
        | r :: r' :: c => exact ⟨r', c, rfl⟩
      · rw [b3, a5]; rfl
      · rw [b4, a6]; rfl
    | tail _ st ih => exact dead_step ih st
  refine ⟨hd.handled, fun hi => ?_⟩
  have := hi.2.2 false
  simp [Pool.jobs] at this
  have := hd.queue
  simp_all

/-- Two workers, two connections with two requests each. -/
example : ∃ s, PoolSrv.Steps (fun _ => 2) false 0 (.init [[1, 2], [3, 4], [5]]) s ∧
    ∀ s', PoolSrv.Steps (fun _ => 2) false 0 s s' → s'.handled = [] ∧ ¬ PoolSrv.Idle s' :=
  pools_shared_deadlock (fun _ => 2) (by simp) 0 (.inl rfl) [[1, 2], [3, 4]] [[5]] rfl (by simp)

/-- The same load, one worker more than `MaxConns`: the first connection is accepted, and there
is a step after it. -/
example : ∃ s', PoolSrv.Step (fun _ => 2) false 1
    { PoolSrv.init [[1, 2], [3, 4], [5]] with todo := [[3, 4], [5]], pend := some [1, 2] } s' :=
  pools_shared_progress_partial (fun _ => 2) 1 (by simp) (by simp) [[1, 2], [3, 4], [5]] _
    (.tail .refl (.admit (.init [[1, 2], [3, 4], [5]]) [1, 2] [[3, 4], [5]] rfl rfl (.inr (by decide))))
    (by simp [PoolSrv.Idle])

/-! ## Workers are held by idle connections -/

/-- Executions during which every worker of the connections keeps serving a connection, i.e. no
peer closes one. -/
inductive PoolSrv.Held (n : Bool → Nat) (h : Bool) (lim : Nat) (s₀ : PoolSrv) : PoolSrv → Prop where
  | refl : Held n h lim s₀ s₀
  | tail {s s'} (hs : Held n h lim s₀ s) (st : PoolSrv.Step n h lim s s')
    (hb : (s'.pool false).busy.length = n false) : Held n h lim s₀ s'

/-- C71.  A connection keeps a worker until its peer closes it.  While as many connections as
the pool has workers are open, the requests of the others are not handled. -/
theorem pools_starve (n : Bool → Nat) (lim : Nat) (hl : lim = 0 ∨ n false ≤ lim)
    (cs rest : List (List Nat)) (hlen : cs.length = n false) :
    ∃ s, PoolSrv.Steps n true lim (.init (cs ++ rest)) s ∧ s.todo = rest ∧
      (s.pool false).busy.length = n false ∧
      ∀ s', PoolSrv.Held n true lim s s' → ∀ r ∈ s'.handled, r ∈ cs.flatten := by
  obtain ⟨s1, a1, a2, -, a4, a5, a6⟩ := accept_all (n := n) (h := true) (lim := lim) (rest := rest) cs [] (by simp; omega)
    (by simp; omega) (.init (cs ++ rest)) rfl rfl rfl
  have hb1 : (s1.pool false).busy.length = n false := by rw [a4]; simp [hlen]
  refine ⟨s1, a1, a2, hb1, fun s' hs' => ?_⟩
  have key : (s'.pool false).busy.length = n false ∧
      (∀ j ∈ (s'.pool false).busy, j.isConn = true ∧ ∀ r ∈ jobReqs j, r ∈ cs.flatten) ∧
      (∀ j ∈ Pool.jobs (s'.pool true), ∀ r ∈ jobReqs j, r ∈ cs.flatten) ∧ ∀ r ∈ s'.handled, r ∈ cs.flatten := by
    induction hs' with
    | refl =>
      refine ⟨hb1, ?_, ?_, ?_⟩
      · rw [a4]
        intro j hj
        simp at hj
        obtain ⟨c, hc, rfl⟩ := hj
        exact ⟨rfl, fun r hr => List.mem_flatten.mpr ⟨c, hc, hr⟩⟩
      · rw [a5]; simp [PoolSrv.init, Pool.jobs]
      · rw [a6]; simp [PoolSrv.init]
    | @tail s s' hs st hb ih =>
      obtain ⟨h1, h2, h3, h4⟩ := ih
      refine ⟨hb, ?_⟩
      cases st with
      | admit c t ht hp hl' => exact ⟨h2, h3, h4⟩
      | refuse c t ht hp hl hc => exact ⟨h2, h3, h4⟩
      | submit c hp hq =>
        simp only [PoolSrv.set]
        exact ⟨by simpa using h2, by simpa using h3, h4⟩
      | take x j q hq hb =>
        cases x with
        | false => omega
        | true =>
          simp only [PoolSrv.set]
          refine ⟨by simpa using h2, ?_, h4⟩
          intro k hk
          refine h3 k ?_
          simp [Pool.jobs] at hk
          simp [Pool.jobs, hq]
          rcases hk with hk | hk | hk <;> simp [hk]
      | dispatch a r c b hb' hq =>
        have hm := (h2 (.conn (r :: c)) (by simp [hb'])).2
        simp only [PoolSrv.set]
        refine ⟨?_, ?_, h4⟩
        · intro k hk
          simp at hk
          rcases hk with hk | rfl | hk
          · exact h2 k (by simp [hb', hk])
          · exact ⟨rfl, fun x hx => hm x (by simp [jobReqs] at hx ⊢; simp [hx])⟩
          · exact h2 k (by simp [hb', hk])
        · intro k hk
          simp [Pool.jobs] at hk
          rcases hk with hk | rfl | hk
          · exact h3 k (by simp [Pool.jobs, hk])
          · intro x hx
            refine hm x ?_
            simp [jobReqs] at hx ⊢
            simp [hx]
          · exact h3 k (by simp [Pool.jobs, hk])
      | close a b hb' =>
        simp [PoolSrv.set] at hb
        rw [hb'] at h1
        simp at h1
        omega
      | handle x a r b hb' =>
        cases x with
        | false =>
          simp [PoolSrv.set] at hb
          rw [hb'] at h1
          simp at h1
          omega
        | true =>
          simp only [PoolSrv.set]
          refine ⟨by simpa using h2, ?_, ?_⟩
          · intro k hk
            refine h3 k ?_
            simp [Pool.jobs] at hk
            simp [Pool.jobs, hb']
            rcases hk with hk | hk | hk <;> simp [hk]
          · intro y hy
            rcases List.mem_append.mp hy with hy | hy
            · exact h4 y hy
            · refine h3 (.req r) (by simp [Pool.jobs, hb']) y ?_
              simpa [jobReqs] using hy
  exact key.2.2.2

/-- C71.  In a shared pool not even the requests of the connections that hold the workers are
handled: as long as none of them is closed, no request is handled at all. -/
theorem pools_shared_starve (n : Bool → Nat) (lim : Nat) (hl : lim = 0 ∨ n false ≤ lim)
    (cs rest : List (List Nat)) (hlen : cs.length = n false) :
    ∃ s, PoolSrv.Steps n false lim (.init (cs ++ rest)) s ∧ s.todo = rest ∧
      (s.pool false).busy.length = n false ∧
      ∀ s', PoolSrv.Held n false lim s s' → s'.handled = [] := by
  obtain ⟨s1, a1, a2, -, a4, a5, a6⟩ := accept_all (n := n) (h := false) (lim := lim) (rest := rest) cs [] (by simp; omega)
    (by simp; omega) (.init (cs ++ rest)) rfl rfl rfl
  have hb1 : (s1.pool false).busy.length = n false := by rw [a4]; simp [hlen]
  refine ⟨s1, a1, a2, hb1, fun s' hs' => ?_⟩
  have key : (s'.pool false).busy.length = n false ∧ (s'.pool true) = ⟨[], []⟩ ∧ s'.handled = [] := by
    induction hs' with
    | refl => exact ⟨hb1, a5, a6⟩
    | @tail s s' hs st hb ih =>
      obtain ⟨h1, h2, h3⟩ := ih
      refine ⟨hb, ?_⟩
      cases st with
      | admit c t ht hp hl' => exact ⟨h2, h3⟩
      | refuse c t ht hp hl hc => exact ⟨h2, h3⟩
      | submit c hp hq => exact ⟨by simpa [PoolSrv.set] using h2, h3⟩
      | take x j q hq hb =>
        cases x with
        | false => omega
        | true => simp [h2] at hq
      | dispatch a r c b hb' hq => exact ⟨by simpa [PoolSrv.set] using h2, h3⟩
      | close a b hb' =>
        simp [PoolSrv.set] at hb
        rw [hb'] at h1
        simp at h1
        omega
      | handle x a r b hb' =>
        cases x with
        | false =>
          simp [PoolSrv.set] at hb
          rw [hb'] at h1
          simp at h1
          omega
        | true => simp [h2] at hb'
  exact key.2.2

/-! ## One worker keeps the order -/

private def connPieces (s : PoolSrv) : List (List Nat) :=
  s.todo ++ s.pend.toList ++ (s.pool false).queue.map jobReqs ++ (s.pool false).busy.map jobReqs

private def started (s : PoolSrv) : List Nat :=
  s.handled ++ (s.pool true).busy.flatMap jobReqs ++ (s.pool true).queue.flatMap jobReqs

private def some' (P : Nat → Bool) (x : List Nat) : Bool := !(x.filter P).isEmpty

private structure OrderInv (P : Nat → Bool) (c : List Nat) (done : List Nat) (pieces : List (List Nat)) : Prop where
  ex : ∃ d, c.filter P = done.filter P ++ d ∧ (∀ x ∈ pieces, x.filter P = [] ∨ x.filter P = d)
  one : pieces.countP (some' P) ≤ 1

private theorem order_perm {P : Nat → Bool} {c done : List Nat} {p q : List (List Nat)} (h : OrderInv P c done p)
    (hpq : ∃ r, p.Perm (r ++ q)) : OrderInv P c done q := by
  obtain ⟨⟨d, h1, h2⟩, h3⟩ := h
  obtain ⟨r, hr⟩ := hpq
  refine ⟨⟨d, h1, fun x hx => h2 x (hr.mem_iff.mpr (by simp [hx]))⟩, ?_⟩
  rw [hr.countP_eq, List.countP_append] at h3
  omega

private theorem order_step {P : Nat → Bool} {c done : List Nat} {r : Nat} {x : List Nat} {p q : List (List Nat)}
    (h : OrderInv P c done (p ++ (r :: x) :: q)) : OrderInv P c (done ++ [r]) (p ++ x :: q) := by
  obtain ⟨⟨d, h1, h2⟩, h3⟩ := h
  cases hr : P r with
  | false =>
    refine ⟨⟨d, by simpa [hr] using h1, fun y hy => ?_⟩, ?_⟩
    · simp at hy
      rcases hy with hy | rfl | hy
      · exact h2 y (by simp [hy])
      · simpa [hr] using h2 (r :: y) (by simp)
      · exact h2 y (by simp [hy])
    · simpa [List.countP_append, List.countP_cons, some', hr] using h3
  | true =>
    have hd : d = r :: x.filter P := by
      have := h2 (r :: x) (by simp)
      simp [hr] at this
      exact this.symm
    have h4 : p.countP (some' P) = 0 ∧ q.countP (some' P) = 0 := by
      have h6 : some' P (r :: x) = true := by simp [some', hr]
      simp only [List.countP_append, List.countP_cons, h6, if_true] at h3
      omega
    have h5 : ∀ y ∈ p ++ q, y.filter P = [] := by
      intro y hy
      have := List.countP_eq_zero.mp (show (p ++ q).countP (some' P) = 0 by simp [List.countP_append, h4]) y hy
      simpa [some'] using this
    refine ⟨⟨x.filter P, by simp [h1, hd, hr], fun y hy => ?_⟩, ?_⟩
    · simp at hy
      rcases hy with hy | rfl | hy
      · exact .inl (h5 y (by simp [hy]))
      · exact .inr rfl
      · exact .inl (h5 y (by simp [hy]))
    · simp only [List.countP_append, List.countP_cons, h4]
      split <;> omega

/-- C71.  When the handlers have a pool of one worker, the requests of each connection are
handled in the order in which they have been sent, whatever the other connections do.  (`P` says
which requests are those of the connection.) -/
theorem pools_order (n : Bool → Nat) (hn : n true = 1) (lim : Nat) (P : Nat → Bool) (a b : List (List Nat)) (c : List Nat)
    (hP : ∀ x ∈ a ++ b, ∀ r ∈ x, P r = false) (s : PoolSrv)
    (hs : PoolSrv.Steps n true lim (.init (a ++ c :: b)) s) :
    s.handled.filter P <+: c.filter P := by
  have key : OrderInv P c (started s) (connPieces s) := by
    induction hs with
    | refl =>
      have h0 : ∀ x ∈ a ++ b, x.filter P = [] := fun x hx => List.filter_eq_nil_iff.mpr fun r hr => by simp [hP x hx r hr]
      have h1 : ∀ l : List (List Nat), (∀ x ∈ l, x ∈ a ++ b) → l.countP (some' P) = 0 := by
        intro l hl
        rw [List.countP_eq_zero]
        intro x hx
        simp [some', h0 x (hl x hx)]
      refine ⟨⟨c.filter P, by simp [started, PoolSrv.init], fun x hx => ?_⟩, ?_⟩
      · simp [connPieces, PoolSrv.init] at hx
        rcases hx with hx | rfl | hx
        · exact .inl (h0 x (by simp [hx]))
        · exact .inr rfl
        · exact .inl (h0 x (by simp [hx]))
      · simp only [connPieces, PoolSrv.init, Option.toList_none, List.map_nil, List.append_nil, List.countP_append,
          List.countP_cons, h1 a (by simp +contextual), h1 b (by simp +contextual)]
        split <;> omega
    | @tail s s' hs st ih =>
      have inv := pool_inv hs
      cases st with
      | admit c t ht hp hl' =>
        refine order_perm ih ⟨[], ?_⟩
        simp [connPieces, ht, hp]
        grind
      | refuse c t ht hp hl hc =>
        refine order_perm ih ⟨[c], ?_⟩
        simp [connPieces, ht, hp]
      | submit c hp hq =>
        have h1 : started { s with pend := none, pool := s.set false ⟨(s.pool false).queue ++ [.conn c], (s.pool false).busy⟩ }
            = started s := by simp [started, PoolSrv.set]
        rw [h1]
        refine order_perm ih ⟨[], ?_⟩
        simp [connPieces, hp, PoolSrv.set, jobReqs]
        grind
      | take x j q hq hb =>
        cases x with
        | false =>
          have h1 : started { s with pool := s.set false ⟨q, (s.pool false).busy ++ [j]⟩ }
              = started s := by simp [started, PoolSrv.set]
          rw [h1]
          refine order_perm ih ⟨[], ?_⟩
          simp [connPieces, hq, PoolSrv.set]
          grind
        | true =>
          have hb0 : (s.pool true).busy = [] := List.eq_nil_of_length_eq_zero (by omega)
          have h1 : started { s with pool := s.set true ⟨q, (s.pool true).busy ++ [j]⟩ }
              = started s := by simp [started, PoolSrv.set, hb0, hq]
          rw [h1]
          refine order_perm ih ⟨[], ?_⟩
          simp [connPieces, PoolSrv.set]
      | dispatch p r x q hb hq =>
        have h1 := order_step (P := P) (c := c) (done := started s) (r := r) (x := x)
          (p := s.todo ++ s.pend.toList ++ (s.pool false).queue.map jobReqs ++ p.map jobReqs)
          (q := q.map jobReqs) (by simpa [connPieces, hb, jobReqs] using ih)
        simpa [started, connPieces, PoolSrv.set, jobReqs] using h1
      | close p q hb =>
        have h1 : started { s with pool := s.set false ⟨(s.pool false).queue, p ++ q⟩ }
            = started s := by simp [started, PoolSrv.set]
        rw [h1]
        refine order_perm ih ⟨[[]], ?_⟩
        simp [connPieces, PoolSrv.set, hb, jobReqs]
        grind
      | handle x p r q hb =>
        cases x with
        | false =>
          have := inv.reqs rfl (.req r) (by simp [Pool.jobs, hb])
          simp [Job.isConn] at this
        | true =>
          have hl := inv.busy true
          rw [hb, hn] at hl
          simp at hl
          have hp : p = [] := List.eq_nil_of_length_eq_zero (by omega)
          have hq : q = [] := List.eq_nil_of_length_eq_zero (by omega)
          subst hp; subst hq
          have h1 : started { s with pool := s.set true ⟨(s.pool true).queue, [] ++ []⟩, handled := s.handled ++ [r] }
              = started s := by simp [started, PoolSrv.set, hb, jobReqs]
          rw [h1]
          refine order_perm ih ⟨[], ?_⟩
          simp [connPieces, PoolSrv.set]
  obtain ⟨⟨d, h1, -⟩, -⟩ := key
  rw [h1]
  simp only [started, List.filter_append, List.append_assoc]
  exact List.prefix_append _ _

/-- C71.  One worker is needed for that: with two or more the second request of a connection can
be handled before the first. -/
theorem pools_reorder (n : Bool → Nat) (hc : 0 < n false) (hn : 2 ≤ n true) (lim : Nat) (r r' : Nat) :
    ∃ s, PoolSrv.Steps n true lim (.init [[r, r']]) s ∧ s.handled = [r', r] := by
  obtain ⟨s1, a1, a2, a3, a4, a5, a6⟩ := accept_all (n := n) (h := true) (lim := lim) (rest := []) [[r, r']] []
    (by simp; omega) (by simp; omega) (.init ([[r, r']] ++ [])) rfl rfl rfl
  have a5' : s1.pool true = ⟨[], []⟩ := a5
  have a6' : s1.handled = [] := a6
  let at' (x y : Pool) (l : List Nat) : PoolSrv :=
    { s1 with pool := fun b => if b = true then x else y, handled := l }
  have e0 : s1 = at' ⟨[], []⟩ ⟨[], [.conn [r, r']]⟩ [] := by
    cases s1 with
    | mk todo pend pool handled refused =>
      simp only [at', PoolSrv.mk.injEq, true_and, and_true]
      refine ⟨funext fun b => ?_, a6'⟩
      cases b
      · simpa using a4
      · simpa using a5'
  have conv {p q : PoolSrv} (h : p = q) {o : PoolSrv} (hs : PoolSrv.Step n true lim o p) : PoolSrv.Step n true lim o q := h ▸ hs
  have st1 : PoolSrv.Step n true lim s1 (at' ⟨[.req r], []⟩ ⟨[], [.conn [r']]⟩ []) := by
    refine conv ?_ (.dispatch s1 [] r [r'] [] (by rw [a4]; rfl) (by rw [a5']; simp; omega))
    simp only [at', a6', PoolSrv.mk.injEq, true_and, and_true]
    funext b
    cases b <;> simp [PoolSrv.set, a4, a5']
  have st2 : PoolSrv.Step n true lim (at' ⟨[.req r], []⟩ ⟨[], [.conn [r']]⟩ [])
      (at' ⟨[.req r, .req r'], []⟩ ⟨[], [.conn []]⟩ []) := by
    refine conv ?_ (.dispatch _ [] r' [] [] rfl (by simp [at']; omega))
    simp only [at', PoolSrv.mk.injEq, true_and, and_true]
    funext b
    cases b <;> simp [PoolSrv.set]
  have st3 : PoolSrv.Step n true lim (at' ⟨[.req r, .req r'], []⟩ ⟨[], [.conn []]⟩ [])
      (at' ⟨[.req r'], [.req r]⟩ ⟨[], [.conn []]⟩ []) := by
    refine conv ?_ (.take _ true (.req r) [.req r'] rfl (by simp [at']; omega))
    simp only [at', PoolSrv.mk.injEq, true_and, and_true]
    funext b
    cases b <;> simp [PoolSrv.set]
  have st4 : PoolSrv.Step n true lim (at' ⟨[.req r'], [.req r]⟩ ⟨[], [.conn []]⟩ [])
      (at' ⟨[], [.req r, .req r']⟩ ⟨[], [.conn []]⟩ []) := by
    refine conv ?_ (.take _ true (.req r') [] rfl (by simp [at']; omega))
    simp only [at', PoolSrv.mk.injEq, true_and, and_true]
    funext b
    cases b <;> simp [PoolSrv.set]
  have st5 : PoolSrv.Step n true lim (at' ⟨[], [.req r, .req r']⟩ ⟨[], [.conn []]⟩ [])
      (at' ⟨[], [.req r]⟩ ⟨[], [.conn []]⟩ [r']) := by
    refine conv ?_ (.handle _ true [.req r] r' [] rfl)
    simp only [at', PoolSrv.mk.injEq, true_and, and_true]
    refine ⟨funext fun b => ?_, rfl⟩
    cases b <;> simp [PoolSrv.set]
  have st6 : PoolSrv.Step n true lim (at' ⟨[], [.req r]⟩ ⟨[], [.conn []]⟩ [r'])
      (at' ⟨[], []⟩ ⟨[], [.conn []]⟩ [r', r]) := by
    refine conv ?_ (.handle _ true [] r [] rfl)
    simp only [at', PoolSrv.mk.injEq, true_and, and_true]
    refine ⟨funext fun b => ?_, rfl⟩
    cases b <;> simp [PoolSrv.set]
  exact ⟨_, (((((a1.tail st1).tail st2).tail st3).tail st4).tail st5).tail st6, rfl⟩

/-- Two connections, the requests of the second are the even ones; the run handles some. -/
example : ∃ s, PoolSrv.Steps (fun _ => 1) true 0 (.init ([[1, 3]] ++ [2, 4, 6] :: [])) s ∧
    s.handled.Perm [1, 3, 2, 4, 6] ∧ s.handled.filter (· % 2 == 0) <+: [2, 4, 6] := by
  obtain ⟨s, h1, -, h2⟩ := pools_separate_finishes (fun _ => 1) (by simp) ([[1, 3]] ++ [2, 4, 6] :: []) _ .refl
  exact ⟨s, h1, h2, pools_order (fun _ => 1) rfl 0 (· % 2 == 0) [[1, 3]] [] [2, 4, 6] (by simp) s h1⟩

end Verif.Props
