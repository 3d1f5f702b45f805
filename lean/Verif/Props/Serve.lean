import Verif.Serve
import Verif.Props.Server

/-!
# C79: what a call of `Serve` does with its listener and its connections
-/

namespace Verif.Props

open Verif

/-! ## Invariants -/

/-- The goroutine of `Serve` is at work on this connection. -/
private def held (cseq : Bool) (s : ConnSt) : Bool :=
  if cseq then s.phase != .gone
  else s.phase == .accepted || s.phase == .reported || s.phase == .refusing ||
    s.phase == .refused || s.phase == .admitted

private theorem done_busy {s : ConnSt} (h : ConnSt.Reach true s) {t : Request × TaskPc}
    (ht : t ∈ s.tasks) (hd : t.2 ≠ .done) : s.phase = .busy := by
  obtain ⟨D, ⟨_, h2⟩ | ⟨q, pc, h1, _, _⟩⟩ := tasks_sequential s h
  · rw [h2, List.mem_map] at ht
    obtain ⟨a, _, rfl⟩ := ht
    exact absurd rfl hd
  · exact h1

private theorem held_step {cseq seq room stopped : Bool} {s s' : ConnSt} {eff : Effect}
    (hr : ConnSt.Reach seq s) (st : ConnSt.Step seq room stopped s eff s') :
    (runnerEffect cseq s s' eff).free + (if held cseq s' then 1 else 0) =
      if held cseq s then 1 else 0 := by
  cases st with
  | taskDone a q b h =>
    cases seq with
    | true =>
      have hb := done_busy hr (t := (q, .handled)) (by rw [h]; simp) (by simp)
      cases cseq <;> simp [runnerEffect, held, hb]
    | false =>
      cases cseq
      · simp [runnerEffect, held]
      · by_cases hg : s.phase = .gone <;> simp [runnerEffect, held, hg]
  | receive q h =>
    cases cseq <;> by_cases hg : s.phase = .gone <;> simp [runnerEffect, held, hg]
  | receiveErr h =>
    cases cseq <;> by_cases hg : s.phase = .gone <;> simp [runnerEffect, held, hg]
  | taskActive a q b h =>
    cases cseq <;> by_cases hg : s.phase = .gone <;> simp [runnerEffect, held, hg]
  | taskHandle a q b h =>
    cases cseq <;> by_cases hg : s.phase = .gone <;> simp [runnerEffect, held, hg]
  | deliver q h hq => cases cseq <;> cases seq <;> simp [runnerEffect, held, h]
  | _ => cases cseq <;> simp_all [runnerEffect, held]

private structure CallInv (cseq : Bool) (x : ServeCall) : Prop where
  one : x.srv.free + x.srv.cs.countP (held cseq) = if x.failed = none then 1 else 0
  accepts : x.accepts = List.replicate x.srv.cs.length .conn ++
    (match x.failed with | none => [] | some e => [.err e])
  closes : (x.closes = 0 ∧ x.result = none) ∨
    (x.closes = 1 ∧ x.failed ≠ none ∧ (x.result = none ∨ x.result = x.failed))
  last : ∀ a s b, x.srv.cs = a ++ s :: b → b ≠ [] → held cseq s = false

private theorem split_mid {α : Type} {a b c d : List α} {s t : α} (h : a ++ s :: b = c ++ t :: d) :
    (a = c ∧ s = t ∧ b = d) ∨ (∃ m, c = a ++ s :: m ∧ b = m ++ t :: d) ∨
      (∃ m, a = c ++ t :: m ∧ d = m ++ s :: b) := by
  induction a generalizing c with
  | nil =>
    cases c with
    | nil => simp only [List.nil_append, List.cons.injEq] at h; exact .inl ⟨rfl, h.1, h.2⟩
    | cons y c =>
      simp only [List.nil_append, List.cons_append, List.cons.injEq] at h
      exact .inr (.inl ⟨c, by simp [h.1], h.2⟩)
  | cons x a ih =>
    cases c with
    | nil =>
      simp only [List.nil_append, List.cons_append, List.cons.injEq] at h
      exact .inr (.inr ⟨a, by simp [h.1], h.2.symm⟩)
    | cons y c =>
      simp only [List.cons_append, List.cons.injEq] at h
      rcases ih h.2 with ⟨h1, h2, h3⟩ | ⟨m, h1, h2⟩ | ⟨m, h1, h2⟩
      · exact .inl ⟨by simp [h.1, h1], h2, h3⟩
      · exact .inr (.inl ⟨m, by simp [h.1, h1], h2⟩)
      · exact .inr (.inr ⟨m, by simp [h.1, h1], h2⟩)

private theorem call_inv {cseq seq : Bool} {m : Int} {x : ServeCall}
    (h : ServeCall.Reach cseq seq m x) : CallInv cseq x := by
  induction h with
  | init => exact ⟨rfl, rfl, .inl ⟨rfl, rfl⟩, by simp [ServeCall.init, Srv.init]⟩
  | @tail x x' hx st inv =>
    obtain ⟨h1, h2, h3, h4⟩ := inv
    cases st with
    | accept h hf =>
      rw [hf] at h1 h2
      simp only [if_true] at h1
      have hz : x.srv.cs.countP (held cseq) = 0 := by omega
      refine ⟨?_, ?_, h3, ?_⟩
      · have : (if held cseq ConnSt.fresh = true then 1 else 0) = 1 := by
          cases cseq <;> simp [held, ConnSt.fresh]
        simp only [hf, if_true, List.countP_append, List.countP_cons, List.countP_nil]
        omega
      · simp only [h2, hf, List.append_nil, List.length_append, List.length_singleton,
          List.replicate_succ']
      · intro a s b hc hb
        rcases List.eq_nil_or_concat b with rfl | ⟨b', t, rfl⟩
        · exact absurd rfl hb
        · have he : x.srv.cs = a ++ s :: b' := by
            have : x.srv.cs ++ [ConnSt.fresh] = (a ++ s :: b') ++ [t] := by simpa using hc
            exact (List.append_inj' this rfl).1
          have := List.countP_eq_zero.1 hz s (by rw [he]; simp)
          simpa using this
    | acceptErr e h hf =>
      rw [hf] at h1 h2
      simp only [if_true] at h1
      refine ⟨by simp only [reduceCtorEq, if_false]; omega, by simp [h2], ?_, h4⟩
      rcases h3 with h3 | ⟨_, h3, _⟩
      · exact .inl h3
      · exact absurd hf h3
    | close e hf hc =>
      refine ⟨h1, h2, ?_, h4⟩
      rcases h3 with h3 | ⟨h3, _⟩
      · exact .inr ⟨by simp [hc], by simp [hf], .inl h3.2⟩
      · omega
    | ret e hf hc hr =>
      exact ⟨h1, h2, .inr ⟨hc, by simp [hf], .inr hf.symm⟩, h4⟩
    | conn a s b eff s' h st =>
      have hs := hx.conn s (by rw [h]; simp)
      have he := held_step (cseq := cseq) hs st
      refine ⟨?_, ?_, h3, ?_⟩
      · rw [h] at h1
        simp only [List.countP_append, List.countP_cons] at h1 ⊢
        omega
      · simp only [h2, h, List.length_append, List.length_cons]
      · intro c t d hc hd
        rcases split_mid hc with ⟨rfl, rfl, rfl⟩ | ⟨m, h5, h6⟩ | ⟨m, h5, h6⟩
        · have := h4 a s b h hd
          rw [this] at he
          cases hh : held cseq s' with
          | false => rfl
          | true => rw [hh] at he; simp at he
        · exact h4 (a ++ s :: m) t d (by rw [h, h6]; simp) hd
        · exact h4 c t (m ++ s :: b) (by rw [h, h5]; simp) (by simp)
    | stop => exact ⟨h1, h2, h3, h4⟩

private theorem steps_length {cseq seq : Bool} {m : Int} {x y : ServeCall}
    (hs : ServeCall.Steps cseq seq m x y) : x.srv.cs.length ≤ y.srv.cs.length := by
  induction hs with
  | refl => exact Nat.le_refl _
  | tail _ st ih =>
    cases st with
    | accept h hf => simp; omega
    | acceptErr e h hf => exact ih
    | close e hf hc => exact ih
    | ret e hf hc hr => exact ih
    | conn a s b eff s' h st => rw [h] at ih; simpa using ih
    | stop => exact ih

/-! ## The listener and the result -/

/-- C79.  What `Serve` returns is the error of the last `Accept`: every call before it returned
a connection, and the listener has been closed, once. -/
theorem serve_result (cseq seq : Bool) (m : Int) (x : ServeCall)
    (h : ServeCall.Reach cseq seq m x) (e : Err) (he : x.result = some e) :
    x.accepts = List.replicate x.srv.cs.length .conn ++ [.err e] ∧ x.closes = 1 := by
  obtain ⟨_, h2, h3, _⟩ := call_inv h
  rcases h3 with ⟨_, h3⟩ | ⟨hc, _, h3⟩
  · rw [h3] at he; simp at he
  · rcases h3 with h3 | h3
    · rw [h3] at he; simp at he
    · rw [he] at h3
      rw [← h3] at h2
      exact ⟨h2, hc⟩

/-- C79.  As long as `Accept` returns connections, `Serve` does not return and does not close
the listener; it has accepted exactly the connections `Accept` returned. -/
theorem serve_runs (cseq seq : Bool) (m : Int) (x : ServeCall)
    (h : ServeCall.Reach cseq seq m x) (ha : ∀ e, Accepted.err e ∉ x.accepts) :
    x.result = none ∧ x.closes = 0 ∧ x.accepts = List.replicate x.srv.cs.length .conn := by
  obtain ⟨_, h2, h3, _⟩ := call_inv h
  cases hf : x.failed with
  | some e => rw [hf] at h2; exact absurd (by rw [h2]; simp) (ha e)
  | none =>
    rw [hf] at h2 h3
    rcases h3 with h3 | h3
    · exact ⟨h3.2, h3.1, by simpa using h2⟩
    · exact absurd rfl h3.2.1

/-- C79.  The listener is closed at most once, and only after `Accept` failed. -/
theorem serve_closes (cseq seq : Bool) (m : Int) (x : ServeCall)
    (h : ServeCall.Reach cseq seq m x) :
    x.closes ≤ 1 ∧ (x.closes = 1 → ∃ e, Accepted.err e ∈ x.accepts) := by
  obtain ⟨_, h2, h3, _⟩ := call_inv h
  rcases h3 with ⟨h3, _⟩ | ⟨hc, hf, _⟩
  · exact ⟨by omega, by omega⟩
  · refine ⟨by omega, fun _ => ?_⟩
    cases hf' : x.failed with
    | none => exact absurd hf' hf
    | some e => rw [hf'] at h2; exact ⟨e, by rw [h2]; simp⟩

/-- C79.  An error of `Accept` is the end: whatever the error, temporary or not, nothing is
accepted afterwards. -/
theorem serve_error_final (cseq seq : Bool) (m : Int) (x y : ServeCall)
    (h : ServeCall.Reach cseq seq m x) (e : Err) (he : Accepted.err e ∈ x.accepts)
    (hs : ServeCall.Steps cseq seq m x y) :
    y.accepts = x.accepts ∧ y.srv.cs.length = x.srv.cs.length ∧
      (∀ r, y.result = some r → r = e) := by
  have hfail : x.failed = some e := by
    obtain ⟨_, h2, _, _⟩ := call_inv h
    cases hf : x.failed with
    | none => rw [h2, hf] at he; simp at he
    | some r =>
      rw [h2, hf] at he
      simp at he
      rw [he]
  have key : y.accepts = x.accepts ∧ y.srv.cs.length = x.srv.cs.length ∧ y.failed = some e := by
    induction hs with
    | refl => exact ⟨rfl, rfl, hfail⟩
    | tail _ st ih =>
      obtain ⟨h1, h2, h3⟩ := ih
      cases st with
      | accept h hf => rw [h3] at hf; simp at hf
      | acceptErr e h hf => rw [h3] at hf; simp at hf
      | close e hf hc => exact ⟨h1, h2, h3⟩
      | ret e hf hc hr => exact ⟨h1, h2, h3⟩
      | conn a s b eff s' h st => exact ⟨h1, by rw [← h2, h]; simp, h3⟩
      | stop => exact ⟨h1, h2, h3⟩
  refine ⟨key.1, key.2.1, fun r hr => ?_⟩
  have hy := h.steps hs
  obtain ⟨_, _, h3, _⟩ := call_inv hy
  rcases h3 with ⟨_, h3⟩ | ⟨_, _, h3 | h3⟩
  · rw [h3] at hr; simp at hr
  · rw [h3] at hr; simp at hr
  · rw [hr, key.2.2] at h3; simpa using h3

/-- C79.  After an error of `Accept` nothing keeps `Serve` from returning it: at most two steps
of its own goroutine lead there, and they leave every connection as it is. -/
theorem serve_error_returns (cseq seq : Bool) (m : Int) (x : ServeCall)
    (h : ServeCall.Reach cseq seq m x) (e : Err) (he : Accepted.err e ∈ x.accepts) :
    ∃ y, ServeCall.Steps cseq seq m x y ∧ y.result = some e ∧ y.closes = 1 ∧ y.srv = x.srv := by
  obtain ⟨_, h2, h3, _⟩ := call_inv h
  have hfail : x.failed = some e := by
    cases hf : x.failed with
    | none => rw [h2, hf] at he; simp at he
    | some r =>
      rw [h2, hf] at he
      simp at he
      rw [he]
  rcases h3 with ⟨hc, hr⟩ | ⟨hc, _, hr | hr⟩
  · exact ⟨_, .tail (.tail (.refl x) (.close _ e hfail hc)) (.ret _ e hfail (by simp [hc]) hr),
      rfl, by simp [hc], rfl⟩
  · exact ⟨_, .tail (.refl x) (.ret _ e hfail hc hr), rfl, hc, rfl⟩
  · exact ⟨x, .refl x, by rw [hr, hfail], hc, rfl⟩

/-- C79.  The goroutine of `Serve` handles one connection at a time: with a connection after
it, or after an error of `Accept`, a connection has been refused and closed, or has been given
to the runner. -/
theorem serve_settles (cseq seq : Bool) (m : Int) (x : ServeCall)
    (h : ServeCall.Reach cseq seq m x) (a b : List ConnSt) (s : ConnSt)
    (hc : x.srv.cs = a ++ s :: b) (hb : b ≠ [] ∨ ∃ e, Accepted.err e ∈ x.accepts) :
    s.phase ≠ .accepted ∧ s.phase ≠ .reported ∧ s.phase ≠ .refusing ∧ s.phase ≠ .refused ∧
      s.phase ≠ .admitted := by
  obtain ⟨h1, h2, _, h4⟩ := call_inv h
  have hf : held cseq s = false := by
    rcases hb with hb | ⟨e, he⟩
    · exact h4 a s b hc hb
    · cases hf : x.failed with
      | none => rw [h2, hf] at he; simp at he
      | some r =>
        rw [hf] at h1
        simp at h1
        cases hh : held cseq s with
        | false => rfl
        | true =>
          have := h1.2 s (by rw [hc]; simp)
          rw [hh] at this
          simp at this
  cases cseq
  · simpa [held, and_assoc] using hf
  · have : s.phase = .gone := by simpa [held] using hf
    simp [this]

/-- C79.  With a runner that starts goroutines the call is one loop of the server of C20-C22,
C55 and C60: what they prove holds of it. -/
theorem serve_refines (seq : Bool) (m : Int) (x : ServeCall)
    (h : ServeCall.Reach false seq m x) : Srv.Reach seq m 1 x.srv := by
  induction h with
  | init => exact .init
  | tail _ st ih =>
    cases st with
    | accept h hf => exact .tail ih (.accept _ h)
    | acceptErr e h hf => exact .tail ih (.acceptErr _ h)
    | close e hf hc => exact ih
    | ret e hf hc hr => exact ih
    | conn a s b eff s' h st => exact .tail ih (.conn _ a s b eff s' h st)
    | stop => exact .tail ih (.stop _)

private theorem advance {cseq seq : Bool} {m : Int} {x y x' : ServeCall} {s s' : ConnSt} {eff : Effect}
    (h : ServeCall.Steps cseq seq m x y) (a b : List ConnSt) (hc : y.srv.cs = a ++ s :: b)
    (st : ConnSt.Step seq (hasRoom m y.srv.conns) y.srv.stopped s eff s')
    (hx : x' = { y with srv := { y.srv with cs := a ++ s' :: b,
                                            conns := y.srv.conns + (runnerEffect cseq s s' eff).conns,
                                            free := y.srv.free + (runnerEffect cseq s s' eff).free } }) :
    ServeCall.Steps cseq seq m x x' := by
  subst hx; exact .tail h (.conn y a s b eff s' hc st)

/-- The goroutine of `Serve` gets from a connection back to `Accept`, whatever the other
connections do: each of its steps is possible. -/
private theorem gets_back {seq : Bool} {m : Int} {x : ServeCall} {a b : List ConnSt} {s : ConnSt}
    (hc : x.srv.cs = a ++ s :: b) (hh : held false s = true) :
    ∃ y, ServeCall.Steps false seq m x y ∧ y.accepts = x.accepts ∧ y.failed = x.failed ∧
      y.srv.free = x.srv.free + 1 := by
  have from_refused : ∀ (y : ServeCall) (s : ConnSt), ServeCall.Steps false seq m x y →
      y.srv.cs = a ++ s :: b → s.phase = .refused → y.accepts = x.accepts ∧ y.failed = x.failed ∧
      y.srv.free = x.srv.free → ∃ y, ServeCall.Steps false seq m x y ∧ y.accepts = x.accepts ∧
        y.failed = x.failed ∧ y.srv.free = x.srv.free + 1 := by
    intro y s hs hc hp ⟨h1, h2, h3⟩
    exact ⟨_, advance hs a b hc (.refuseClose s hp) rfl, h1, h2, by simp [runnerEffect, h3]⟩
  have from_refusing : ∀ (y : ServeCall) (s : ConnSt), ServeCall.Steps false seq m x y →
      y.srv.cs = a ++ s :: b → s.phase = .refusing → y.accepts = x.accepts ∧ y.failed = x.failed ∧
      y.srv.free = x.srv.free → ∃ y, ServeCall.Steps false seq m x y ∧ y.accepts = x.accepts ∧
        y.failed = x.failed ∧ y.srv.free = x.srv.free + 1 := by
    intro y s hs hc hp ⟨h1, h2, h3⟩
    exact from_refused _ _ (advance hs a b hc (.refuseState s hp) rfl) rfl rfl
      ⟨h1, h2, by simp [runnerEffect, h3]⟩
  have from_admitted : ∀ (y : ServeCall) (s : ConnSt), ServeCall.Steps false seq m x y →
      y.srv.cs = a ++ s :: b → s.phase = .admitted → y.accepts = x.accepts ∧ y.failed = x.failed ∧
      y.srv.free = x.srv.free → ∃ y, ServeCall.Steps false seq m x y ∧ y.accepts = x.accepts ∧
        y.failed = x.failed ∧ y.srv.free = x.srv.free + 1 := by
    intro y s hs hc hp ⟨h1, h2, h3⟩
    exact ⟨_, advance hs a b hc (.add s hp) rfl, h1, h2, by simp [runnerEffect, h3]⟩
  have from_reported : ∀ (y : ServeCall) (s : ConnSt), ServeCall.Steps false seq m x y →
      y.srv.cs = a ++ s :: b → s.phase = .reported → y.accepts = x.accepts ∧ y.failed = x.failed ∧
      y.srv.free = x.srv.free → ∃ y, ServeCall.Steps false seq m x y ∧ y.accepts = x.accepts ∧
        y.failed = x.failed ∧ y.srv.free = x.srv.free + 1 := by
    intro y s hs hc hp ⟨h1, h2, h3⟩
    cases hr : hasRoom m y.srv.conns with
    | true =>
      exact from_admitted _ _ (advance hs a b hc (.admit s hp hr) rfl) rfl rfl
        ⟨h1, h2, by simp [runnerEffect, h3]⟩
    | false =>
      exact from_refusing _ _ (advance hs a b hc (.refuse s hp hr) rfl) rfl rfl
        ⟨h1, h2, by simp [runnerEffect, h3]⟩
  simp only [held, Bool.false_eq_true, if_false, Bool.or_eq_true, beq_iff_eq] at hh
  rcases hh with (((hh | hh) | hh) | hh) | hh
  · exact from_reported _ _ (advance (.refl x) a b hc (.new s hh) rfl) rfl rfl
      ⟨rfl, rfl, by simp [runnerEffect]⟩
  · exact from_reported x s (.refl x) hc hh ⟨rfl, rfl, rfl⟩
  · exact from_refusing x s (.refl x) hc hh ⟨rfl, rfl, rfl⟩
  · exact from_refused x s (.refl x) hc hh ⟨rfl, rfl, rfl⟩
  · exact from_admitted x s (.refl x) hc hh ⟨rfl, rfl, rfl⟩

/-- C79.  With a runner that starts goroutines no connection, whatever state it is in, keeps
`Serve` from accepting the next: until `Accept` fails, steps of its own goroutine lead from
every reachable state to the acceptance of one more. -/
theorem serve_accepts_again (seq : Bool) (m : Int) (x : ServeCall)
    (h : ServeCall.Reach false seq m x) (ha : ∀ e, Accepted.err e ∉ x.accepts) :
    ∃ y, ServeCall.Steps false seq m x y ∧ y.accepts = x.accepts ++ [.conn] := by
  obtain ⟨h1, h2, _, _⟩ := call_inv h
  have hf : x.failed = none := by
    cases hf : x.failed with
    | none => rfl
    | some e => rw [hf] at h2; exact absurd (by rw [h2]; simp) (ha e)
  rw [hf] at h1
  simp only [if_true] at h1
  by_cases hz : x.srv.free = 0
  · have hp : 0 < x.srv.cs.countP (held false) := by omega
    rw [List.countP_pos_iff] at hp
    obtain ⟨s, hs, hh⟩ := hp
    obtain ⟨a, b, hc⟩ := List.append_of_mem hs
    obtain ⟨y, hy, g1, g2, g3⟩ := gets_back (seq := seq) (m := m) hc hh
    exact ⟨_, .tail hy (.accept y (by omega) (by rw [g2, hf])), by rw [← g1]⟩
  · exact ⟨_, .tail (.refl x) (.accept x (by omega) hf), rfl⟩

/-! ## A sequential `ConnRunner` -/

/-- C79.  With a `SequentialRunner` for connections one connection is served at a time: all but
the last that was accepted have been closed. -/
theorem serve_sequential (seq : Bool) (m : Int) (x : ServeCall)
    (h : ServeCall.Reach true seq m x) (a b : List ConnSt) (s : ConnSt)
    (hc : x.srv.cs = a ++ s :: b) (hb : b ≠ []) : s.phase = .gone ∧ timesClosed s.trace = 1 := by
  have := (call_inv h).last a s b hc hb
  have hg : s.phase = .gone := by simpa [held] using this
  exact ⟨hg, (closed_once seq s (h.conn s (by rw [hc]; simp))).2.1.2 hg⟩

/-- C79.  With a `SequentialRunner` for connections, a client that stays connected keeps every
other out: nothing is accepted until its connection is closed. -/
theorem serve_sequential_blocks (seq : Bool) (m : Int) (x y : ServeCall)
    (h : ServeCall.Reach true seq m x) (hs : ServeCall.Steps true seq m x y) (i : Nat) (s t : ConnSt)
    (hi : x.srv.cs[i]? = some s) (hj : y.srv.cs[i]? = some t) (ht : t.phase ≠ .gone) :
    y.accepts = x.accepts := by
  have key : ∀ t, y.srv.cs[i]? = some t → t.phase ≠ .gone → y.accepts = x.accepts := by
    clear hj ht
    induction hs with
    | refl => exact fun _ _ _ => rfl
    | @tail y z hs st ih =>
      have hy := h.steps hs
      obtain ⟨h1, _, _, _⟩ := call_inv hy
      intro t hj ht
      cases st with
      | accept hf hn =>
        have hlen : i < y.srv.cs.length := by
          have hx := steps_length hs
          have : i < x.srv.cs.length := by
            rw [List.getElem?_eq_some_iff] at hi; exact hi.1
          omega
        have hj' : y.srv.cs[i]? = some t := by
          simpa [List.getElem?_append_left hlen] using hj
        rw [hn] at h1
        have h0 : y.srv.cs.countP (held true) = 0 := by simp only [if_true] at h1; omega
        have := List.countP_eq_zero.1 h0 t (List.mem_of_getElem? hj')
        simp [held] at this
        exact absurd this ht
      | acceptErr e hf hn =>
        rw [hn] at h1
        have h0 : y.srv.cs.countP (held true) = 0 := by simp only [if_true] at h1; omega
        have := List.countP_eq_zero.1 h0 t (List.mem_of_getElem? hj)
        simp [held] at this
        exact absurd this ht
      | close e hf hc => exact ih t hj ht
      | ret e hf hc hr => exact ih t hj ht
      | conn a u b eff u' h st =>
        by_cases hia : i = a.length
        · subst hia
          simp at hj
          subst hj
          refine ih u (by rw [h]; simp) (fun hg => ht ?_)
          have he := held_step (cseq := true) (hy.conn u (by rw [h]; simp)) st
          simp only [held, hg] at he
          simp at he
          exact he.2
        · refine ih t ?_ ht
          rw [← hj, h]
          rcases Nat.lt_or_gt_of_ne hia with hl | hl
          · simp [List.getElem?_append_left hl]
          · simp [List.getElem?_append_right (Nat.le_of_lt hl)]
            obtain ⟨k, hk⟩ : ∃ k, i - a.length = k + 1 := ⟨i - a.length - 1, by omega⟩
            rw [hk]; simp
      | stop => exact ih t hj ht
  exact key t hj ht

private structure RoomInv (x : ServeCall) : Prop where
  count : x.srv.conns = x.srv.cs.countP Served
  each : ∀ s ∈ x.srv.cs, s.leaked = false ∧ s.phase ≠ .refusing ∧ s.phase ≠ .refused ∧
    (s.phase = .closing ∨ s.phase = .closingNet ∨ s.phase = .gone → s.rcv = .ended)

private theorem room_inv {seq : Bool} {m : Int} {x : ServeCall} (h0 : 0 ≤ m) (h1 : m < 2 ^ 31)
    (h : ServeCall.Reach true seq m x) (hs : x.srv.stopped = false) : RoomInv x := by
  induction h with
  | init => exact ⟨rfl, by simp [ServeCall.init, Srv.init]⟩
  | @tail x x' hx st ih =>
    cases st with
    | accept h hf =>
      obtain ⟨i1, i2⟩ := ih hs
      refine ⟨by simp [i1, Served, ConnSt.fresh], ?_⟩
      intro s hs
      simp only [List.mem_append, List.mem_singleton] at hs
      rcases hs with hs | rfl
      · exact i2 s hs
      · simp [ConnSt.fresh]
    | acceptErr e h hf => exact ⟨(ih hs).1, (ih hs).2⟩
    | close e hf hc => exact ⟨(ih hs).1, (ih hs).2⟩
    | ret e hf hc hr => exact ⟨(ih hs).1, (ih hs).2⟩
    | stop => simp at hs
    | conn a s b eff s' h st =>
      obtain ⟨i1, i2⟩ := ih hs
      have hr := hx.conn s (by rw [h]; simp)
      have is := i2 s (by rw [h]; simp)
      have hroom : s.phase = .reported → hasRoom m x.srv.conns = true := by
        intro hp
        have inv := call_inv hx
        have hz : x.srv.cs.countP Served = 0 := by
          have hone := inv.one
          rw [h] at hone ⊢
          have hh : held true s = true := by simp [held, hp]
          simp only [List.countP_append, List.countP_cons, hh, if_true] at hone
          have hz : ∀ l : List ConnSt, l.countP (held true) = 0 → l.countP Served = 0 := by
            intro l hl
            rw [List.countP_eq_zero] at hl ⊢
            intro t ht
            have := hl t ht
            have hg : t.phase = .gone := by simpa [held] using this
            simp [Served, hg]
          simp only [List.countP_append, List.countP_cons]
          rw [hz a (by split at hone <;> omega), hz b (by split at hone <;> omega)]
          simp [Served, hp]
        rw [i1, hz]
        by_cases hm : m = 0
        · simp [hasRoom, hm]
        · have : toInt32 m = m := by unfold toInt32; omega
          simp [hasRoom, this]
          omega
      have hstep : (runnerEffect true s s' eff).conns + (if Served s then 1 else 0) =
            (if Served s' then 1 else 0) ∧
          (s'.leaked = false ∧ s'.phase ≠ .refusing ∧ s'.phase ≠ .refused ∧
            (s'.phase = .closing ∨ s'.phase = .closingNet ∨ s'.phase = .gone → s'.rcv = .ended)) := by
        have hs' : x.srv.stopped = false := hs
        cases st with
        | refuse hp hrm => rw [hroom hp] at hrm; simp at hrm
        | stop hp hst => rw [hs'] at hst; simp at hst
        | refuseState hp => exact absurd hp is.2.1
        | refuseClose hp => exact absurd hp is.2.2.1
        | taskDone a q b ht =>
          cases seq with
          | true =>
            have hb := done_busy hr (t := (q, .handled)) (by rw [ht]; simp) (by simp)
            simp [runnerEffect, Served, hb, is.1]
          | false => simpa [runnerEffect, Served] using is
        | deliver q hp hq => cases seq <;> simp [runnerEffect, Served, hp, is.1]
        | receive q hq => 
          refine ⟨by simp [runnerEffect, Served], is.1, is.2.1, is.2.2.1, fun hp => ?_⟩
          have := is.2.2.2 hp
          rw [hq] at this; simp at this
        | receiveErr hq => 
          refine ⟨by simp [runnerEffect, Served], is.1, is.2.1, is.2.2.1, fun hp => ?_⟩
          have := is.2.2.2 hp
          rw [hq] at this; simp at this
        | _ => simp_all [runnerEffect, Served]
      refine ⟨?_, ?_⟩
      · rw [h] at i1
        simp only [List.countP_append, List.countP_cons] at i1 ⊢
        have := hstep.1
        split at this <;> split at this <;> simp_all <;> omega
      · intro t ht
        simp only [List.mem_append, List.mem_cons] at ht
        rcases ht with ht | rfl | ht
        · exact i2 t (by rw [h]; simp [ht])
        · exact hstep.2
        · exact i2 t (by rw [h]; simp [ht])

/-- C79.  With a `SequentialRunner` for connections the limit refuses nobody: while the server
is not stopped, a connection it closes is one whose stream has ended. -/
theorem serve_sequential_room (seq : Bool) (m : Int) (x : ServeCall) (h0 : 0 ≤ m) (h1 : m < 2 ^ 31)
    (h : ServeCall.Reach true seq m x) (hs : x.srv.stopped = false) (s : ConnSt)
    (hm : s ∈ x.srv.cs) (hc : timesClosed s.trace ≠ 0) : s.rcv = .ended := by
  have hl := closed_once seq s (h.conn s hm)
  have hg := hl.2.1.1 (by omega)
  exact ((room_inv h0 h1 h hs).each s hm).2.2.2 (.inr (.inr hg))

/-! ## Witnesses -/

private theorem reach_of {cseq seq : Bool} {m : Int} {y : ServeCall}
    (h : ServeCall.Steps cseq seq m .init y) : ServeCall.Reach cseq seq m y := ServeCall.Reach.init.steps h

private def one (p : Phase) (r : RcvPc) (t : List SrvEvent) : ConnSt := ⟨p, r, [], [], [], t, false⟩

/-- A connection is accepted and served, in its read loop. -/
private theorem served_one (cseq : Bool) : ServeCall.Steps cseq false 1 .init
    ⟨⟨1, if cseq then 0 else 1, [one .loop .reading [.state .new]], false⟩, [.conn], 0, none, none⟩ := by
  have h1 : ServeCall.Steps cseq false 1 .init
      ⟨⟨0, 0, [one .accepted .off []], false⟩, [.conn], 0, none, none⟩ :=
    .tail (.refl _) (.accept _ (by decide) rfl)
  have h2 : ServeCall.Steps cseq false 1 .init
      ⟨⟨0, 0, [one .reported .off [.state .new]], false⟩, [.conn], 0, none, none⟩ :=
    advance h1 [] [] rfl (.new _ rfl) (by cases cseq <;> rfl)
  have h3 : ServeCall.Steps cseq false 1 .init
      ⟨⟨0, 0, [one .admitted .off [.state .new]], false⟩, [.conn], 0, none, none⟩ :=
    advance h2 [] [] rfl (.admit _ rfl rfl) (by cases cseq <;> rfl)
  have h4 : ServeCall.Steps cseq false 1 .init
      ⟨⟨1, if cseq then 0 else 1, [one .queued .off [.state .new]], false⟩, [.conn], 0, none, none⟩ :=
    advance h3 [] [] rfl (.add _ rfl) (by cases cseq <;> rfl)
  exact advance h4 [] [] rfl (.start _ rfl) (by cases cseq <;> rfl)

/-- C79.  The return of `Serve` ends no connection: one that it accepted is still served when
`Serve` has returned and its listener is closed, and a request that arrives then is handled. -/
theorem serve_return_keeps_connections (e : Err) (q : Request) : ∃ x y,
    ServeCall.Reach false false 1 x ∧ x.result = some e ∧ x.closes = 1 ∧
    ServeCall.Steps false false 1 x y ∧
    x.srv.cs.map (fun s => (handledRequests s.trace, timesClosed s.trace)) = [([], 0)] ∧
    y.srv.cs.map (fun s => (handledRequests s.trace, timesClosed s.trace)) = [([q], 0)] := by
  let t : List SrvEvent := [.state .new]
  let x (c : ConnSt) : ServeCall := ⟨⟨1, 0, [c], false⟩, [.conn, .err e], 1, some e, some e⟩
  have hx : ServeCall.Reach false false 1 (x (one .loop .reading t)) :=
    reach_of (.tail (.tail (.tail (served_one false) (.acceptErr _ e (by decide) rfl))
      (.close _ e rfl rfl)) (.ret _ e rfl rfl rfl))
  have h1 : ServeCall.Steps false false 1 (x (one .loop .reading t))
      (x ⟨.loop, .offer q, [], [q], [], t, false⟩) :=
    advance (.refl _) [] [] rfl (.receive _ q rfl) rfl
  have h2 : ServeCall.Steps false false 1 (x (one .loop .reading t))
      (x ⟨.loop, .reading, [(q, .pending)], [q], [q], t, false⟩) :=
    advance h1 [] [] rfl (.deliver _ q rfl rfl) rfl
  have h3 : ServeCall.Steps false false 1 (x (one .loop .reading t))
      (x ⟨.loop, .reading, [(q, .active)], [q], [q], t ++ [.state (requestState q)], false⟩) :=
    advance h2 [] [] rfl (.taskActive _ [] q [] rfl) rfl
  have h4 : ServeCall.Steps false false 1 (x (one .loop .reading t))
      (x ⟨.loop, .reading, [(q, .handled)], [q], [q], t ++ [.state (requestState q)] ++ [.handle q],
        false⟩) :=
    advance h3 [] [] rfl (.taskHandle _ [] q [] rfl) rfl
  exact ⟨_, _, hx, rfl, rfl, h4, rfl, rfl⟩

/-- Non-vacuity of `serve_result`, `serve_error_final`, `serve_error_returns`, `serve_closes` and
`serve_refines`: the call that `serve_return_keeps_connections` describes. -/
example (e : Err) : ∃ x, ServeCall.Reach false false 1 x ∧ x.result = some e ∧
    x.accepts = [.conn, .err e] ∧ x.closes = 1 := by
  obtain ⟨x, y, h, he, hc, _, hl, _⟩ := serve_return_keeps_connections e Request.zero
  have := (serve_result false false 1 x h e he).1
  have hl := congrArg List.length hl
  simp only [List.length_map, List.length_singleton] at hl
  rw [hl] at this
  exact ⟨x, h, he, this, hc⟩

/-- A sequential server that served a connection to its end, and serves a second. -/
private theorem served_two : ServeCall.Steps true false 1 .init
    ⟨⟨1, 0, [one .gone .ended [.state .new, .state .closed, .close],
      one .loop .reading [.state .new]], false⟩, [.conn, .conn], 0, none, none⟩ := by
  let t : List SrvEvent := [.state .new]
  let g : ConnSt := one .gone .ended [.state .new, .state .closed, .close]
  have h1 : ServeCall.Steps true false 1 .init
      ⟨⟨1, 0, [one .loop .offerErr t], false⟩, [.conn], 0, none, none⟩ :=
    advance (served_one true) [] [] rfl (.receiveErr _ rfl) rfl
  have h2 : ServeCall.Steps true false 1 .init
      ⟨⟨0, 0, [one .closing .ended t], false⟩, [.conn], 0, none, none⟩ :=
    advance h1 [] [] rfl (.fail _ rfl rfl) rfl
  have h3 : ServeCall.Steps true false 1 .init
      ⟨⟨0, 0, [one .closingNet .ended (t ++ [.state .closed])], false⟩, [.conn], 0, none, none⟩ :=
    advance h2 [] [] rfl (.closeState _ rfl) rfl
  have h4 : ServeCall.Steps true false 1 .init ⟨⟨0, 1, [g], false⟩, [.conn], 0, none, none⟩ :=
    advance h3 [] [] rfl (.closeNet _ rfl) rfl
  have h5 : ServeCall.Steps true false 1 .init
      ⟨⟨0, 0, [g, one .accepted .off []], false⟩, [.conn, .conn], 0, none, none⟩ :=
    .tail h4 (.accept _ (by decide) rfl)
  have h6 : ServeCall.Steps true false 1 .init
      ⟨⟨0, 0, [g, one .reported .off t], false⟩, [.conn, .conn], 0, none, none⟩ :=
    advance h5 [g] [] rfl (.new _ rfl) rfl
  have h7 : ServeCall.Steps true false 1 .init
      ⟨⟨0, 0, [g, one .admitted .off t], false⟩, [.conn, .conn], 0, none, none⟩ :=
    advance h6 [g] [] rfl (.admit _ rfl rfl) rfl
  have h8 : ServeCall.Steps true false 1 .init
      ⟨⟨1, 0, [g, one .queued .off t], false⟩, [.conn, .conn], 0, none, none⟩ :=
    advance h7 [g] [] rfl (.add _ rfl) rfl
  exact advance h8 [g] [] rfl (.start _ rfl) rfl

/-- Non-vacuity of `serve_sequential`, `serve_sequential_room`, `serve_settles` and `serve_runs`:
two connections, the first closed after its stream ended, the second served. -/
example : ∃ x s u, ServeCall.Reach true false 1 x ∧ x.srv.stopped = false ∧
    x.srv.cs = [] ++ s :: [u] ∧ timesClosed s.trace = 1 ∧ u.phase = .loop ∧
    ∀ e, Accepted.err e ∉ x.accepts :=
  ⟨_, _, _, reach_of served_two, rfl, rfl, rfl, rfl, by simp⟩

/-- C79.  A sequential `ConnRunner` is not a service goroutine for each connection: one
connected client that sends nothing keeps all others waiting; whatever happens, no connection
is accepted until that client's connection is closed. -/
theorem serve_sequential_starves_false : ∃ x s, ServeCall.Reach true false 1 x ∧
    x.srv.cs = [s] ∧ s.rcv = .reading ∧ ∀ y t, ServeCall.Steps true false 1 x y →
      y.srv.cs[0]? = some t → t.phase ≠ .gone → y.accepts = [.conn] :=
  ⟨_, _, reach_of (served_one true), rfl, rfl, fun y t hs hj ht =>
    serve_sequential_blocks false 1 _ y (reach_of (served_one true)) hs 0 _ t rfl hj ht⟩

end Verif.Props
