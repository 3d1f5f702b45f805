import Verif.Props.Server

/-!
# C73: the goroutine that receives for a connection ends with it

`serve` starts a goroutine that reads the connection and offers each request, or the error that
ends the stream, on an unbuffered channel (server.go:112-122).  The comment at
server.go:304-306 says that it ends with the serve loop.  It does when the stream ends.  When
the server is stopped it never does.
-/

namespace Verif.Props

/-- The receiving goroutine exists, server.go:112-129. -/
def Receiving (s : ConnSt) : Bool :=
  match s.rcv with
  | .off | .ended => false
  | _ => true

/-- The serve loop is over, whatever of its deferred calls has been made (server.go:286-287). -/
def LoopOver (s : ConnSt) : Bool :=
  s.phase == .closing || s.phase == .closingNet || s.phase == .gone

/-- Steps of one connection, from any of its states. -/
inductive ConnSteps (seq : Bool) : ConnSt → ConnSt → Prop where
  | refl (s) : ConnSteps seq s s
  | tail {s s' s'' eff} (room stopped : Bool) (h : ConnSteps seq s s')
    (st : ConnSt.Step seq room stopped s' eff s'') : ConnSteps seq s s''

private theorem steps_reach {seq : Bool} {s s' : ConnSt} (h : ConnSt.Reach seq s)
    (hs : ConnSteps seq s s') : ConnSt.Reach seq s' := by
  induction hs with
  | refl => exact h
  | tail room stopped _ st ih => exact .tail room stopped ih st

private theorem leaked_inv {seq : Bool} {s : ConnSt} (h : ConnSt.Reach seq s) :
    s.leaked = true → LoopOver s = true ∧ Receiving s = true := by
  induction h with
  | init => intro h; cases h
  | @tail s s' eff room stopped hs st ih =>
    cases st with
    | stop h hq =>
      intro _
      obtain ⟨h1, h2⟩ := receiver_runs seq s hs (.inl h)
      refine ⟨rfl, ?_⟩
      cases hr : s.rcv <;> simp_all [Receiving]
    | taskDone a q b h =>
      intro hl
      have := ih hl
      cases seq with
      | false => exact this
      | true =>
        obtain ⟨D, ⟨hb, ht⟩ | ⟨q', pc, hb, hp, ht⟩⟩ := tasks_sequential s hs
        · have : (q, TaskPc.handled) ∈ s.tasks := by rw [h]; simp
          rw [ht] at this; simp at this
        · simp [LoopOver, hb] at this
    | _ => simp_all [LoopOver, Receiving]

private theorem leaked_kept {seq room stopped : Bool} {s s' : ConnSt} {eff : Effect}
    (st : ConnSt.Step seq room stopped s eff s') (h : s.leaked = true) : s'.leaked = true := by
  cases st <;> simp_all

private theorem rest_step {seq room stopped : Bool} {s s' : ConnSt} {eff : Effect}
    (st : ConnSt.Step seq room stopped s eff s') (ho : LoopOver s = true)
    (hr : s.rcv ≠ .reading) : s'.rcv = s.rcv := by
  cases st <;> simp_all [LoopOver]

private theorem leaked_stopped {seq : Bool} {m : Int} {loops : Nat} {v : Srv}
    (h : Srv.Reach seq m loops v) : ∀ s ∈ v.cs, s.leaked = true → v.stopped = true := by
  induction h with
  | init => simp [Srv.init]
  | tail _ st ih =>
    cases st with
    | accept h =>
      intro s hs hl
      simp only [List.mem_append, List.mem_singleton] at hs
      rcases hs with hs | rfl
      · exact ih s hs hl
      · cases hl
    | acceptErr h => exact ih
    | conn a s b eff s' h st =>
      intro t ht hl
      simp only [List.mem_append, List.mem_cons] at ht
      rcases ht with ht | rfl | ht
      · exact ih t (by rw [h]; simp [ht]) hl
      · cases st with
        | stop _ hs => exact hs
        | _ => exact ih s (by rw [h]; simp) hl
      · exact ih t (by rw [h]; simp [ht]) hl
    | stop => intro _ _ _; rfl

private theorem receiver_before {seq : Bool} {s : ConnSt} (h : ConnSt.Reach seq s)
    (hp : s.phase = .accepted ∨ s.phase = .reported ∨ s.phase = .refusing ∨ s.phase = .refused ∨
      s.phase = .admitted) : s.rcv = .off := by
  induction h with
  | init => rfl
  | @tail s s' eff room stopped hs st ih =>
    cases st with
    | deliver q h hq => cases seq <;> simp_all
    | taskDone a q b h => cases seq <;> simp_all
    | _ => simp_all

/-- C73, partial: a connection that ended without the server having been stopped has no
receiving goroutine left. -/
theorem receiver_ends_partial (seq : Bool) (s : ConnSt) (h : ConnSt.Reach seq s)
    (ho : LoopOver s = true) (hl : s.leaked = false) : Receiving s = false := by
  have hp : s.phase = .closing ∨ s.phase = .closingNet ∨ s.phase = .gone := by
    simpa [LoopOver, or_assoc] using ho
  rcases closing_reason seq s h hp with g | g | g
  · rw [hl] at g; cases g
  · simp [Receiving, g]
  · simp [Receiving, g]

/-- C73, partial, for a server: as long as it has not been stopped, the receiving goroutines
are not more than the connections that are being served, however many have come and gone. -/
theorem receivers_bounded_partial (seq : Bool) (m : Int) (loops : Nat) (v : Srv)
    (h : Srv.Reach seq m loops v) (hs : v.stopped = false) :
    v.cs.countP Receiving ≤ v.cs.countP Served := by
  refine List.countP_mono_left fun s hm hr => ?_
  have hc := h.conn s hm
  have hlk : s.leaked = false := by
    cases hl : s.leaked with
    | false => rfl
    | true =>
      have := leaked_stopped h s hm hl
      rw [hs] at this; cases this
  cases hp : s.phase with
  | queued | loop | busy => simp [Served, hp]
  | closing | closingNet | gone =>
    have := receiver_ends_partial seq s hc (by simp [LoopOver, hp]) hlk
    rw [hr] at this; cases this
  | accepted | reported | refusing | refused | admitted =>
    have := receiver_before hc (by simp [hp])
    simp [Receiving, this] at hr

/-- C73 is false: once the serve loop of a connection has ended because the server was stopped,
its receiving goroutine never ends, whatever happens, and never passes on a request again. -/
theorem receiver_leaks_false (seq : Bool) (s s' : ConnSt) (h : ConnSt.Reach seq s)
    (hl : s.leaked = true) (hs : ConnSteps seq s s') :
    Receiving s' = true ∧ s'.dispatched = s.dispatched := by
  have hk : s'.leaked = true ∧ s'.dispatched = s.dispatched := by
    induction hs with
    | refl => exact ⟨hl, rfl⟩
    | tail room stopped hs st ih =>
      refine ⟨leaked_kept st ih.1, ?_⟩
      have := (leaked_inv (steps_reach h hs) ih.1).1
      cases st <;> simp_all [LoopOver]
  exact ⟨(leaked_inv (steps_reach h hs) hk.1).2, hk.2⟩

/-- C73 is false: every connection that is served when the server is stopped comes to this. The
loop leaves through the stop channel, and the network connection is closed with the goroutine
blocked on its channel for ever: it has no step left. -/
theorem receiver_blocks_false (seq : Bool) (s : ConnSt) (hp : s.phase = .loop)
    (h : ConnSt.Reach seq s) :
    ∃ s', ConnSteps seq s s' ∧ s'.phase = .gone ∧ timesClosed s'.trace = 1 ∧
      Receiving s' = true ∧
      ∀ s'', ConnSteps seq s' s'' → s''.rcv = s'.rcv ∧ s''.phase = .gone := by
  let s1 : ConnSt := { s with phase := .closing, leaked := true }
  have t1 : ConnSt.Step seq true true s ⟨0, 0⟩ s1 := .stop s hp rfl
  let s2 : ConnSt := { s1 with phase := .closingNet, trace := s1.trace ++ [.state .closed] }
  have t2 : ConnSt.Step seq true true s1 ⟨0, 0⟩ s2 := .closeState s1 rfl
  let s3 : ConnSt := { s2 with phase := .gone, trace := s2.trace ++ [.close] }
  have t3 : ConnSt.Step seq true true s2 ⟨0, 0⟩ s3 := .closeNet s2 rfl
  have c3 : ConnSteps seq s s3 := .tail _ _ (.tail _ _ (.tail _ _ (.refl s) t1) t2) t3
  have key : ∀ s4 : ConnSt, ConnSteps seq s s4 → s4.phase = .gone → s4.leaked = true →
      (s4.rcv ≠ .reading) → s4.phase = .gone ∧ timesClosed s4.trace = 1 ∧
      Receiving s4 = true ∧
      ∀ s'', ConnSteps seq s4 s'' → s''.rcv = s4.rcv ∧ s''.phase = .gone := by
    intro s4 hc hg hlk hr
    have hre := steps_reach h hc
    refine ⟨hg, ((closed_once seq s4 hre).2.1.2 hg), (leaked_inv hre hlk).2, ?_⟩
    intro s'' hs
    induction hs with
    | refl => exact ⟨rfl, hg⟩
    | @tail s5 s6 eff room stopped hs st ih =>
      have hre5 := steps_reach hre hs
      have hgone := ih.2
      cases st with
      | taskDone a q b ht =>
        cases seq with
        | false => exact ih
        | true =>
          obtain ⟨D, ⟨hb, ht'⟩ | ⟨q', pc, hb, _⟩⟩ := tasks_sequential s5 hre5
          · have : (q, TaskPc.handled) ∈ s5.tasks := by rw [ht]; simp
            rw [ht'] at this; simp at this
          · rw [hb] at hgone; cases hgone
      | _ => simp_all
  cases hr : s.rcv with
  | reading =>
    let s4 : ConnSt := { s3 with rcv := .offerErr }
    have t4 : ConnSt.Step seq true true s3 ⟨0, 0⟩ s4 := .receiveErr s3 hr
    have c4 : ConnSteps seq s s4 := .tail _ _ c3 t4
    exact ⟨s4, c4, key s4 c4 rfl rfl (by simp [s4])⟩
  | _ => exact ⟨s3, c3, key s3 c3 rfl rfl (by simp [s3, s2, s1, hr])⟩

/-- C73 is false, in every execution: after the stop, a receiving goroutine that is not denied
its steps comes to rest on its channel, and stays there. -/
theorem receiver_rests_false {seq : Bool} (r : ConnRun seq) (t : Nat)
    (hl : (r.st t).leaked = true)
    (hf : ∀ t, (r.st t).rcv = .reading → ∃ u, t ≤ u ∧ (r.st u).rcv ≠ .reading) :
    ∃ u, t ≤ u ∧ Receiving (r.st u) = true ∧
      ∀ w, u ≤ w → (r.st w).rcv = (r.st u).rcv ∧ (r.st w).rcv ≠ .reading := by
  have hreach : ∀ t, ConnSt.Reach seq (r.st t) := by
    intro t
    induction t with
    | zero => rw [r.init]; exact .init
    | succ t ih =>
      rcases r.next t with h | ⟨eff, h⟩
      · rw [h]; exact ih
      · exact .tail _ _ ih h
  have hleak : ∀ k, (r.st (t + k)).leaked = true := by
    intro k
    induction k with
    | zero => exact hl
    | succ k ih =>
      rcases r.next (t + k) with h | ⟨eff, h⟩
      · rw [← Nat.add_assoc, h]; exact ih
      · exact leaked_kept h ih
  obtain ⟨u, hu, hr⟩ : ∃ u, t ≤ u ∧ (r.st u).rcv ≠ .reading := by
    rcases Classical.em ((r.st t).rcv = .reading) with h | h
    · exact hf t h
    · exact ⟨t, Nat.le_refl t, h⟩
  have hlu : ∀ w, t ≤ w → (r.st w).leaked = true := fun w hw => by
    have := hleak (w - t)
    rwa [Nat.add_sub_cancel' hw] at this
  refine ⟨u, hu, (leaked_inv (hreach u) (hlu u hu)).2, fun w hw => ?_⟩
  have hk : ∀ k, (r.st (u + k)).rcv = (r.st u).rcv := by
    intro k
    induction k with
    | zero => rfl
    | succ k ih =>
      rcases r.next (u + k) with h | ⟨eff, h⟩
      · rw [← Nat.add_assoc, h]; exact ih
      · have ho := (leaked_inv (hreach (u + k)) (hlu (u + k) (by omega))).1
        rw [← Nat.add_assoc, ← ih]
        have hr' : (r.st (u + k)).rcv ≠ .reading := by rw [ih]; exact hr
        exact rest_step h ho hr'
  have := hk (w - u)
  rw [Nat.add_sub_cancel' hw] at this
  exact ⟨this, by rw [this]; exact hr⟩

/-- The states of a connection that was stopped while its peer said nothing. -/
private def halted : Nat → ConnSt
  | 0 => .fresh
  | 1 => { ConnSt.fresh with phase := .reported, trace := [.state .new] }
  | 2 => { ConnSt.fresh with phase := .admitted, trace := [.state .new] }
  | 3 => { ConnSt.fresh with phase := .queued, trace := [.state .new] }
  | 4 => { ConnSt.fresh with phase := .loop, rcv := .reading, trace := [.state .new] }
  | 5 => { ConnSt.fresh with phase := .closing, rcv := .reading, trace := [.state .new],
                             leaked := true }
  | 6 => { ConnSt.fresh with phase := .closingNet, rcv := .reading, leaked := true,
                             trace := [.state .new, .state .closed] }
  | 7 => { ConnSt.fresh with phase := .gone, rcv := .reading, leaked := true,
                             trace := [.state .new, .state .closed, .close] }
  | _ => { ConnSt.fresh with phase := .gone, rcv := .offerErr, leaked := true,
                             trace := [.state .new, .state .closed, .close] }

private def haltedRun : ConnRun false where
  st := halted
  room _ := true
  stopped _ := true
  init := rfl
  next
    | 0 => .inr ⟨_, .new _ rfl⟩
    | 1 => .inr ⟨_, .admit _ rfl rfl⟩
    | 2 => .inr ⟨_, .add _ rfl⟩
    | 3 => .inr ⟨_, .start _ rfl⟩
    | 4 => .inr ⟨_, .stop _ rfl rfl⟩
    | 5 => .inr ⟨_, .closeState _ rfl⟩
    | 6 => .inr ⟨_, .closeNet _ rfl⟩
    | 7 => .inr ⟨_, .receiveErr _ rfl⟩
    | _ + 8 => .inl rfl

/-- Such an execution: the connection is closed and its receiver is left on the channel. -/
example : ∃ u, 5 ≤ u ∧ Receiving (haltedRun.st u) = true ∧
    ∀ w, u ≤ w → (haltedRun.st w).rcv = (haltedRun.st u).rcv ∧ (haltedRun.st w).rcv ≠ .reading :=
  receiver_rests_false haltedRun 5 rfl (fun t _ => ⟨t + 8, by omega, by
    show (halted (t + 8)).rcv ≠ .reading
    simp [halted]⟩)

private theorem serving : ∃ s, ConnSt.Reach false s ∧ s.phase = .loop ∧ s.rcv = .reading :=
  ⟨halted 4, .tail true true (.tail true true (.tail true true (.tail true true .init
    (.new _ rfl)) (.admit _ rfl rfl)) (.add _ rfl)) (.start _ rfl), rfl, rfl⟩

/-- A served connection meets the hypotheses of `receiver_blocks_false`, and the state after
the stop those of `receiver_leaks_false`. -/
example : ∃ s s', ConnSt.Reach false s ∧ s.leaked = true ∧ ConnSteps false s s' ∧
    Receiving s' = true ∧ timesClosed s'.trace = 1 := by
  obtain ⟨s, h, hp, hr⟩ := serving
  let s1 : ConnSt := { s with phase := .closing, leaked := true }
  have t1 : ConnSt.Step false true true s ⟨0, 0⟩ s1 := .stop s hp rfl
  let s2 : ConnSt := { s1 with phase := .closingNet, trace := s1.trace ++ [.state .closed] }
  have t2 : ConnSt.Step false true true s1 ⟨0, 0⟩ s2 := .closeState s1 rfl
  let s3 : ConnSt := { s2 with phase := .gone, trace := s2.trace ++ [.close] }
  have t3 : ConnSt.Step false true true s2 ⟨0, 0⟩ s3 := .closeNet s2 rfl
  have h1 : ConnSt.Reach false s1 := .tail _ _ h t1
  have c3 : ConnSteps false s1 s3 := .tail _ _ (.tail _ _ (.refl s1) t2) t3
  exact ⟨s1, s3, h1, rfl, c3, (receiver_leaks_false false s1 s3 h1 rfl c3).1,
    (closed_once false s3 (.tail _ _ (.tail _ _ h1 t2) t3)).2.1.2 rfl⟩

/-- A connection whose stream has ended, which meets the hypotheses of
`receiver_ends_partial`. -/
example : ∃ s, ConnSt.Reach false s ∧ LoopOver s = true ∧ s.leaked = false ∧
    s.rcv = .ended := by
  refine ⟨_, .tail true false (.tail true false (.tail true false (.tail true false
    (.tail true false (.tail true false .init (.new _ rfl)) (.admit _ rfl rfl)) (.add _ rfl))
    (.start _ rfl)) (.receiveErr _ rfl)) (.fail _ rfl rfl), rfl, rfl, rfl⟩

private theorem goLeak {seq : Bool} {m : Int} {loops : Nat} {v v' : Srv} {s s' : ConnSt} {eff : Effect}
    (h : Srv.Reach seq m loops v) (a b : List ConnSt) (hc : v.cs = a ++ s :: b)
    (st : ConnSt.Step seq (hasRoom m v.conns) v.stopped s eff s')
    (hv : v' = { v with cs := a ++ s' :: b, conns := v.conns + eff.conns, free := v.free + eff.free }) :
    Srv.Reach seq m loops v' := by
  subst hv; exact .tail h (.conn v a s b eff s' hc st)

/-- A server that serves one connection, for `receivers_bounded_partial`. -/
example : ∃ v, Srv.Reach false 0 1 v ∧ v.stopped = false ∧ v.cs.countP Receiving = 1 := by
  let t : List SrvEvent := [.state .new]
  let c (p : Phase) (r : RcvPc) (t : List SrvEvent) : ConnSt := ⟨p, r, [], [], [], t, false⟩
  have h1 : Srv.Reach false 0 1 ⟨0, 0, [c .accepted .off []], false⟩ :=
    .tail .init (.accept _ (by decide))
  have h2 : Srv.Reach false 0 1 ⟨0, 0, [c .reported .off t], false⟩ :=
    goLeak h1 [] [] rfl (.new _ rfl) rfl
  have h3 : Srv.Reach false 0 1 ⟨0, 0, [c .admitted .off t], false⟩ :=
    goLeak h2 [] [] rfl (.admit _ rfl rfl) rfl
  have h4 : Srv.Reach false 0 1 ⟨1, 1, [c .queued .off t], false⟩ :=
    goLeak h3 [] [] rfl (.add _ rfl) rfl
  have h5 : Srv.Reach false 0 1 ⟨1, 1, [c .loop .reading t], false⟩ :=
    goLeak h4 [] [] rfl (.start _ rfl) rfl
  exact ⟨_, h5, rfl, rfl⟩

end Verif.Props
