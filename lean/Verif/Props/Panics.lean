import Verif.Panics
import Verif.Props.Server

/-!
# Property C76: what a panic of a handler or of the callback costs
-/

namespace Verif.Props

open Verif

/-! ## Invariants of one connection -/

private structure PInv (seq : Bool) (s : ConnSt) : Prop where
  busy : seq = true → (∃ t ∈ s.tasks, t.2 ≠ .done) → s.phase = .busy
  one : seq = true → s.tasks.countP (fun t => t.2 != .done) ≤ 1
  off : s.tasks ≠ [] → s.phase = .loop ∨ s.phase = .busy ∨ s.phase = .closing ∨
    s.phase = .closingNet ∨ s.phase = .gone
  trace : s.phase = .accepted → s.trace = []
  closes : timesClosed s.trace = 1 ∧ s.phase = .gone ∨ timesClosed s.trace = 0 ∧ s.phase ≠ .gone ∨
    s.trace = [.state .new] ∧ s.phase = .gone ∧ s.tasks = [] ∧ s.rcv = .off
  leaked : s.leaked = true → s.phase = .closing ∨ s.phase = .closingNet ∨ s.phase = .gone
  rcvOff : s.phase = .accepted ∨ s.phase = .reported ∨ s.phase = .refusing ∨ s.phase = .refused ∨
    s.phase = .admitted ∨ s.phase = .queued → s.rcv = .off

private theorem tc_append (t : List SrvEvent) (e : SrvEvent) :
    timesClosed (t ++ [e]) = timesClosed t + (match e with | .close => 1 | _ => 0) := by
  cases e <;> simp [timesClosed]

private theorem fresh_inv (seq : Bool) : PInv seq .fresh :=
  ⟨by simp [ConnSt.fresh], by simp [ConnSt.fresh], by simp [ConnSt.fresh], by simp [ConnSt.fresh],
    by simp [ConnSt.fresh, timesClosed], by simp [ConnSt.fresh], by simp [ConnSt.fresh]⟩

private theorem seq_task {s : ConnSt} {q : Request} {pc : TaskPc} {a b : List (Request × TaskPc)}
    (h : PInv true s) (ht : s.tasks = a ++ (q, pc) :: b) (hp : pc ≠ .done) :
    s.phase = .busy ∧ (∀ t ∈ a, t.2 = .done) ∧ (∀ t ∈ b, t.2 = .done) := by
  refine ⟨h.busy rfl ⟨(q, pc), by rw [ht]; simp, hp⟩, ?_⟩
  have := h.one rfl
  rw [ht, List.countP_append, List.countP_cons] at this
  have e : ((q, pc).2 != TaskPc.done) = true := by simpa using hp
  rw [e] at this
  have z1 : a.countP (fun t => t.2 != .done) = 0 := by simp at this; omega
  have z2 : b.countP (fun t => t.2 != .done) = 0 := by simp at this; omega
  rw [List.countP_eq_zero] at z1 z2
  refine ⟨fun t m => ?_, fun t m => ?_⟩
  · have := z1 t m; simpa using this
  · have := z2 t m; simpa using this

private theorem some_task {s : ConnSt} {seq : Bool} {q : Request} {pc : TaskPc}
    {a b : List (Request × TaskPc)} (h : PInv seq s) (ht : s.tasks = a ++ (q, pc) :: b) :
    s.phase = .loop ∨ s.phase = .busy ∨ s.phase = .closing ∨ s.phase = .closingNet ∨
      s.phase = .gone :=
  h.off (by rw [ht]; simp)

/-- A step of `serveReq` that does not end it. -/
private theorem task_inv {seq : Bool} {s : ConnSt} {q : Request} {pc pc' : TaskPc} {e : SrvEvent}
    {a b : List (Request × TaskPc)} (h : PInv seq s) (ht : s.tasks = a ++ (q, pc) :: b)
    (hp : pc ≠ .done) (hp' : pc' ≠ .done) (he : e ≠ .close) :
    PInv seq { s with tasks := a ++ (q, pc') :: b, trace := s.trace ++ [e] } := by
  have ph := some_task h ht
  have ec : timesClosed (s.trace ++ [e]) = timesClosed s.trace := by
    rw [tc_append]; cases e <;> simp_all
  refine ⟨?_, ?_, fun _ => ph, ?_, ?_, h.leaked, h.rcvOff⟩
  · rintro rfl _; exact (seq_task h ht hp).1
  · rintro rfl
    have := h.one rfl
    rw [ht, List.countP_append, List.countP_cons] at this
    show List.countP _ (a ++ (q, pc') :: b) ≤ 1
    rw [List.countP_append, List.countP_cons]
    simp [hp, hp'] at this ⊢
    omega
  · intro hq; simp only at hq; simp [hq] at ph
  · show timesClosed (s.trace ++ [e]) = 1 ∧ _ ∨ timesClosed (s.trace ++ [e]) = 0 ∧ _ ∨ _
    rw [ec]
    rcases h.closes with c | c | ⟨_, _, c, _⟩
    · exact .inl c
    · exact .inr (.inl c)
    · rw [ht] at c; simp at c

/-- A step that ends `serveReq`; `s.phase` becomes `p` with a sequential runner. -/
private theorem end_inv {seq l : Bool} {s : ConnSt} {q : Request} {pc : TaskPc} {e : SrvEvent}
    {a b : List (Request × TaskPc)} {p : Phase} (h : PInv seq s) (ht : s.tasks = a ++ (q, pc) :: b)
    (hp : pc ≠ .done) (he : e ≠ .close) (hl : p = .loop ∧ l = false ∨ p = .closing ∧ l = true) :
    PInv seq { s with tasks := a ++ (q, .done) :: b, trace := s.trace ++ [e],
                      phase := if seq then p else s.phase,
                      leaked := seq && l || s.leaked } := by
  have ph := some_task h ht
  have ec : timesClosed (s.trace ++ [e]) = timesClosed s.trace := by
    rw [tc_append]; cases e <;> simp_all
  cases seq with
  | false =>
    refine ⟨by simp, by simp, fun _ => by simpa using ph, ?_, ?_, by simpa using h.leaked,
      by simpa using h.rcvOff⟩
    · intro hq; simp only [Bool.false_eq_true, if_false] at hq; simp [hq] at ph
    · simp only [ec, Bool.false_eq_true, if_false]
      rcases h.closes with c | c | ⟨_, _, c, _⟩
      · exact .inl c
      · exact .inr (.inl c)
      · rw [ht] at c; simp at c
  | true =>
    obtain ⟨hb, ha, hb'⟩ := seq_task h ht hp
    have hc : timesClosed s.trace = 0 := by
      rcases h.closes with c | c | c
      · simp [hb] at c
      · exact c.1
      · simp [hb] at c
    have hlk : s.leaked = false := by
      cases hs : s.leaked with
      | false => rfl
      | true => have := h.leaked hs; simp [hb] at this
    refine ⟨?_, ?_, ?_, ?_, ?_, ?_, ?_⟩
    · rintro _ ⟨t, ht', hn⟩
      simp only [List.mem_append, List.mem_cons] at ht'
      rcases ht' with m | rfl | m
      · exact absurd (ha t m) hn
      · exact absurd rfl hn
      · exact absurd (hb' t m) hn
    · intro _
      have z1 : a.countP (fun t => t.2 != .done) = 0 := by
        rw [List.countP_eq_zero]; intro t m; simp [ha t m]
      have z2 : b.countP (fun t => t.2 != .done) = 0 := by
        rw [List.countP_eq_zero]; intro t m; simp [hb' t m]
      show List.countP _ (a ++ (q, TaskPc.done) :: b) ≤ 1
      rw [List.countP_append, List.countP_cons, z1, z2]; simp
    · intro _; rcases hl with ⟨rfl, _⟩ | ⟨rfl, _⟩ <;> simp
    · intro hq; rcases hl with ⟨rfl, _⟩ | ⟨rfl, _⟩ <;> simp at hq
    · simp only [ec, hc]
      rcases hl with ⟨rfl, _⟩ | ⟨rfl, _⟩ <;> simp
    · rcases hl with ⟨rfl, rfl⟩ | ⟨rfl, rfl⟩ <;> simp [hlk]
    · rcases hl with ⟨rfl, _⟩ | ⟨rfl, _⟩ <;> simp

/-- A step of the goroutine in charge of the connection, outside of `serveReq`. -/
private theorem idle_inv {seq : Bool} {s s' : ConnSt} (h : PInv seq s)
    (ht : s'.tasks = s.tasks) (qt : seq = true → ∀ t ∈ s.tasks, t.2 = .done)
    (hg : s.phase ≠ .gone) (hb : s'.phase ≠ .accepted)
    (hc : timesClosed s'.trace = timesClosed s.trace + if s'.phase = .gone then 1 else 0)
    (ho : s.tasks ≠ [] → s'.phase = .loop ∨ s'.phase = .busy ∨ s'.phase = .closing ∨
      s'.phase = .closingNet ∨ s'.phase = .gone)
    (hl : s'.leaked = true → s'.phase = .closing ∨ s'.phase = .closingNet ∨ s'.phase = .gone)
    (hr : s'.phase = .reported ∨ s'.phase = .refusing ∨ s'.phase = .refused ∨
      s'.phase = .admitted ∨ s'.phase = .queued → s'.rcv = .off) : PInv seq s' := by
  have z : timesClosed s.trace = 0 := by
    rcases h.closes with c | c | c
    · exact absurd c.2 hg
    · exact c.1
    · exact absurd c.2.1 hg
  refine ⟨?_, ?_, ?_, fun e => absurd e hb, ?_, hl, ?_⟩
  · rintro hs ⟨t, m, hn⟩; exact absurd (qt hs t (ht ▸ m)) hn
  · intro hs; rw [ht]
    rw [List.countP_eq_zero.2]
    · omega
    · intro t m; simp [qt hs t m]
  · rw [ht]; exact ho
  · rw [hc, z]
    by_cases e : s'.phase = .gone
    · left; simp [e]
    · right; left; simp [e]
  · rintro (e | e)
    · exact absurd e hb
    · exact hr e

private theorem step_inv {seq room stopped : Bool} {s s' : ConnSt} {eff : Effect}
    (h : PInv seq s) (st : ConnSt.PStep seq room stopped s eff s') : PInv seq s' := by
  have quiet : s.phase ≠ .busy → seq = true → ∀ t ∈ s.tasks, t.2 = .done := by
    intro hb hs t m
    exact Classical.byContradiction fun hn => hb (h.busy hs ⟨t, m, hn⟩)
  cases st with
  | step _ _ st =>
    cases st with
    | taskActive a q b ht => exact task_inv h ht (by simp) (by simp) (by simp)
    | taskHandle a q b ht => exact task_inv h ht (by simp) (by simp) (by simp)
    | taskDone a q b ht =>
      have := end_inv (p := .loop) (l := false) h ht (by simp) (e := .state .idle) (by simp)
        (.inl ⟨rfl, rfl⟩)
      simpa using this
    | deliver q hp hq =>
      have qt := quiet (by simp [hp])
      have z : seq = true → s.tasks.countP (fun t => t.2 != .done) = 0 := by
        intro hs; rw [List.countP_eq_zero]; intro t m; simp [qt hs t m]
      have hlk : s.leaked = false := by
        cases hs : s.leaked with
        | false => rfl
        | true => have := h.leaked hs; simp [hp] at this
      have hc : timesClosed s.trace = 0 := by
        rcases h.closes with c | c | c
        · simp [hp] at c
        · exact c.1
        · simp [hp] at c
      cases seq with
      | true =>
        refine ⟨by simp, ?_, by simp, by simp, by simp [hc], by simp [hlk], by simp⟩
        intro _
        show List.countP _ (s.tasks ++ [(q, TaskPc.pending)]) ≤ 1
        rw [List.countP_append, z rfl]; simp
      | false => exact ⟨by simp, by simp, by simp, by simp, by simp [hc], by simp [hlk], by simp⟩
    | receive q hr =>
      obtain ⟨h1, h2, h3, h4, h5, h6, h7⟩ := h
      refine ⟨h1, h2, h3, h4, ?_, h6, ?_⟩
      · rcases h5 with c | c | ⟨_, _, _, c⟩
        · exact .inl c
        · exact .inr (.inl c)
        · simp [hr] at c
      · intro hp; have := h7 hp; simp [hr] at this
    | receiveErr hr =>
      obtain ⟨h1, h2, h3, h4, h5, h6, h7⟩ := h
      refine ⟨h1, h2, h3, h4, ?_, h6, ?_⟩
      · rcases h5 with c | c | ⟨_, _, _, c⟩
        · exact .inl c
        · exact .inr (.inl c)
        · simp [hr] at c
      · intro hp; have := h7 hp; simp [hr] at this
    | _ =>
      have h3 := h.off
      have h6 := h.leaked
      have h7 := h.rcvOff
      refine idle_inv h rfl (quiet ?_) ?_ ?_ ?_ ?_ ?_ ?_ <;> simp_all [tc_append]
  | new hp =>
    have ht := h.trace hp
    have hn : s.tasks = [] := Classical.byContradiction fun hn => by
      have := h.off hn; simp [hp] at this
    have hlk : s.leaked = false := by
      cases hs : s.leaked with
      | false => rfl
      | true => have := h.leaked hs; simp [hp] at this
    refine ⟨by simp [hn], by simp [hn], by simp, by simp, ?_, by simp, by simp⟩
    simp [ht, hn, h.rcvOff (.inl hp)]
  | refuse hp =>
    have hn : s.tasks = [] := Classical.byContradiction fun hn => by
      have := h.off hn; simp [hp] at this
    have hc : timesClosed s.trace = 0 := by
      rcases h.closes with c | c | c
      · simp [hp] at c
      · exact c.1
      · simp [hp] at c
    refine ⟨by simp [hn], by simp [hn], by simp, by simp, ?_, by simp, by simp⟩
    left
    refine ⟨?_, rfl⟩
    show timesClosed (s.trace ++ ([.state .closed] ++ [.close])) = 1
    rw [← List.append_assoc, tc_append, tc_append, hc]; rfl
  | taskActive a q b ht =>
    have := end_inv (p := .closing) (l := true) h ht (by simp) (e := .state (requestState q)) (by simp)
      (.inr ⟨rfl, rfl⟩)
    simpa using this
  | taskHandle a q b ht =>
    have := end_inv (p := .closing) (l := true) h ht (by simp) (e := .handle q) (by simp)
      (.inr ⟨rfl, rfl⟩)
    simpa using this
  | taskDone a q b ht =>
    have := end_inv (p := .closing) (l := true) h ht (by simp) (e := .state .idle) (by simp)
      (.inr ⟨rfl, rfl⟩)
    simpa using this

private theorem reach_inv {seq : Bool} {m : Int} {loops : Nat} {v : Srv}
    (h : Srv.PSteps seq m (.init loops) v) : ∀ s ∈ v.cs, PInv seq s := by
  induction h with
  | refl => simp [Srv.init]
  | tail _ st ih =>
    cases st with
    | accept h =>
      intro s hs
      simp only [List.mem_append, List.mem_singleton] at hs
      rcases hs with hs | rfl
      · exact ih s hs
      · exact fresh_inv seq
    | acceptErr h => exact ih
    | conn a s b eff s' h st =>
      intro t ht
      simp only [List.mem_append, List.mem_cons] at ht
      have hs := ih s (by rw [h]; simp)
      rcases ht with ht | rfl | ht
      · exact ih t (by rw [h]; simp [ht])
      · exact step_inv hs st
      · exact ih t (by rw [h]; simp [ht])
    | stop => exact ih

/-! ## What holds whatever panics -/

/-- C76.  Whatever panics, a connection is closed at most once, and it is closed when the
goroutine in charge of it has ended, unless the callback has panicked when the connection was
reported to it as new.  Missing: that case (`panic_new_false`). -/
theorem panic_closed_partial (seq : Bool) (m : Int) (loops : Nat) (v : Srv)
    (h : Srv.PSteps seq m (.init loops) v) : ∀ s ∈ v.cs,
    timesClosed s.trace ≤ 1 ∧
    (s.phase = .gone → timesClosed s.trace = 1 ∨ s.trace = [.state .new]) := by
  intro s hs
  have inv := reach_inv h s hs
  rcases inv.closes with c | c | c
  · exact ⟨by omega, fun _ => .inl c.1⟩
  · exact ⟨by omega, fun hg => absurd hg c.2⟩
  · exact ⟨by rw [c.1]; simp [timesClosed], fun _ => .inr c.1⟩

private def inAccept (s : ConnSt) : Bool :=
  s.phase == .accepted || s.phase == .reported || s.phase == .refusing || s.phase == .refused ||
    s.phase == .admitted

private def isAdmitted (s : ConnSt) : Bool := s.phase == .admitted

private structure PSrvInv (seq : Bool) (m : Int) (loops : Nat) (v : Srv) : Prop where
  count : v.conns = v.cs.countP Served + v.cs.countP (·.leaked)
  free : v.free + v.cs.countP inAccept ≤ loops
  leaked : ∀ s ∈ v.cs, s.leaked = true → v.stopped = true ∨ seq = true
  bound : 0 < m → m < 2 ^ 31 → v.conns + v.cs.countP isAdmitted ≤ m - 1 + loops

private theorem toInt32_small {m : Int} (h0 : 0 < m) (h1 : m < 2 ^ 31) : toInt32 m = m := by
  unfold toInt32; omega

private theorem step_counts {seq : Bool} {m : Int} {v : Srv} {s s' : ConnSt} {eff : Effect}
    {stopped : Bool} (hr : PInv seq s)
    (st : ConnSt.PStep seq (hasRoom m v.conns) stopped s eff s') :
    ((if Served s' then 1 else 0 : Int) + (if s'.leaked then 1 else 0) =
      (if Served s then 1 else 0) + (if s.leaked then 1 else 0) + eff.conns) ∧
    (eff.free + (if inAccept s' then 1 else 0 : Nat) ≤ if inAccept s then 1 else 0) ∧
    (s'.leaked = true → s.leaked = true ∨ stopped = true ∨ seq = true) ∧
    ((eff.conns : Int) + (if isAdmitted s' then 1 else 0) ≤ (if isAdmitted s then 1 else 0) ∨
      (isAdmitted s' = true ∧ eff.conns = 0 ∧ isAdmitted s = false ∧ inAccept s = true ∧
        hasRoom m v.conns = true)) := by
  have task : ∀ {q : Request} {pc : TaskPc} {a b : List (Request × TaskPc)}, seq = true →
      s.tasks = a ++ (q, pc) :: b → pc ≠ .done → s.phase = .busy ∧ s.leaked = false := by
    rintro q pc a b rfl ht hp
    have hb := (seq_task hr ht hp).1
    refine ⟨hb, ?_⟩
    cases hs : s.leaked with
    | false => rfl
    | true => have := hr.leaked hs; simp [hb] at this
  cases st with
  | step _ _ st =>
    cases st with
    | stop h hs =>
      refine ⟨?_, ?_, ?_, ?_⟩
      · cases hl : s.leaked with
        | false => simp [Served, h]
        | true => have := hr.leaked hl; simp [h] at this
      · simp [inAccept, h]
      · intro _; exact .inr (.inl hs)
      · left; simp [isAdmitted, h]
    | deliver q h hq => cases seq <;> simp [Served, inAccept, isAdmitted, h] <;> intro h <;> simp [h]
    | taskDone a q b ht =>
      cases seq with
      | false => simp [Served, inAccept, isAdmitted]; intro h; simp [h]
      | true =>
        have := task rfl ht (by simp)
        simp [Served, inAccept, isAdmitted, this]
    | _ => simp_all [Served, inAccept, isAdmitted] <;> (first | omega | (intro h; simp [h]))
  | new h => simp [Served, inAccept, isAdmitted, h]; intro h; simp [h]
  | refuse h => simp [Served, inAccept, isAdmitted, h]; intro h; simp [h]
  | taskActive a q b ht =>
    cases seq with
    | false => simp [Served, inAccept, isAdmitted]; intro h; simp [h]
    | true => have := task rfl ht (by simp); simp [Served, inAccept, isAdmitted, this]
  | taskHandle a q b ht =>
    cases seq with
    | false => simp [Served, inAccept, isAdmitted]; intro h; simp [h]
    | true => have := task rfl ht (by simp); simp [Served, inAccept, isAdmitted, this]
  | taskDone a q b ht =>
    cases seq with
    | false => simp [Served, inAccept, isAdmitted]; intro h; simp [h]
    | true => have := task rfl ht (by simp); simp [Served, inAccept, isAdmitted, this]

private theorem countP_split {p : ConnSt → Bool} {l a b : List ConnSt} {s : ConnSt}
    (h : l = a ++ s :: b) :
    l.countP p = a.countP p + b.countP p + if p s then 1 else 0 := by
  rw [h, List.countP_append, List.countP_cons]; omega

private theorem srv_inv {seq : Bool} {m : Int} {loops : Nat} {v : Srv}
    (h : Srv.PSteps seq m (.init loops) v) : PSrvInv seq m loops v := by
  induction h with
  | refl =>
    exact ⟨rfl, by simp [Srv.init], by simp [Srv.init], by simp [Srv.init]; omega⟩
  | @tail v v' hv st ih =>
    cases st with
    | accept h =>
      refine ⟨?_, ?_, ?_, ?_⟩
      · have := ih.count
        simp [Served, ConnSt.fresh] at this ⊢; exact this
      · have := ih.free
        simp [inAccept, ConnSt.fresh] at this ⊢; omega
      · intro s hs
        simp only [List.mem_append, List.mem_singleton] at hs
        rcases hs with hs | rfl
        · exact ih.leaked s hs
        · intro h; cases h
      · have := ih.bound
        simp [isAdmitted, ConnSt.fresh] at this ⊢; exact this
    | acceptErr h =>
      refine ⟨ih.count, ?_, ih.leaked, ih.bound⟩
      have := ih.free
      show v.free - 1 + v.cs.countP inAccept ≤ _
      omega
    | stop => exact ⟨ih.count, ih.free, fun _ _ _ => .inl rfl, ih.bound⟩
    | conn a s b eff s' h st =>
      have hr := reach_inv hv s (by rw [h]; simp)
      obtain ⟨h1, h2, h3, h4⟩ := step_counts hr st
      have c1 := ih.count
      have c2 := ih.free
      rw [countP_split h, countP_split h] at c1
      rw [countP_split h] at c2
      have e : ∀ p : Prop, ∀ [Decidable p], ((if p then 1 else 0 : Nat) : Int) = if p then 1 else 0 :=
        fun p _ => by split <;> rfl
      refine ⟨?_, ?_, ?_, ?_⟩
      · show v.conns + eff.conns = _
        rw [countP_split rfl, countP_split rfl]
        rw [c1]
        clear c1 c2 h2 h3 h4 ih
        simp only [Int.natCast_add, e]
        omega
      · show v.free + eff.free + _ ≤ _
        rw [countP_split rfl]
        omega
      · intro t ht hl
        simp only [List.mem_append, List.mem_cons] at ht
        rcases ht with ht | rfl | ht
        · exact ih.leaked t (by rw [h]; simp [ht]) hl
        · rcases h3 hl with h3 | h3
          · exact ih.leaked s (by rw [h]; simp) h3
          · exact h3
        · exact ih.leaked t (by rw [h]; simp [ht]) hl
      · intro m0 m1
        have c4 := ih.bound m0 m1
        rw [countP_split h] at c4
        show v.conns + eff.conns + _ ≤ _
        rw [countP_split rfl]
        rcases h4 with h4 | ⟨k1, k2, k3, k4, k5⟩
        · simp only [Int.natCast_add, e] at c4 ⊢
          omega
        · have hroom : v.conns < m := by
            have hm : ¬ m = 0 := by omega
            simp [hasRoom, hm, toInt32_small m0 m1] at k5
            exact k5
          have hle : ∀ l : List ConnSt, l.countP isAdmitted ≤ l.countP inAccept := by
            intro l
            refine List.countP_mono_left ?_
            intro t _ ht
            simp [isAdmitted] at ht
            simp [inAccept, ht]
          have := hle a
          have := hle b
          simp only [k1, k2, k4, if_true] at c2 ⊢
          omega

/-- C76 and C20.  Whatever panics, a server with one `Serve` loop never serves more than
`MaxConns` connections, `0 < MaxConns < 2^31`. -/
theorem panic_limit (seq : Bool) (m : Int) (v : Srv) (h0 : 0 < m) (h1 : m < 2 ^ 31)
    (h : Srv.PSteps seq m (.init 1) v) : (v.cs.countP Served : Int) ≤ m := by
  have inv := srv_inv h
  have := inv.bound h0 h1
  have := inv.count
  omega

/-- C76.  When the handlers do not run on the goroutine that serves the connection, no panic
costs a slot: until the stop, the number of connections the server counts is the number of
connections it serves, and a new connection is refused if and only if the limit is reached.
Missing: the sequential runner (`panic_slot_false`). -/
theorem panic_slot_partial (m : Int) (loops : Nat) (v : Srv) (hs : v.stopped = false)
    (h : Srv.PSteps false m (.init loops) v) :
    v.conns = v.cs.countP Served ∧
    (0 < m → m < 2 ^ 31 → (hasRoom m v.conns = true ↔ (v.cs.countP Served : Int) < m)) := by
  have inv := srv_inv h
  have hz : v.cs.countP (·.leaked) = 0 := by
    rw [List.countP_eq_zero]
    intro s hm hl
    have := inv.leaked s hm hl
    simp [hs] at this
  have hc : v.conns = v.cs.countP Served := by rw [inv.count, hz]; simp
  refine ⟨hc, fun h0 h1 => ?_⟩
  have hm : ¬ m = 0 := by omega
  rw [hc]; simp [hasRoom, hm, toInt32_small h0 h1]

/-! ## What a panic costs -/

private theorem go {seq : Bool} {m : Int} {v0 v v' : Srv} {s s' : ConnSt} {eff : Effect}
    (h : Srv.PSteps seq m v0 v) (a b : List ConnSt) (hc : v.cs = a ++ s :: b)
    (st : ConnSt.PStep seq (hasRoom m v.conns) v.stopped s eff s')
    (hv : v' = { v with cs := a ++ s' :: b, conns := v.conns + eff.conns, free := v.free + eff.free }) :
    Srv.PSteps seq m v0 v' := by
  subst hv; exact .tail h (.conn v a s b eff s' hc st)

/-- C76 is false for a panic of the callback on a new connection: the connection is never
closed, and `Serve` has ended, so that no other connection is accepted. -/
theorem panic_new_false (seq : Bool) (m : Int) : ∃ v s, Srv.PSteps seq m (.init 1) v ∧
    v.cs = [s] ∧ s.trace = [.state .new] ∧
    ∀ v', Srv.PSteps seq m v v' → v'.cs = [s] ∧ timesClosed s.trace = 0 := by
  let s : ConnSt := ⟨.gone, .off, [], [], [], [.state .new], false⟩
  have h : Srv.PSteps seq m (.init 1) ⟨0, 0, [s], false⟩ :=
    go (.tail (.refl _) (.accept _ (by decide))) [] [] rfl (.new _ rfl) rfl
  refine ⟨_, s, h, rfl, rfl, fun v' hv => ?_⟩
  suffices v'.cs = [s] ∧ v'.free = 0 from ⟨this.1, rfl⟩
  induction hv with
  | refl => exact ⟨rfl, rfl⟩
  | tail _ st ih =>
    cases st with
    | accept h => simp [ih.2] at h
    | acceptErr h => simp [ih.2] at h
    | stop => exact ih
    | conn a t b eff t' h st =>
      have ht : t = s := by
        have : t ∈ [s] := by rw [← ih.1, h]; simp
        simpa using this
      subst ht
      exfalso
      cases st with
      | step _ _ st => cases st <;> simp_all [s]
      | _ => simp_all [s]

/-- A connection that was ended by the panic of a handler: closed, its receiving goroutine
has not ended. -/
private def Dead (s : ConnSt) : Prop :=
  s.phase = .gone ∧ (∀ t ∈ s.tasks, t.2 = .done) ∧ s.rcv ≠ .ended

/-- A connection that is not and will not be served. -/
private def Shut (s : ConnSt) : Prop :=
  (s.phase = .accepted ∨ s.phase = .reported ∨ s.phase = .refusing ∨ s.phase = .refused ∨
    s.phase = .gone) ∧ s.tasks = [] ∧ s.rcv = .off ∧ s.dispatched = []

private theorem dead_step {seq room stopped : Bool} {s s' : ConnSt} {eff : Effect} (h : Dead s)
    (st : ConnSt.PStep seq room stopped s eff s') : Dead s' ∧ eff.conns = 0 := by
  obtain ⟨h1, h2, h3⟩ := h
  have nt : ∀ {q : Request} {pc : TaskPc} {a b : List (Request × TaskPc)},
      s.tasks = a ++ (q, pc) :: b → pc = .done := by
    intro q pc a b ht
    exact h2 (q, pc) (by rw [ht]; simp)
  cases st with
  | step _ _ st =>
    cases st with
    | receive q h => exact ⟨⟨h1, h2, by simp⟩, rfl⟩
    | receiveErr h => exact ⟨⟨h1, h2, by simp⟩, rfl⟩
    | taskActive a q b ht => cases nt ht
    | taskHandle a q b ht => cases nt ht
    | taskDone a q b ht => cases nt ht
    | _ => simp_all
  | taskActive a q b ht => cases nt ht
  | taskHandle a q b ht => cases nt ht
  | taskDone a q b ht => cases nt ht
  | _ => simp_all

private theorem shut_step {seq stopped : Bool} {s s' : ConnSt} {eff : Effect} (h : Shut s)
    (st : ConnSt.PStep seq false stopped s eff s') : Shut s' ∧ eff.conns = 0 := by
  obtain ⟨h1, h2, h3, h4⟩ := h
  cases st with
  | step _ _ st => cases st <;> simp_all [Shut]
  | _ => simp_all [Shut]

private theorem locate {a b A B : List ConnSt} {s : ConnSt} (h : A ++ B = a ++ s :: b) :
    (∃ b1, A = a ++ s :: b1 ∧ b = b1 ++ B) ∨ (∃ a2, B = a2 ++ s :: b ∧ a = A ++ a2) := by
  rcases List.append_eq_append_iff.1 h with ⟨l, h1, h2⟩ | ⟨l, h1, h2⟩
  · exact .inr ⟨l, h2, h1⟩
  · cases l with
    | nil => exact .inr ⟨[], by simpa using h2.symm, by simpa using h1.symm⟩
    | cons x l =>
      simp only [List.cons_append, List.cons.injEq] at h2
      obtain ⟨rfl, rfl⟩ := h2
      exact .inl ⟨l, h1, rfl⟩

private structure Exhausted (m : Nat) (v : Srv) : Prop where
  conns : v.conns = m
  split : ∃ A B, v.cs = A ++ B ∧ A.length = m ∧ (∀ s ∈ A, Dead s) ∧ ∀ s ∈ B, Shut s

private theorem exhausted_step {seq : Bool} {m : Nat} {v v' : Srv} (h0 : 0 < m) (h1 : m < 2 ^ 31)
    (h : Exhausted m v) (st : Srv.PStep seq m v v') : Exhausted m v' := by
  obtain ⟨hc, A, B, hs, hl, hA, hB⟩ := h
  have room : hasRoom m v.conns = false := by
    have hm : ¬ m = 0 := by omega
    rw [hc]; simp [hasRoom, hm, toInt32_small (m := (m : Int)) (by omega) (by omega)]
  cases st with
  | accept h =>
    refine ⟨hc, A, B ++ [.fresh], by simp [hs], hl, hA, ?_⟩
    intro s m
    simp only [List.mem_append, List.mem_singleton] at m
    rcases m with m | rfl
    · exact hB s m
    · simp [Shut, ConnSt.fresh]
  | acceptErr h => exact ⟨hc, A, B, hs, hl, hA, hB⟩
  | stop => exact ⟨hc, A, B, hs, hl, hA, hB⟩
  | conn a s b eff s' h st =>
    rw [hs] at h
    rcases locate h with ⟨b1, rfl, rfl⟩ | ⟨a2, rfl, rfl⟩
    · obtain ⟨d, he⟩ := dead_step (hA s (by simp)) st
      refine ⟨by simp [hc, he], a ++ s' :: b1, B, by simp, by simpa using hl, ?_, hB⟩
      intro t mt
      simp only [List.mem_append, List.mem_cons] at mt
      rcases mt with mt | rfl | mt
      · exact hA t (by simp [mt])
      · exact d
      · exact hA t (by simp [mt])
    · rw [room] at st
      obtain ⟨d, he⟩ := shut_step (hB s (by simp)) st
      refine ⟨by simp [hc, he], A, a2 ++ s' :: b, by simp, hl, hA, ?_⟩
      intro t mt
      simp only [List.mem_append, List.mem_cons] at mt
      rcases mt with mt | rfl | mt
      · exact hB t (by simp [mt])
      · exact d
      · exact hB t (by simp [mt])

/-- One connection sent one message, whose handler panicked. -/
private def corpse (q : Request) : ConnSt :=
  ⟨.gone, .reading, [(q, .done)], [q], [q],
    [.state .new, .state (requestState q), .handle q, .state .closed, .close], true⟩

private theorem kill {m : Int} {v0 : Srv} (q : Request) (k : Nat) (cs : List ConnSt)
    (hr : hasRoom m k = true) (h : Srv.PSteps true m v0 ⟨k, 1, cs, false⟩) :
    Srv.PSteps true m v0 ⟨(k + 1 : Nat), 1, cs ++ [corpse q], false⟩ := by
  let t : List SrvEvent := [.state .new]
  let c (p : Phase) (t : List SrvEvent) : ConnSt := ⟨p, .off, [], [], [], t, false⟩
  let u : List SrvEvent := [.state .new, .state (requestState q)]
  have h1 : Srv.PSteps true m v0 ⟨k, 0, cs ++ [c .accepted []], false⟩ :=
    .tail h (.accept _ (Nat.one_pos))
  have h2 : Srv.PSteps true m v0 ⟨k, 0, cs ++ [c .reported t], false⟩ :=
    go h1 cs [] rfl (.step _ _ _ (.new _ rfl)) (by simp [c, t])
  have h3 : Srv.PSteps true m v0 ⟨k, 0, cs ++ [c .admitted t], false⟩ :=
    go h2 cs [] rfl (.step _ _ _ (.admit _ rfl hr)) (by simp [c])
  have h4 : Srv.PSteps true m v0 ⟨(k + 1 : Nat), 1, cs ++ [c .queued t], false⟩ :=
    go h3 cs [] rfl (.step _ _ _ (.add _ rfl)) (by simp [c])
  have h5 : Srv.PSteps true m v0
      ⟨(k + 1 : Nat), 1, cs ++ [⟨.loop, .reading, [], [], [], t, false⟩], false⟩ :=
    go h4 cs [] rfl (.step _ _ _ (.start _ rfl)) (by simp [c])
  have h6 : Srv.PSteps true m v0
      ⟨(k + 1 : Nat), 1, cs ++ [⟨.loop, .offer q, [], [q], [], t, false⟩], false⟩ :=
    go h5 cs [] rfl (.step _ _ _ (.receive _ q rfl)) (by simp)
  have h7 : Srv.PSteps true m v0
      ⟨(k + 1 : Nat), 1, cs ++ [⟨.busy, .reading, [(q, .pending)], [q], [q], t, false⟩], false⟩ :=
    go h6 cs [] rfl (.step _ _ _ (.deliver _ q rfl rfl)) (by simp)
  have h8 : Srv.PSteps true m v0
      ⟨(k + 1 : Nat), 1, cs ++ [⟨.busy, .reading, [(q, .active)], [q], [q], u, false⟩], false⟩ :=
    go h7 cs [] rfl (.step _ _ _ (.taskActive _ [] q [] rfl)) (by simp [t, u])
  have h9 : Srv.PSteps true m v0
      ⟨(k + 1 : Nat), 1, cs ++ [⟨.closing, .reading, [(q, .done)], [q], [q],
        u ++ [.handle q], true⟩], false⟩ :=
    go h8 cs [] rfl (.taskHandle _ [] q [] rfl) (by simp)
  have h10 : Srv.PSteps true m v0
      ⟨(k + 1 : Nat), 1, cs ++ [⟨.closingNet, .reading, [(q, .done)], [q], [q],
        u ++ [.handle q, .state .closed], true⟩], false⟩ :=
    go h9 cs [] rfl (.step _ _ _ (.closeState _ rfl)) (by simp)
  exact go h10 cs [] rfl (.step _ _ _ (.closeNet _ rfl)) (by simp [corpse, u])

/-- C76 is false for the slots of `MaxConns` and for the receiving goroutines, when the
handlers run on the goroutine that serves the connection: `m` connections that each send one
message whose handler panics are all closed, and from then on, whatever happens, the server
serves nobody: it takes no request from any connection it accepts later, and the `m`
receiving goroutines never end. -/
theorem panic_slot_false (m : Nat) (h0 : 0 < m) (h1 : m < 2 ^ 31) (q : Request) :
    ∃ v, Srv.PSteps true m (.init 1) v ∧ v.cs.length = m ∧ v.free = 1 ∧ v.stopped = false ∧
      (∀ s ∈ v.cs, timesClosed s.trace = 1 ∧ handledRequests s.trace = [q]) ∧
      ∀ v', Srv.PSteps true m v v' →
        v'.cs.countP Served = 0 ∧
        (∀ s ∈ v'.cs.take m, s.rcv ≠ .ended) ∧
        (∀ s ∈ v'.cs.drop m, s.dispatched = []) := by
  have build : ∀ k, k ≤ m → Srv.PSteps true m (.init 1)
      ⟨k, 1, List.replicate k (corpse q), false⟩ := by
    intro k
    induction k with
    | zero => intro _; exact .refl _
    | succ k ih =>
      intro hk
      have := kill q k _ (by
        simp [hasRoom, toInt32_small (m := (m : Int)) (by omega) (by omega)]; omega) (ih (by omega))
      rwa [← List.replicate_succ'] at this
  refine ⟨_, build m (Nat.le_refl m), by simp, rfl, rfl, ?_, ?_⟩
  · intro s hs
    rw [(List.mem_replicate.1 hs).2]
    exact ⟨rfl, rfl⟩
  · intro v' hv
    have ex : Exhausted m v' := by
      induction hv with
      | refl =>
        refine ⟨rfl, List.replicate m (corpse q), [], by simp, by simp, ?_, by simp⟩
        intro s hs
        rw [(List.mem_replicate.1 hs).2]
        exact ⟨rfl, by simp [corpse], by simp [corpse]⟩
      | tail _ st ih => exact exhausted_step h0 h1 ih st
    obtain ⟨_, A, B, hs, hl, hA, hB⟩ := ex
    refine ⟨?_, ?_, ?_⟩
    · rw [List.countP_eq_zero, hs]
      intro s hm
      rcases List.mem_append.1 hm with hm | hm
      · simp [Served, (hA s hm).1]
      · rcases (hB s hm).1 with e | e | e | e | e <;> simp [Served, e]
    · rw [hs, ← hl, List.take_left]
      exact fun s hm => (hA s hm).2.2
    · rw [hs, ← hl, List.drop_left]
      exact fun s hm => (hB s hm).2.2.2

/-- Non-vacuity: a server with two slots; the handler of the first connection panics on a
goroutine of its own, and the connection is served on. -/
example : ∃ v, Srv.PSteps false 2 (.init 1) v ∧ v.stopped = false ∧ v.conns = 1 ∧
    v.cs.map (fun s => (s.phase, handledRequests s.trace)) = [(.loop, [Request.zero])] ∧
    reportedStates (v.cs.flatMap (·.trace)) = [.new, .handshake] := by
  let q := Request.zero
  let t : List SrvEvent := [.state .new]
  let c (p : Phase) (t : List SrvEvent) : ConnSt := ⟨p, .off, [], [], [], t, false⟩
  have h1 : Srv.PSteps false 2 (.init 1) ⟨0, 0, [c .accepted []], false⟩ :=
    .tail (.refl _) (.accept _ (by decide))
  have h2 : Srv.PSteps false 2 (.init 1) ⟨0, 0, [c .reported t], false⟩ :=
    go h1 [] [] rfl (.step _ _ _ (.new _ rfl)) rfl
  have h3 : Srv.PSteps false 2 (.init 1) ⟨0, 0, [c .admitted t], false⟩ :=
    go h2 [] [] rfl (.step _ _ _ (.admit _ rfl rfl)) rfl
  have h4 : Srv.PSteps false 2 (.init 1) ⟨1, 1, [c .queued t], false⟩ :=
    go h3 [] [] rfl (.step _ _ _ (.add _ rfl)) rfl
  have h5 : Srv.PSteps false 2 (.init 1)
      ⟨1, 1, [⟨.loop, .reading, [], [], [], t, false⟩], false⟩ :=
    go h4 [] [] rfl (.step _ _ _ (.start _ rfl)) rfl
  have h6 : Srv.PSteps false 2 (.init 1)
      ⟨1, 1, [⟨.loop, .offer q, [], [q], [], t, false⟩], false⟩ :=
    go h5 [] [] rfl (.step _ _ _ (.receive _ q rfl)) rfl
  have h7 : Srv.PSteps false 2 (.init 1)
      ⟨1, 1, [⟨.loop, .reading, [(q, .pending)], [q], [q], t, false⟩], false⟩ :=
    go h6 [] [] rfl (.step _ _ _ (.deliver _ q rfl rfl)) rfl
  have h8 : Srv.PSteps false 2 (.init 1)
      ⟨1, 1, [⟨.loop, .reading, [(q, .active)], [q], [q], t ++ [.state .handshake], false⟩], false⟩ :=
    go h7 [] [] rfl (.step _ _ _ (.taskActive _ [] q [] rfl)) rfl
  have h9 : Srv.PSteps false 2 (.init 1)
      ⟨1, 1, [⟨.loop, .reading, [(q, .done)], [q], [q],
        t ++ [.state .handshake] ++ [.handle q], false⟩], false⟩ :=
    go h8 [] [] rfl (.taskHandle _ [] q [] rfl) rfl
  exact ⟨_, h9, rfl, rfl, rfl, rfl⟩

end Verif.Props
