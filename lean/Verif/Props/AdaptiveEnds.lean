import Verif.Props.Adaptive

/-!
# C97: serving ends, also with handlers that look at the results of their writes

A handler that looks at the results of its operations is a tree without infinite branches
(`Prog`).  It may branch infinitely, so that there need not be a bound on what it does; still it
ends, and so does the connection, in every execution: also when writes fail, when the connection
is closed under the handler, and when the transport fails.
-/

namespace Verif.Props

variable {ω : Type}

variable {seq : Bool} {call : ω → Call ⊕ Option Err} {prog : Nat → Request → List ω} {may : May ω} {fin : ω} {r : Rd}
  {T : Request → Prog ω}

/-! ## What handlers have still to do -/

/-- The rest of a handler after an operation. -/
private def Child (p' p : Prog ω) : Prop := ∃ o k e, p = .op o k ∧ p' = k e

private theorem child_wf : WellFounded (Child : Prog ω → Prog ω → Prop) := by
  refine ⟨fun p => ?_⟩
  induction p with
  | done => exact ⟨_, fun p' ⟨o, k, e, h, _⟩ => by simp at h⟩
  | op o k ih =>
    refine ⟨_, fun p' ⟨o', k', e, h, h'⟩ => ?_⟩
    simp only [Prog.op.injEq] at h
    obtain ⟨_, rfl⟩ := h
    subst h'
    exact ih e

/-- A handler that has returned comes after all others; one that waits for its operation after
one that has it to do. -/
private inductive Later : Option (Prog ω × Bool) → Option (Prog ω × Bool) → Prop where
  | ret (x) : Later none (some x)
  | issued (p) : Later (some (p, false)) (some (p, true))
  | back {p' p} (b b') (h : Child p' p) : Later (some (p', b')) (some (p, b))

private theorem later_wf : WellFounded (Later : Option (Prog ω × Bool) → Option (Prog ω × Bool) → Prop) := by
  have h0 : Acc (Later : Option (Prog ω × Bool) → _ → Prop) none := ⟨_, fun y h => by cases h⟩
  have h1 : ∀ p : Prog ω, Acc Child p → ∀ b, Acc Later (some (p, b)) := by
    intro p hp
    induction hp with
    | intro p _ ih =>
      have hf : Acc Later (some (p, false)) := ⟨_, fun y h => by
        cases h with
        | ret => exact h0
        | back _ b' h => exact ih _ h b'⟩
      intro b
      cases b with
      | false => exact hf
      | true => exact ⟨_, fun y h => by
          cases h with
          | ret => exact h0
          | issued => exact hf
          | back _ b' h => exact ih _ h b'⟩
  refine ⟨fun x => ?_⟩
  cases x with
  | none => exact h0
  | some x => exact h1 x.1 (child_wf.apply _) x.2

/-- One of the first `N` handlers goes on, the others are where they were. -/
private def OneLater (N : Nat) (f' f : Nat → Option (Prog ω × Bool)) : Prop :=
  ∃ i, i < N ∧ (∀ j, j ≠ i → f' j = f j) ∧ Later (f' i) (f i)

private theorem oneLater_wf (N : Nat) : WellFounded (OneLater N : (Nat → Option (Prog ω × Bool)) → _ → Prop) := by
  induction N with
  | zero => exact ⟨fun f => ⟨_, fun f' ⟨i, hi, _⟩ => by omega⟩⟩
  | succ N ih =>
    have key : ∀ a : Option (Prog ω × Bool), Acc Later a → ∀ f, Acc (OneLater N) f → f N = a → Acc (OneLater (N + 1)) f := by
      intro a ha
      induction ha with
      | intro a _ ih1 =>
        intro f hf
        induction hf with
        | intro f _ ih2 =>
          intro hN
          refine ⟨_, fun f' ⟨i, hi, hne, hl⟩ => ?_⟩
          by_cases h : i = N
          · subst h
            rw [hN] at hl
            exact ih1 _ hl f' (ih.apply f') rfl
          · exact ih2 f' ⟨i, by omega, hne, hl⟩ (by rw [hne N (by omega), hN])
    exact ⟨fun f => key _ (later_wf.apply _) f (ih.apply f) rfl⟩

/-- What a goroutine is executing and has been told to execute. -/
private def pend (n : NetSys ω) (k : Nat) : List ω := (n.go.th k).current ++ (n.go.th k).todo

private theorem pend_nil {n : NetSys ω} {k : Nat} : pend n k = [] ↔ n.go.th k = ⟨[], none⟩ := by
  unfold pend
  cases n.go.th k with
  | mk todo pc =>
    cases pc with
    | none => simp [GoThread.current]
    | some x => simp [GoThread.current]

private theorem net_pend {n n' : NetSys ω} (h : NetSys.Step call n n') :
    (n'.go.log = n.go.log ∧ ∀ k, pend n' k = pend n k) ∨
    ∃ i op e, n'.go.log = n.go.log ++ [(i, op, e)] ∧ pend n i = op :: pend n' i ∧ ∀ k, k ≠ i → pend n' k = pend n k := by
  have same : ∀ (g : GoSys ω BW NetPos (Option Err)) (c : Bool) (i : Nat) (t : GoThread ω NetPos), g.th = n.go.set i t →
      t.current ++ t.todo = pend n i → ∀ k, pend ⟨g, c⟩ k = pend n k := by
    intro g c i t hg ht k
    by_cases hk : k = i
    · subst hk; rw [← ht]; simp [pend, hg, GoSys.set]
    · simp [pend, hg, GoSys.set, hk]
  have other : ∀ (g : GoSys ω BW NetPos (Option Err)) (c : Bool) (i : Nat) (t : GoThread ω NetPos), g.th = n.go.set i t →
      ∀ k, k ≠ i → pend ⟨g, c⟩ k = pend n k := by
    intro g c i t hg k hk
    simp [pend, hg, GoSys.set, hk]
  cases h with
  | close hc => exact .inl ⟨rfl, fun _ => rfl⟩
  | reset j op q m ctx e ht hc => exact .inl ⟨rfl, same _ _ j _ rfl (by simp [pend, GoThread.current, ht])⟩
  | take j op x q m ctx ht hc => exact .inl ⟨rfl, same _ _ j _ rfl (by simp [pend, GoThread.current, ht])⟩
  | sure h =>
    cases h with
    | abort j op q m ctx ht hc => exact .inl ⟨rfl, same _ _ j _ rfl (by simp [pend, GoThread.current, ht])⟩
    | go c' h =>
      cases h with
      | skip j op rest e ht hc =>
        exact .inr ⟨j, op, e, rfl, by simp [pend, GoThread.current, ht, GoSys.set], other _ _ j _ rfl⟩
      | lock j op rest k ht hc hm => exact .inl ⟨rfl, same _ _ j _ rfl (by simp [pend, GoThread.current, ht])⟩
      | step j todo op m m' sh' ht hs => exact .inl ⟨rfl, same _ _ j _ rfl (by simp [pend, GoThread.current, ht])⟩
      | unlock j todo op m e ht he =>
        exact .inr ⟨j, op, e, rfl, by simp [pend, GoThread.current, ht, GoSys.set], other _ _ j _ rfl⟩

private theorem after_append (p : Prog ω) (es es' : List (Option Err)) : p.after (es ++ es') = (p.after es).after es' := by
  induction es generalizing p with
  | nil => cases p <;> simp [Prog.after]
  | cons e es ih =>
    cases p with
    | done =>
      have : ∀ l, (Prog.done : Prog ω).after l = .done := fun l => by cases l <;> rfl
      rw [this, this, this]
    | op o k => exact ih (k e)

private theorem own_append (k i : Nat) (log : List (Nat × ω × Option Err)) (op : ω) (e : Option Err) :
    ownResults k (log ++ [(i, op, e)]) = if i = k then ownResults k log ++ [e] else ownResults k log := by
  by_cases h : i = k <;> simp [ownResults, h]

/-- What a handler has still to do. -/
private def rest (T : Request → Prog ω) (s : Act ω) (k : Nat) (q : Request) : Prog ω :=
  (T q).after (ownResults k s.live.net.go.log)

/-- A handler that waits for an operation waits for the one it has chosen. -/
private def Waits (T : Request → Prog ω) (s : Act ω) : Prop :=
  ∀ k q, s.live.srv.tasks[k]? = some (q, .active) → s.ret k = false → pend s.live.net k ≠ [] →
    ∃ o c, rest T s k q = .op o c ∧ pend s.live.net k = [o]

private theorem next_op {p : Prog ω} {o : ω} (h : p.next = some o) : ∃ c, p = .op o c := by
  cases p with
  | done => simp [Prog.next] at h
  | op o' c => simp only [Prog.next, Option.some.injEq] at h; subst h; exact ⟨c, rfl⟩

/-- Steps that are not steps of the handlers: no operation returns, and no goroutine is told to do
more. -/
private theorem live_quiet {s s' : Live ω} (st : Live.Step seq call (fun _ _ => []) s s') :
    (∃ n', NetSys.Step call s.net n' ∧ s' = { s with net := n' }) ∨
    (s'.net.go.log = s.net.go.log ∧ ∀ k, s'.net.go.th k = s.net.go.th k ∨ s'.net.go.th k = ⟨[], none⟩) := by
  cases st with
  | net n' st hc => exact .inl ⟨n', st, rfl⟩
  | begin a q b h =>
    refine .inr ⟨rfl, fun k => ?_⟩
    by_cases hk : k = a.length
    · right; simp [NetSys.spawn, GoSys.set, hk]
    · left; simp [NetSys.spawn, GoSys.set, hk]
  | _ => exact .inr ⟨rfl, fun k => .inl rfl⟩

private theorem pend_spawn (n : NetSys ω) (i k : Nat) (p : List ω) : pend (n.spawn i p) k = if k = i then p else pend n k := by
  by_cases hk : k = i <;> simp [pend, NetSys.spawn, GoSys.set, hk, GoThread.current]

private theorem waits {s : Act ω} (h : Act.Steps seq call (mayOf T) fin (.init r) s) : Waits T s := by
  induction h with
  | refl => intro k q hk; simp [Act.init, Live.init, ConnSt.fresh] at hk
  | @tail s s' hs st ih =>
    cases st with
    | issue a q b o h hd hr hm =>
      intro k q' hk hret hp
      simp only [pend_spawn] at hp ⊢
      by_cases hka : k = a.length
      · subst hka
        have hq : q' = q := by
          have : s.live.srv.tasks[a.length]? = some (q, .active) := by rw [h]; simp
          simp only [this, Option.some.injEq, Prod.mk.injEq] at hk
          exact hk.1.symm
        subst hq
        obtain ⟨c, hc⟩ := next_op hm
        exact ⟨o, c, hc, by simp⟩
      · simp only [hka, if_false] at hp ⊢
        exact ih k q' hk hret hp
    | ret a q b h hd hr hm =>
      intro k q' hk hret hp
      by_cases hka : k = a.length
      · simp [hka] at hret
      · simp only [hka, if_false] at hret
        simp only [pend_spawn, hka, if_false] at hp ⊢
        exact ih k q' hk hret hp
    | live l' st hr =>
      intro k q hk hret hp
      obtain ⟨prog, g1, g2, g3⟩ := adaptive_live hs
      -- the handler was there
      have hwas : (∃ n', NetSys.Step call s.live.net n' ∧ l' = { s.live with net := n' }) ∨
          (l'.net.go.log = s.live.net.go.log ∧ s.live.srv.tasks[k]? = some (q, .active) ∧ pend l'.net k = pend s.live.net k) := by
        rcases live_quiet st with hn | ⟨h1, h2⟩
        · exact .inl hn
        · right
          have hth : l'.net.go.th k = s.live.net.go.th k := by
            rcases h2 k with h2 | h2
            · exact h2
            · exact absurd (pend_nil.mpr h2) hp
          have hpe : pend l'.net k = pend s.live.net k := by simp only [pend, hth]
          refine ⟨h1, ?_, hpe⟩
          have hbusy : ¬ ∀ q pc, s.live.srv.tasks[k]? = some (q, pc) → pc = .pending := by
            intro hc
            have := NetSys.idle (Live.net_run g1) k (by
              simp only [progsOf]
              cases ht : s.live.srv.tasks[k]? with
              | none => rfl
              | some t => obtain ⟨q', pc⟩ := t; rw [hc q' pc ht]; rfl)
            exact hp (by rw [hpe]; exact pend_nil.mpr this)
          cases ht : s.live.srv.tasks[k]? with
          | none => exact absurd (fun q pc h => by rw [ht] at h; simp at h) hbusy
          | some t =>
            obtain ⟨q', pc⟩ := t
            obtain ⟨pc', g4, g5⟩ := st.rank k q' pc ht
            rw [hk] at g4
            simp only [Option.some.injEq, Prod.mk.injEq] at g4
            obtain ⟨rfl, rfl⟩ := g4
            cases pc with
            | pending =>
              exact absurd (fun q pc h => by rw [ht] at h; simp only [Option.some.injEq, Prod.mk.injEq] at h; exact h.2.symm) hbusy
            | active => rfl
            | handled => simp [TaskPc.rank] at g5
            | done => simp [TaskPc.rank] at g5
      rcases hwas with ⟨n', hn, rfl⟩ | ⟨h1, h2, h3⟩
      · rcases net_pend hn with ⟨h1, h2⟩ | ⟨i, op, e, h1, h2, h3⟩
        · simp only [h2] at hp ⊢
          obtain ⟨o, c, h4, h5⟩ := ih k q hk hret hp
          exact ⟨o, c, by simp only [rest, h1]; exact h4, h5⟩
        · by_cases hki : k = i
          · subst hki
            obtain ⟨o, c, h4, h5⟩ := ih k q hk hret (by rw [h2]; simp)
            rw [h2] at h5
            simp only [List.cons.injEq] at h5
            exact absurd h5.2 hp
          · simp only [h3 k hki] at hp ⊢
            obtain ⟨o, c, h4, h5⟩ := ih k q hk hret hp
            exact ⟨o, c, by simp only [rest, h1, own_append, if_neg (Ne.symm hki)]; exact h4, h5⟩
      · rw [h3] at hp
        obtain ⟨o, c, h4, h5⟩ := ih k q h2 hret hp
        exact ⟨o, c, by simp only [rest, h1]; exact h4, by rw [h3]; exact h5⟩

/-! ## Every step leaves less to do -/

/-- What the handlers that have not returned have still to do, and whether they wait. -/
private def leftOf (T : Request → Prog ω) (s : Act ω) (k : Nat) : Option (Prog ω × Bool) :=
  match s.live.srv.tasks[k]? with
  | some (q, .active) => if s.ret k then none else some (rest T s k q, (pend s.live.net k).isEmpty)
  | _ => none

private def actLeft (T : Request → Prog ω) (s : Act ω) :
    (Nat × Nat × Nat) × (Nat × (Nat → Option (Prog ω × Bool))) × Nat × Nat :=
  (toServe s.live, (s.live.srv.tasks.length, leftOf T s), s.live.net.go.left s.live.srv.tasks.length, s.live.net.work)

private abbrev HandlersLess (x y : Nat × (Nat → Option (Prog ω × Bool))) : Prop := x.1 = y.1 ∧ OneLater y.1 x.2 y.2

private theorem handlersLess_wf : WellFounded (HandlersLess : _ → Nat × (Nat → Option (Prog ω × Bool)) → Prop) := by
  have key : ∀ N (f : Nat → Option (Prog ω × Bool)), Acc (OneLater N) f → Acc HandlersLess (N, f) := by
    intro N f hf
    induction hf with
    | intro f _ ih =>
      refine ⟨_, fun ⟨N', f'⟩ ⟨h1, h2⟩ => ?_⟩
      simp only at h1 h2
      subst h1
      exact ih f' h2
  exact ⟨fun ⟨N, f⟩ => key N f ((oneLater_wf N).apply f)⟩

private abbrev ActLess :
    (Nat × Nat × Nat) × (Nat × (Nat → Option (Prog ω × Bool))) × Nat × Nat →
    (Nat × Nat × Nat) × (Nat × (Nat → Option (Prog ω × Bool))) × Nat × Nat → Prop :=
  Prod.Lex ToServeLess (Prod.Lex HandlersLess (Prod.Lex (· < ·) (· < ·)))

private theorem actLess_wf : WellFounded (ActLess (ω := ω)) :=
  (Prod.lex (ha := ⟨_, toServeLess_wf⟩) (hb := Prod.lex (ha := ⟨_, handlersLess_wf⟩)
    (hb := Prod.lex (ha := ⟨_, Nat.lt_wfRel.wf⟩) (hb := ⟨_, Nat.lt_wfRel.wf⟩)))).wf

private theorem act_less {F : Err} (hr : r.Ok F) {s s' : Act ω} (h : Act.Steps seq call (mayOf T) fin (.init r) s)
    (st : Act.Step seq call (mayOf T) fin s s') : ActLess (actLeft T s') (actLeft T s) := by
  cases st with
  | issue a q b o h hd hr hm =>
    have hk : s.live.srv.tasks[a.length]? = some (q, .active) := by rw [h]; simp
    refine .right _ (.left _ _ ⟨rfl, a.length, by rw [h]; simp, fun j hj => ?_, ?_⟩)
    · simp only [leftOf, rest, pend_spawn, if_neg hj]
      rfl
    · simp only [leftOf, hk, hr, pend_spawn, if_true, pend_nil.mpr hd]
      exact .issued _
  | ret a q b h hd hr hm =>
    have hk : s.live.srv.tasks[a.length]? = some (q, .active) := by rw [h]; simp
    refine .right _ (.left _ _ ⟨rfl, a.length, by rw [h]; simp, fun j hj => ?_, ?_⟩)
    · simp only [leftOf, rest, pend_spawn, if_neg hj]
      rfl
    · simp only [leftOf, hk, hr, if_true]
      exact .ret _
  | live l' st hr' =>
    obtain ⟨prog, g1, g2, g3⟩ := adaptive_live h
    have st' : Live.Step seq call prog s.live l' := st.congr fun k q _ h2 => (g2 k fun q' pc h => by
      rw [h2] at h
      simp only [Option.some.injEq, Prod.mk.injEq] at h
      exact h.2.symm) q
    rcases live_falls st' hr g1 with hl | ⟨n', hn, rfl⟩
    · exact .left _ _ hl
    · have hdec := NetSys.decreases s.live.srv.tasks.length (fun i hi => by
        simp only [progsOf]; rw [List.getElem?_eq_none hi]; rfl) (Live.net_run g1) hn
      have same : leftOf T { s with live := { s.live with net := n' } } = leftOf T s →
          ActLess (actLeft T { s with live := { s.live with net := n' } }) (actLeft T s) := by
        intro he
        refine .right _ ?_
        simp only [he]
        refine .right _ ?_
        rcases hdec with hd | ⟨hd1, hd2⟩
        · exact .left _ _ hd
        · simp only [hd1]; exact .right _ hd2
      rcases net_pend hn with ⟨h1, h2⟩ | ⟨i, op, e, h1, h2, h3⟩
      · refine same (funext fun k => ?_)
        simp only [leftOf, rest, h1, h2]
      · have hne : ∀ j, j ≠ i → leftOf T { s with live := { s.live with net := n' } } j = leftOf T s j := by
          intro j hj
          simp only [leftOf, rest, h1, own_append, if_neg (Ne.symm hj), h3 j hj]
        by_cases hact : ∃ q, s.live.srv.tasks[i]? = some (q, .active) ∧ s.ret i = false
        · obtain ⟨q, hq1, hq2⟩ := hact
          obtain ⟨o, c, h4, h5⟩ := waits h i q hq1 hq2 (by rw [h2]; simp)
          refine .right _ (.left _ _ ⟨rfl, i, (List.getElem?_eq_some_iff.mp hq1).1, hne, ?_⟩)
          have : rest T { s with live := { s.live with net := n' } } i q = c e := by
            simp only [rest, h1, own_append, if_true, after_append] at h4 ⊢
            rw [h4]
            simp [Prog.after]
          simp only [leftOf, hq1, hq2, this, h4]
          exact .back _ _ ⟨o, c, e, rfl, rfl⟩
        · refine same (funext fun k => ?_)
          by_cases hk : k = i
          · subst hk
            simp only [leftOf]
            split
            · rename_i q hq
              have : s.ret k = true := by
                cases hret : s.ret k with
                | true => rfl
                | false => exact absurd ⟨q, hq, hret⟩ hact
              simp [this]
            · rfl
          · exact hne k hk

/-- C97.  Serving a connection ends, whatever the runner, the transport and the interleaving are and
whatever the handlers do about failed writes, provided the peer sends only finitely many bytes:
there is no infinite execution.  No fairness is assumed. -/
theorem adaptive_terminates (seq : Bool) (call : ω → Call ⊕ Option Err) (T : Request → Prog ω) (fin : ω) (F : Err) (r : Rd)
    (hr : r.Ok F) (ex : Nat → Act ω) (h0 : ex 0 = .init r) :
    ¬ ∀ n, Act.Step seq call (mayOf T) fin (ex n) (ex (n + 1)) := by
  intro h
  have hsteps : ∀ n, Act.Steps seq call (mayOf T) fin (.init r) (ex n) := by
    intro n
    induction n with
    | zero => rw [h0]; exact .refl
    | succ n ih => exact .tail ih (h n)
  have key : ∀ x, Acc ActLess x → ∀ n, actLeft T (ex n) ≠ x := by
    intro x hx
    induction hx with
    | intro x _ ih =>
      intro n hn
      exact ih _ (by rw [← hn]; exact act_less hr (hsteps n) (h n)) (n + 1) rfl
  exact key _ (actLess_wf.apply _) 0 rfl

/-! ## No deadlock -/

private theorem handled_idle {s s' : Live ω} (st : Live.Step seq call prog s s') (k : Nat) (q : Request)
    (h : s.srv.tasks[k]? = some (q, .active)) (h' : s'.srv.tasks[k]? = some (q, .handled)) : s.net.go.th k = ⟨[], none⟩ := by
  have split : ∀ (a b : List (Request × TaskPc)) (q₀ : Request) (x y : TaskPc),
      (a ++ (q₀, x) :: b)[k]? = some (q, .active) → (a ++ (q₀, y) :: b)[k]? = some (q, .handled) → k = a.length ∧ y = .handled := by
    intro a b q₀ x y h1 h2
    by_cases hk : k < a.length
    · rw [List.getElem?_append_left hk] at h1 h2; rw [h1] at h2; simp at h2
    · rw [List.getElem?_append_right (by omega)] at h1 h2
      cases hd : k - a.length with
      | zero => rw [hd] at h2; simp at h2; exact ⟨by omega, h2.2⟩
      | succ d => rw [hd] at h1 h2; simp only [List.getElem?_cons_succ] at h1 h2; rw [h1] at h2; simp at h2
  cases st with
  | handled a q' b ht hd =>
    rw [ht] at h
    obtain ⟨rfl, _⟩ := split a b q' _ _ h h'
    exact hd
  | begin a q' b ht =>
    rw [ht] at h
    have := (split a b q' _ _ h h').2
    simp at this
  | other eff srv' room stopped st hq =>
    obtain ⟨hq1, hq2, t, hq3, hq4⟩ := hq
    cases st with
    | taskHandle a q' b ht =>
      have := hq4 (.handle q') (by have := List.append_cancel_left hq3; rw [← this]; simp)
      simp at this
    | taskActive a q' b ht =>
      rw [ht] at h
      have := (split a b q' _ _ h h').2
      simp at this
    | taskDone a q' b ht =>
      rw [ht] at h
      have := (split a b q' _ _ h h').2
      simp at this
    | deliver q' hp hr =>
      have hk : k < s.srv.tasks.length := (List.getElem?_eq_some_iff.mp h).1
      simp only at h'
      rw [List.getElem?_append_left hk, h] at h'
      simp at h'
    | _ => rw [h] at h'; simp at h'
  | _ => rw [h] at h'; simp at h'

private theorem spawn_not_failed {n : NetSys ω} (hf : ¬ TransportFailed n) (k : Nat) (p : List ω) :
    ¬ TransportFailed (n.spawn k p) := by
  rintro ⟨h1, i, op, q, m, e, a, h2⟩
  refine hf ⟨h1, i, op, q, m, e, a, ?_⟩
  by_cases hi : i = k
  · simp [NetSys.spawn, GoSys.set, hi] at h2
  · simpa [NetSys.spawn, GoSys.set, hi] using h2

/-- Some handler is to choose its next operation, or what the connection does is what it does for
handlers that have made up their minds. -/
private theorem act_or_live {s : Act ω} (h : Act.Steps seq call (mayOf T) fin (.init r) s) :
    (∃ (s' : Act ω) (k : Nat) (p : List ω), Act.Step seq call (mayOf T) fin s s' ∧
      s'.live = { s.live with net := s.live.net.spawn k p }) ∨
    ∃ prog, Live.Steps seq call prog (.init r) s.live ∧
      ∀ l', Live.Step seq call prog s.live l' → Act.Step seq call (mayOf T) fin s { s with live := l' } := by
  by_cases hx : ∃ k q, s.live.srv.tasks[k]? = some (q, .active) ∧ s.ret k = false ∧ s.live.net.go.th k = ⟨[], none⟩
  · left
    obtain ⟨k, q, h1, h2, h3⟩ := hx
    obtain ⟨hk, h1⟩ := List.getElem?_eq_some_iff.mp h1
    have hs : s.live.srv.tasks = s.live.srv.tasks.take k ++ (q, .active) :: s.live.srv.tasks.drop (k + 1) := by
      rw [← h1, ← List.drop_eq_getElem_cons hk, List.take_append_drop]
    have hl : (s.live.srv.tasks.take k).length = k := by simp; omega
    cases hn : ((T q).after (ownResults k s.live.net.go.log)).next with
    | some o =>
      refine ⟨_, k, [o], .issue s _ q _ o hs (by rw [hl]; exact h3) (by rw [hl]; exact h2) (by rw [hl]; exact hn), ?_⟩
      simp only [hl]
    | none =>
      refine ⟨_, k, [fin], .ret s _ q _ hs (by rw [hl]; exact h3) (by rw [hl]; exact h2) (by rw [hl]; exact hn), ?_⟩
      simp only [hl]
  · right
    obtain ⟨prog, g1, g2, g3⟩ := adaptive_live h
    refine ⟨prog, g1, fun l' st => .live s l' (st.congr fun k q _ h2 => ?_) fun k q h1 h2 => ?_⟩
    · exact ((g2 k fun q' pc h => by
        rw [h2] at h
        simp only [Option.some.injEq, Prod.mk.injEq] at h
        exact h.2.symm) q).symm
    · cases hret : s.ret k with
      | true => rfl
      | false => exact absurd ⟨k, q, h1, hret, handled_idle st k q h1 h2⟩ hx

/-- C97.  As long as a handler has not finished, one of the handlers, or the peer reading what it is
sent, can go on. -/
theorem adaptive_handlers_progress (seq : Bool) (call : ω → Call ⊕ Option Err) (T : Request → Prog ω) (fin : ω) (r : Rd)
    (s : Act ω) (h : Act.Steps seq call (mayOf T) fin (.init r) s) (ht : ¬ ∀ t ∈ s.live.srv.tasks, t.2 = .done) :
    ∃ s', Act.Step seq call (mayOf T) fin s s' ∧ s'.live.rd = s.live.rd ∧
      s'.live.srv.dispatched = s.live.srv.dispatched ∧ s'.live.net.closed = s.live.net.closed ∧
      s'.live.srv.leaked = s.live.srv.leaked ∧ (¬ TransportFailed s.live.net → ¬ TransportFailed s'.live.net) := by
  rcases act_or_live h with ⟨s', k, p, h1, h2⟩ | ⟨prog, h1, h2⟩
  · refine ⟨s', h1, ?_⟩
    rw [h2]
    exact ⟨rfl, rfl, rfl, rfl, fun hf => spawn_not_failed hf k p⟩
  · obtain ⟨l', g1, g2⟩ := served_handlers_progress seq call prog r s.live h1 ht
    exact ⟨_, h2 l' g1, g2⟩

/-- C97.  No deadlock: until the connection is closed and all handlers have finished, something can
happen, with a peer that reads what it is sent, and without the help of a stop or of a failing
transport. -/
theorem adaptive_progress (seq : Bool) (call : ω → Call ⊕ Option Err) (T : Request → Prog ω) (fin : ω) (F : Err) (r : Rd)
    (hr : r.Ok F) (s : Act ω) (h : Act.Steps seq call (mayOf T) fin (.init r) s)
    (hn : ¬ (s.live.srv.phase = .gone ∧ ∀ t ∈ s.live.srv.tasks, t.2 = .done)) :
    ∃ s', Act.Step seq call (mayOf T) fin s s' ∧ s'.live.srv.leaked = s.live.srv.leaked ∧
      (¬ TransportFailed s.live.net → ¬ TransportFailed s'.live.net) := by
  rcases act_or_live h with ⟨s', k, p, h1, h2⟩ | ⟨prog, h1, h2⟩
  · refine ⟨s', h1, ?_⟩
    rw [h2]
    exact ⟨rfl, fun hf => spawn_not_failed hf k p⟩
  · obtain ⟨l', g1, g2⟩ := served_progress seq call prog F r hr s.live h1 hn
    exact ⟨_, h2 l' g1, g2⟩

/-- C97.  Where an execution cannot go on, the connection is closed and all handlers have returned,
whatever has failed.  With `adaptive_terminates`: every execution that goes on as long as it can
gets there. -/
theorem adaptive_ends (seq : Bool) (call : ω → Call ⊕ Option Err) (T : Request → Prog ω) (fin : ω) (F : Err) (r : Rd)
    (hr : r.Ok F) (s : Act ω) (h : Act.Steps seq call (mayOf T) fin (.init r) s)
    (hn : ∀ s', ¬ Act.Step seq call (mayOf T) fin s s') :
    s.live.srv.phase = .gone ∧ s.live.net.closed = true ∧ (∀ t ∈ s.live.srv.tasks, t.2 = .done) ∧
    ∀ k q, s.live.srv.dispatched[k]? = some q → s.ret k = true := by
  have hd : s.live.srv.phase = .gone ∧ ∀ t ∈ s.live.srv.tasks, t.2 = .done := by
    refine Classical.byContradiction fun hc => ?_
    obtain ⟨s', g, _⟩ := adaptive_progress seq call T fin F r hr s h hc
    exact hn s' g
  obtain ⟨prog, g1, _, g3⟩ := adaptive_live h
  refine ⟨hd.1, (live_closed g1).mpr hd.1, hd.2, fun k q hk => ?_⟩
  rw [← tasks_dispatched seq _ (Live.srv_reach g1), List.getElem?_map] at hk
  obtain ⟨⟨q', pc⟩, h1, rfl⟩ := Option.map_eq_some_iff.mp hk
  refine g3 k q' pc h1 ?_
  have := hd.2 (q', pc) (List.mem_of_getElem? h1)
  simp only at this
  subst this
  decide

private theorem act_trans {s s' s'' : Act ω} (h : Act.Steps seq call may fin s s') (g : Act.Steps seq call may fin s' s'') :
    Act.Steps seq call may fin s s'' := by
  induction g with
  | refl => exact h
  | tail _ st ih => exact .tail ih st

/-- Following steps as long as there are any. -/
private theorem act_follow {F : Err} (hr : r.Ok F) (P : Act ω → Prop) (Q : Act ω → Act ω → Prop) (hQ : ∀ s, Q s s)
    (hQ' : ∀ s s' s'', Q s s' → Q s' s'' → Q s s'')
    (hp : ∀ s, Act.Steps seq call (mayOf T) fin (.init r) s → ¬ P s →
      ∃ s', Act.Step seq call (mayOf T) fin s s' ∧ Q s s' ∧ (¬ TransportFailed s.live.net → ¬ TransportFailed s'.live.net))
    (s : Act ω) (h : Act.Steps seq call (mayOf T) fin (.init r) s) :
    ∃ s', Act.Steps seq call (mayOf T) fin s s' ∧
      (¬ TransportFailed s.live.net → Act.Calm seq call (mayOf T) fin s s') ∧ Q s s' ∧ P s' := by
  have key : ∀ x, Acc ActLess x → ∀ s, actLeft T s = x → Act.Steps seq call (mayOf T) fin (.init r) s →
      ∃ s', Act.Steps seq call (mayOf T) fin s s' ∧
        (¬ TransportFailed s.live.net → Act.Calm seq call (mayOf T) fin s s') ∧ Q s s' ∧ P s' := by
    intro x hx
    induction hx with
    | intro x _ ih =>
      intro s hs h
      by_cases hn : P s
      · exact ⟨s, .refl, fun _ => .refl, hQ s, hn⟩
      · obtain ⟨s₁, h1, h2, h3⟩ := hp s h hn
        obtain ⟨s', g1, g2, g3, g4⟩ := ih _ (by rw [← hs]; exact act_less hr h h1) s₁ rfl (.tail h h1)
        exact ⟨s', act_trans (.tail .refl h1) g1, fun hf => (Act.Calm.tail .refl h1 (h3 hf)).trans (g2 (h3 hf)),
          hQ' _ _ _ h2 g3, g4⟩
  exact key _ (actLess_wf.apply _) s rfl h

/-- C97.  What has been received gets handled without anything else being received, wherever the
connection is and whatever has failed: the handlers alone (with a peer that reads) can go on until
all of them have finished. -/
theorem adaptive_drains_any (seq : Bool) (call : ω → Call ⊕ Option Err) (T : Request → Prog ω) (fin : ω) (F : Err) (r : Rd)
    (hr : r.Ok F) (s : Act ω) (h : Act.Steps seq call (mayOf T) fin (.init r) s) :
    ∃ s', Act.Steps seq call (mayOf T) fin s s' ∧
      (¬ TransportFailed s.live.net → Act.Calm seq call (mayOf T) fin s s') ∧
      (s'.live.rd = s.live.rd ∧ s'.live.srv.dispatched = s.live.srv.dispatched ∧ s'.live.net.closed = s.live.net.closed) ∧
      ∀ t ∈ s'.live.srv.tasks, t.2 = .done := by
  refine act_follow hr (fun s => ∀ t ∈ s.live.srv.tasks, t.2 = .done)
    (fun s s' => s'.live.rd = s.live.rd ∧ s'.live.srv.dispatched = s.live.srv.dispatched ∧
      s'.live.net.closed = s.live.net.closed) (fun _ => ⟨rfl, rfl, rfl⟩)
    (fun _ _ _ h g => ⟨g.1.trans h.1, g.2.1.trans h.2.1, g.2.2.trans h.2.2⟩) (fun s h hn => ?_) s h
  obtain ⟨s', g1, g2, g3, g4, _, g5⟩ := adaptive_handlers_progress seq call T fin r s h hn
  exact ⟨s', g1, ⟨g2, g3, g4⟩, g5⟩

/-- C97.  Any runner, wherever the connection is and whatever has failed: it can still be served to
the end, after which it is closed and all handlers have finished; if the transport has not failed,
without it failing. -/
theorem adaptive_finishes (seq : Bool) (call : ω → Call ⊕ Option Err) (T : Request → Prog ω) (fin : ω) (F : Err) (r : Rd)
    (hr : r.Ok F) (s : Act ω) (h : Act.Steps seq call (mayOf T) fin (.init r) s) :
    ∃ s', Act.Steps seq call (mayOf T) fin s s' ∧
      (¬ TransportFailed s.live.net → Act.Calm seq call (mayOf T) fin s s') ∧
      s'.live.srv.leaked = s.live.srv.leaked ∧ s'.live.srv.phase = .gone ∧ ∀ t ∈ s'.live.srv.tasks, t.2 = .done := by
  refine act_follow hr (fun s => s.live.srv.phase = .gone ∧ ∀ t ∈ s.live.srv.tasks, t.2 = .done)
    (fun s s' => s'.live.srv.leaked = s.live.srv.leaked) (fun _ => rfl)
    (fun _ _ _ h g => g.trans h) (fun s h hn => ?_) s h
  exact adaptive_progress seq call T fin F r hr s h hn

/-- A handler without a bound on what it does: how often it tries again depends on the error. -/
private def stubborn (q : Request) : Prog ConnOp :=
  .op (.respond q.header.version ⟨0, 3, 0, q.header.transaction⟩ none) fun
    | none => .done
    | some (.io n) => .ofList (List.replicate n (.respond q.header.version ⟨0, 3, 0, q.header.transaction⟩ none))
    | some _ => .op .flush fun _ => .done

/-- Non-vacuity: it is served to the end, with the default runner. -/
example : ∃ s : Act ConnOp, Act.Calm false ConnOp.call (mayOf stubborn) .flush
      (.init (.src (serialise [newRequest 2 (some fun _ => ⟨[9], 1, none⟩), newRequest 2 none]) [3, 8] .eof false)) s ∧
    s.live.srv.phase = .gone ∧ ∀ t ∈ s.live.srv.tasks, t.2 = .done := by
  obtain ⟨s', _, h2, _, h3, h4⟩ := adaptive_finishes false ConnOp.call stubborn .flush .eof
    (.src (serialise [newRequest 2 (some fun _ => ⟨[9], 1, none⟩), newRequest 2 none]) [3, 8] .eof false)
    (by simp [Rd.Ok]) _ .refl
  exact ⟨s', h2 (by rintro ⟨_, i, op, q, k, e, a, h⟩; simp [Act.init, Live.init, NetSys.init, GoSys.init] at h), h3, h4⟩

end Verif.Props
