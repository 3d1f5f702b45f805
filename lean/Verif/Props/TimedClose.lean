import Verif.TimedClose
import Verif.Props.TimedServe

/-!
# C103: peers that hang up
-/

namespace Verif.Props

open Verif

/-- What the transport returns at the end: the end of the stream or an error of the network, not one that
`Receive` has for itself. -/
def Hangup.Plain (u : Hangup) : Prop := u.err ≠ .timeout ∧ u.err ≠ .corruptedHeader

/-- What a peer whose messages are complete at the given times and that hangs up at `f` gets from a server with
`ReadTimeout = d` (0: none) that waits for the first message since `now`; see `timeline`. -/
def ending (d f : Nat) : (dur : Nat → Nat) → (now free : Nat) → List (Nat × Msg) → List (Nat × Msg) × Nat
  | _, now, free, [] => ([], max (if d ≠ 0 ∧ now + d ≤ f then now + d else max now f) free)
  | dur, now, free, (t, m) :: l =>
    if d = 0 ∨ t < now + d then
      let k := max (max now t) free
      let o := ending d f (fun i => dur (i + 1)) k (k + dur 0) l
      ((k, m) :: o.1, o.2)
    else ([], max (now + d) free)

/-- A run of the server has one result. -/
theorem serveEnding_unique {u : Hangup} {dur : Nat → Nat} {c : TRead} {ts : List Nat} {now free : Nat}
    {reqs reqs' : List (Nat × Request)} {e e' : Option Nat} (h : ServeEnding u dur c ts now free reqs e)
    (h' : ServeEnding u dur c ts now free reqs' e') : reqs = reqs' ∧ e = e' := by
  induction h generalizing reqs' e' with
  | waits dur c ts now free h => cases h' <;> simp_all
  | timeout dur c ts now free q c' d h hd => cases h' <;> simp_all [Err.timeout]
  | corrupt dur c ts now free q c' h => cases h' <;> simp_all [Err.timeout]
  | ended dur c ts now free q e c' h he hc => cases h' <;> simp_all
  | request dur c ts now free q c' reqs e h ht ih =>
    cases h' with
    | waits => simp_all
    | timeout => simp_all
    | corrupt => simp_all
    | ended => simp_all
    | request =>
      rename_i h2 ht2
      rw [h] at h2
      simp only [Option.some.injEq, Prod.mk.injEq, true_and] at h2
      obtain ⟨rfl, rfl⟩ := h2
      obtain ⟨rfl, rfl⟩ := ih ht2
      exact ⟨rfl, rfl⟩

/-! ## One call of Receive -/

/-- The deadline comes first. -/
private theorem before_deadline {u : Hangup} {c : TRead} {now : Nat} (h0 : c.timeout ≠ 0) (hd : now + c.timeout ≤ u.time) :
    c.receiveEnding u now = c.receive now := by
  simp only [TRead.receiveEnding, if_neg h0, Option.any_some]
  rw [if_pos (by simp only [decide_eq_true_eq]; omega)]

/-- The end of the connection comes first. -/
private def Nearer (u : Hangup) (c : TRead) (now : Nat) : Prop :=
  (c.timeout = 0 ∧ c.deadline = none) ∨ (c.timeout ≠ 0 ∧ u.time < now + c.timeout)

/-- The deadline after a `Receive` at the time `now`. -/
private def newDeadline (c : TRead) (now : Nat) : Option Nat :=
  if c.timeout = 0 then c.deadline else some (now + c.timeout)

private theorem Nearer.eq {u : Hangup} {c : TRead} {now : Nat} (h : Nearer u c now) : (c.receiveEnding u now =
    match Conn.receive (.buf c.buf none (.src (c.data ++ c.arr.flatMap (·.2)) c.sched u.err false)) with
    | (q, e, r) => some (q, e, TRead.put { c with deadline := newDeadline c now } [] r)) ∧
    (c.timeout = 0 → newDeadline c now = none) := by
  have hany : (newDeadline c now).any (fun d => decide (d ≤ max now u.time)) = false := by
    rcases h with ⟨h0, hd⟩ | ⟨h0, hd⟩
    · simp [newDeadline, h0, hd]
    · simp only [newDeadline, if_neg h0, Option.any_some, decide_eq_false_iff_not]; omega
  constructor
  · unfold TRead.receiveEnding
    have e : (if c.timeout = 0 then c.deadline else some (now + c.timeout)) = newDeadline c now := rfl
    simp only [e, hany]
    rfl
  · rcases h with ⟨h0, hd⟩ | ⟨h0, hd⟩
    · intro _; simp [newDeadline, h0, hd]
    · intro h1; exact absurd h1 h0

private theorem all_there {c : TRead} {l : List (Nat × UInt8)} {D : Nat} (h : ConnAt c l D) (hs : Sorted l) :
    TRead.held c ++ c.arr.flatMap (·.2) = l.map (·.2) := by
  have hsplit : l = l.filter (fun x => x.1 < D) ++ l.filter (fun x => D ≤ x.1) := by
    clear h
    induction l with
    | nil => rfl
    | cons a t ih =>
      obtain ⟨h1, h2⟩ := List.pairwise_cons.mp hs
      by_cases ha : a.1 < D
      · have hn : ¬ D ≤ a.1 := by omega
        simp only [List.filter_cons, ha, hn, decide_true, decide_false, if_true, List.cons_append]
        exact congrArg (a :: ·) (ih h2)
      · have e : t.filter (fun x => decide (x.1 < D)) = [] := by
          rw [List.filter_eq_nil_iff]; intro x hx; have := h1 x hx; simp; omega
        have e2 : t.filter (fun x => decide (D ≤ x.1)) = t := by
          rw [List.filter_eq_self]; intro x hx; have := h1 x hx; simp; omega
        have hn : D ≤ a.1 := by omega
        simp only [List.filter_cons, ha, hn, decide_true, decide_false, if_true, e, e2]
        simp
  conv => rhs; rw [hsplit]
  rw [List.map_append, ← h.held, ← h.arr, stamped_snd]

/-- `Receive` when the next message is complete before the end. -/
private theorem end_message {u : Hangup} {c : TRead} {l : List (Nat × UInt8)} {D now : Nat} (h : ConnAt c l D)
    (hs : Sorted l) (hn : Nearer u c now) (hf : ∀ x ∈ l, x.1 ≤ u.time) (m : Msg) (hw : m.Whole) (rest : Bytes)
    (hl : l.map (·.2) = m.wire ++ rest) :
    ∃ q c', c.receiveEnding u now = some (some q, none, c') ∧ q.header = m.1 ∧ q.body = .buffer m.2 ∧
      c'.timeout = c.timeout ∧ (c.timeout = 0 → c'.deadline = none) ∧
      ConnAt c' (l.drop m.wire.length) (u.time + 1) := by
  obtain ⟨hr, hdl⟩ := hn.eq
  obtain ⟨q, r', g1, g2, g3, g4⟩ := receive_msg (F := u.err)
    (.buf c.buf none (.src (c.data ++ c.arr.flatMap (·.2)) c.sched u.err false)) (by simp [Rd.Ok]) rfl m.1 m.2 rest hw
    (by
      have e : m.1.bytes ++ m.2 ++ rest = m.wire ++ rest := rfl
      rw [e, ← hl, ← all_there h hs]; simp [Rd.content, TRead.held])
  have ht : (Rd.buf c.buf none (.src (c.data ++ c.arr.flatMap (·.2)) c.sched u.err false)).Plain u.err _ :=
    ⟨_, _, _, rfl, Nat.le_refl _⟩
  have hsh := ht.receive
  rw [g1] at hsh
  obtain ⟨b', d', s', hsh, _⟩ := hsh
  simp only at hsh
  subst hsh
  rw [g1] at hr
  have hlt : ∀ x ∈ l.drop m.wire.length, x.1 < u.time + 1 := fun x hx =>
    Nat.lt_succ_of_le (hf x (List.mem_of_mem_drop hx))
  obtain ⟨f1, f2⟩ := filter_all_lt hlt
  refine ⟨q, _, hr, g2, g3, rfl, ?_, ⟨?_, ?_, List.Pairwise.nil⟩⟩
  · intro h0; exact hdl h0
  · rw [f1, List.map_drop, hl, List.drop_left]
    simpa [Rd.content, TRead.held, TRead.put] using g4
  · rw [f2]; rfl

/-- `Receive` when only a part of a message comes before the end. -/
private theorem end_cut {u : Hangup} (hu : Hangup.Plain u) {c : TRead} {l : List (Nat × UInt8)} {D now : Nat}
    (h : ConnAt c l D) (hs : Sorted l) (hn : Nearer u c now) {tail : Bytes} (ht : Unfinished tail)
    (hl : l.map (·.2) = tail) :
    ∃ q c' e, c.receiveEnding u now = some (q, some e, c') ∧ e ≠ .timeout ∧ e ≠ .corruptedHeader := by
  obtain ⟨hr, _⟩ := hn.eq
  obtain ⟨m, missing, hw, hne, he⟩ := ht
  obtain ⟨r', e, g1, _, g3⟩ := receive_cut (F := u.err)
    (.buf c.buf none (.src (c.data ++ c.arr.flatMap (·.2)) c.sched u.err false)) (by simp [Rd.Ok]) m.1 m.2 tail missing
    hw he hne (by rw [← hl, ← all_there h hs]; simp [Rd.content, TRead.held])
  rw [g1] at hr
  refine ⟨_, _, e, hr, ?_⟩
  rcases g3 with rfl | ⟨_, rfl⟩
  · exact hu
  · exact ⟨by decide, by decide⟩

/-! ## What the server does -/

private theorem ending_aux (u : Hangup) (hu : Hangup.Plain u) (d : Nat) (ms : List Msg) (hw : ∀ m ∈ ms, m.Whole)
    (tail : Bytes) (ht : Unfinished tail) :
    ∀ (dur : Nat → Nat) (c : TRead) (l : List (Nat × UInt8)) (D now free : Nat), ConnAt c l D → Sorted l →
    c.timeout = d → (d = 0 → c.deadline = none) → (d ≠ 0 → D ≤ now + d) → (∀ x ∈ l, x.1 ≤ u.time) →
    l.map (·.2) = ms.flatMap Msg.wire ++ tail →
    ∃ reqs, ServeEnding u dur c (l.map (·.1)) now free reqs
        (some (ending d u.time dur now free ((completions (l.map (·.1)) ms).zip ms)).2) ∧
      reqs.map seen = (ending d u.time dur now free ((completions (l.map (·.1)) ms).zip ms)).1.map shown := by
  induction ms with
  | nil =>
    intro dur c l D now free h hs hc h0 hD hf hl
    simp only [List.flatMap_nil, List.nil_append] at hl
    refine ⟨[], ?_, rfl⟩
    by_cases hd : d ≠ 0 ∧ now + d ≤ u.time
    · obtain ⟨m, missing, hmw, hm, he⟩ := tail_missing hs (now + d) ht hl
      obtain ⟨c', h1, h2⟩ := step_timeout (now := now) h hs (by omega) (by have := hD hd.1; omega) m hmw missing
        (by rw [hc]; exact he) hm
      rw [← before_deadline (u := u) (by omega) (by omega)] at h1
      have := ServeEnding.timeout (u := u) dur c (l.map (·.1)) now free none c' _ h1 h2
      rw [hc] at this
      simp only [completions, List.zip_nil_left, ending]
      rw [if_pos hd]
      rwa [Nat.max_eq_right (Nat.le_add_right now d)] at this
    · have hn : Nearer u c now := by
        by_cases hz : d = 0
        · exact .inl ⟨by omega, h0 hz⟩
        · exact .inr ⟨by omega, by omega⟩
      obtain ⟨q, c', e, h1, h2, h3⟩ := end_cut hu h hs hn ht hl
      have := ServeEnding.ended (u := u) dur c (l.map (·.1)) now free q e c' h1 h2 h3
      simp only [completions, List.zip_nil_left, ending]
      rwa [if_neg hd]
  | cons m ms ih =>
    intro dur c l D now free h hs hc h0 hD hf hl
    have hmw := hw m (by simp)
    rw [List.flatMap_cons, List.append_assoc] at hl
    have hlen : m.wire.length ≤ l.length := by
      have := congrArg List.length hl; simp at this; omega
    have hwp := wire_pos m
    have htf : (l.map (·.1)).getD (m.wire.length - 1) 0 ≤ u.time := by
      have hi : m.wire.length - 1 < l.length := by omega
      have e : (l.map (·.1)).getD (m.wire.length - 1) 0 = l[m.wire.length - 1].1 := by
        simp [List.getD, List.getElem?_eq_getElem hi]
      rw [e]; exact hf _ (List.getElem_mem _)
    -- the rest after a message has been received
    have key : ∀ q c' D', c.receiveEnding u now = some (some q, none, c') → q.header = m.1 → q.body = .buffer m.2 →
        c'.timeout = d → (d = 0 → c'.deadline = none) → (d ≠ 0 → D' ≤ now + d) →
        ConnAt c' (l.drop m.wire.length) D' →
        (d = 0 ∨ (l.map (·.1)).getD (m.wire.length - 1) 0 < now + d) →
        ∃ reqs, ServeEnding u dur c (l.map (·.1)) now free reqs
          (some (ending d u.time dur now free ((completions (l.map (·.1)) (m :: ms)).zip (m :: ms))).2) ∧
        reqs.map seen =
          (ending d u.time dur now free ((completions (l.map (·.1)) (m :: ms)).zip (m :: ms))).1.map shown := by
      intro q c' D' h1 h2 h3 h4 h5 h6 h7 hcond
      have hql : q.header.len = m.wire.length := by rw [h2, len_wire hmw]
      obtain ⟨reqs, r1, r2⟩ := ih (fun m' hm' => hw m' (by simp [hm'])) (fun i => dur (i + 1)) c'
        (l.drop m.wire.length) D'
        (max (returnsAt now m.wire.length (l.map (·.1))) free)
        (max (returnsAt now m.wire.length (l.map (·.1))) free + dur 0) h7
        (List.Pairwise.sublist (List.drop_sublist _ _) hs) h4 h5
        (by intro hz; have := h6 hz; simp only [returnsAt]; omega)
        (fun x hx => hf x (List.mem_of_mem_drop hx))
        (by rw [List.map_drop, hl, List.drop_left])
      refine ⟨(max (returnsAt now m.wire.length (l.map (·.1))) free, q) :: reqs, ?_, ?_⟩
      · have := ServeEnding.request (u := u) dur c (l.map (·.1)) now free q c' reqs _ h1
          (by rw [hql, ← List.map_drop]; exact r1)
        rw [hql] at this
        simp only [completions, List.zip_cons_cons, ending]
        rw [if_pos hcond, ← List.map_drop]
        exact this
      · simp only [completions, List.zip_cons_cons, ending]
        rw [if_pos hcond]
        simp only [List.map_cons]
        rw [← List.map_drop, r2]
        simp [seen, shown, h2, h3, returnsAt]
    by_cases hd : d ≠ 0 ∧ now + d ≤ u.time
    · by_cases hin : (l.map (·.1)).getD (m.wire.length - 1) 0 < now + d
      · obtain ⟨q, c', h1, h2, h3, h4, h5⟩ := step_message (now := now) h hs (by omega)
          (by have := hD hd.1; omega) m hmw _ hl (by rw [hc]; exact hin)
        rw [← before_deadline (u := u) (by omega) (by omega)] at h1
        exact key q c' _ h1 h2 h3 (by omega) (fun hz => absurd hz hd.1) (by intro _; omega) h5 (.inr hin)
      · obtain ⟨missing, hm, he⟩ := late_missing hs m _ hl hin
        obtain ⟨c', h1, h2⟩ := step_timeout (now := now) h hs (by omega) (by have := hD hd.1; omega) m hmw missing
          (by rw [hc]; exact he) hm
        rw [← before_deadline (u := u) (by omega) (by omega)] at h1
        have hcond : ¬ (d = 0 ∨ (l.map (·.1)).getD (m.wire.length - 1) 0 < now + d) := by
          rintro (hz | hz)
          · exact hd.1 hz
          · exact hin hz
        refine ⟨[], ?_, ?_⟩
        · have := ServeEnding.timeout (u := u) dur c (l.map (·.1)) now free none c' _ h1 h2
          rw [hc] at this
          simp only [completions, List.zip_cons_cons, ending]
          rw [if_neg hcond]
          rwa [Nat.max_eq_right (Nat.le_add_right now d)] at this
        · simp only [completions, List.zip_cons_cons, ending]
          rw [if_neg hcond]
          rfl
    · have hn : Nearer u c now := by
        by_cases hz : d = 0
        · exact .inl ⟨by omega, h0 hz⟩
        · exact .inr ⟨by omega, by omega⟩
      obtain ⟨q, c', h1, h2, h3, h4, h5, h6⟩ := end_message h hs hn hf m hmw _ hl
      exact key q c' _ h1 h2 h3 (by omega) (by intro hz; exact h5 (by omega)) (by intro _; omega) h6
        (by by_cases hz : d = 0
            · exact .inl hz
            · exact .inr (by omega))

/-- C103.  A server and a peer that hangs up, with or without ReadTimeout, for every stream of messages, however it
is cut into chunks and whenever these arrive, and for handlers that keep the loop busy for any time:
which requests are given to the runner, when, and when the connection is closed. -/
theorem hangup_timeline (u : Hangup) (hu : Hangup.Plain u) (d : Nat) (dur : Nat → Nat) (sched : List Nat)
    (arr : List (Nat × Bytes)) (ho : InOrder arr) (hf : ∀ x ∈ arr, x.1 ≤ u.time) (ms : List Msg)
    (hw : ∀ m ∈ ms, m.Whole) (tail : Bytes) (ht : Unfinished tail)
    (hm : arr.flatMap (·.2) = ms.flatMap Msg.wire ++ tail) (now free : Nat) :
    (∃ reqs e, ServeEnding u dur (TRead.new d sched arr) (byteTimes arr) now free reqs e) ∧
    ∀ reqs e, ServeEnding u dur (TRead.new d sched arr) (byteTimes arr) now free reqs e →
      reqs.map seen = (ending d u.time dur now free ((completions (byteTimes arr) ms).zip ms)).1.map shown ∧
      e = some (ending d u.time dur now free ((completions (byteTimes arr) ms).zip ms)).2 := by
  obtain ⟨reqs, h1, h2⟩ := ending_aux u hu d ms hw tail ht dur (TRead.new d sched arr) (stamped arr) 0 now free
    ⟨by simp [TRead.held, TRead.new], by rw [List.filter_eq_self.mpr (by simp)]; rfl, ho⟩ (stamped_sorted ho) rfl
    (fun _ => rfl) (by intro _; omega)
    (by
      intro x hx
      obtain ⟨y, hy, hx⟩ := List.mem_flatMap.mp hx
      obtain ⟨b, _, rfl⟩ := List.mem_map.mp hx
      exact hf y hy)
    (by rw [stamped_snd, hm])
  rw [stamped_fst] at h1 h2
  refine ⟨⟨_, _, h1⟩, fun reqs' e' h' => ?_⟩
  obtain ⟨rfl, rfl⟩ := serveEnding_unique h1 h'
  exact ⟨h2, rfl⟩

/-- How long `n` requests keep the loop busy. -/
def total (dur : Nat → Nat) (n : Nat) : Nat := ((List.range n).map dur).sum

private theorem total_succ (dur : Nat → Nat) (n : Nat) : total dur (n + 1) = dur 0 + total (fun i => dur (i + 1)) n := by
  simp only [total, List.range_succ_eq_map, List.map_cons, List.sum_cons, List.map_map]
  rfl

theorem ending_le (d f : Nat) : ∀ (l : List (Nat × Msg)) (dur : Nat → Nat) (now free : Nat),
    (∀ x ∈ l, x.1 ≤ f) → (ending d f dur now free l).2 ≤ max (max now f) free + total dur l.length := by
  intro l
  induction l with
  | nil => intro dur now free _; simp only [ending]; split <;> omega
  | cons a t ih =>
    intro dur now free hf
    obtain ⟨a, m⟩ := a
    have h1 : a ≤ f := hf (a, m) (by simp)
    rw [ending]
    split
    · have := ih (fun i => dur (i + 1)) (max (max now a) free) (max (max now a) free + dur 0)
        (fun x hx => hf x (by simp [hx]))
      simp only [List.length_cons, total_succ]
      omega
    · simp only; omega

/-- The peer is never without a complete message for `d` before it hangs up at `f`; or there is no timeout. -/
def Lively (d f now : Nat) (ts : List Nat) : Prop := d = 0 ∨ (Prompt d now ts ∧ f < latest now ts + d)

private theorem ending_all (d f : Nat) : ∀ (l : List (Nat × Msg)) (dur : Nat → Nat) (now now' free : Nat),
    Lively d f now' (l.map (·.1)) → now' ≤ now →
    (ending d f dur now free l).1.map (·.2) = l.map (·.2) ∧ max now f ≤ (ending d f dur now free l).2 := by
  intro l
  induction l with
  | nil =>
    intro dur now now' free hp hn
    simp only [Lively, List.map_nil, latest, List.foldl_nil] at hp
    simp only [ending, List.map_nil, true_and]
    rw [if_neg (by omega)]
    omega
  | cons a t ih =>
    intro dur now now' free hp hn
    obtain ⟨a, m⟩ := a
    have hcond : d = 0 ∨ a < now + d := by
      rcases hp with h | ⟨h, _⟩
      · exact .inl h
      · simp only [List.map_cons, Prompt] at h; exact .inr (by omega)
    have hp' : Lively d f (max now' a) (t.map (·.1)) := by
      rcases hp with h | ⟨h, h'⟩
      · exact .inl h
      · simp only [List.map_cons, Prompt] at h; exact .inr ⟨h.2, h'⟩
    rw [ending, if_pos hcond]
    obtain ⟨i1, i2⟩ := ih (fun i => dur (i + 1)) (max (max now a) free) (max now' a)
      (max (max now a) free + dur 0) hp' (by omega)
    exact ⟨by simp only [List.map_cons]; rw [i1], by simp only; omega⟩

theorem ending_times (d f : Nat) : ∀ (l : List (Nat × Msg)) (now : Nat), Lively d f now (l.map (·.1)) →
    (l.map (·.1)).Pairwise (· ≤ ·) → (∀ x ∈ l, x.1 ≤ f) →
    ending d f (fun _ => 0) now now l = (l.map (fun x => (max now x.1, x.2)), max now f) := by
  intro l
  induction l with
  | nil =>
    intro now hp _ _
    simp only [Lively, List.map_nil, latest, List.foldl_nil] at hp
    simp only [ending, List.map_nil]
    rw [if_neg (by omega)]
    simp only [Prod.mk.injEq, true_and]; omega
  | cons a t ih =>
    intro now hp hs hf
    obtain ⟨a, m⟩ := a
    have h1 : a ≤ f := hf (a, m) (by simp)
    have hcond : d = 0 ∨ a < now + d := by
      rcases hp with h | ⟨h, _⟩
      · exact .inl h
      · simp only [List.map_cons, Prompt] at h; exact .inr h.1
    have hp' : Lively d f (max now a) (t.map (·.1)) := by
      rcases hp with h | ⟨h, h'⟩
      · exact .inl h
      · simp only [List.map_cons, Prompt] at h; exact .inr ⟨h.2, h'⟩
    rw [List.map_cons, List.pairwise_cons] at hs
    rw [ending, if_pos hcond]
    have hk : max (max now a) now = max now a := by omega
    simp only [hk, Nat.add_zero, List.map_cons]
    rw [ih _ hp' hs.2 (fun x hx => hf x (by simp [hx]))]
    simp only [Prod.mk.injEq, List.cons.injEq, true_and]
    refine ⟨List.map_congr_left fun x hx => ?_, by omega⟩
    have := hs.1 x.1 (List.mem_map_of_mem hx)
    simp only [Prod.mk.injEq, and_true]
    omega

theorem ending_prompt (d f : Nat) : ∀ (l : List (Nat × Msg)) (dur : Nat → Nat) (now now' free : Nat),
    Prompt d now' (l.map (·.1)) → now' ≤ now →
    min (latest now' (l.map (·.1)) + d) f ≤ (ending d f dur now free l).2 := by
  intro l
  induction l with
  | nil =>
    intro dur now now' free _ hn
    simp only [ending, List.map_nil, latest, List.foldl_nil]
    split <;> omega
  | cons a t ih =>
    intro dur now now' free hp hn
    obtain ⟨a, m⟩ := a
    simp only [List.map_cons, Prompt] at hp
    rw [ending, if_pos (.inr (by omega))]
    exact ih (fun i => dur (i + 1)) (max (max now a) free) (max now' a) (max (max now a) free + dur 0) hp.2 (by omega)

/-- A peer that sends these messages, perhaps the beginning of one more, and hangs up. -/
structure SendsAndEnds (arr : List (Nat × Bytes)) (ms : List Msg) (u : Hangup) : Prop where
  plain : Hangup.Plain u
  order : InOrder arr
  last : ∀ x ∈ arr, x.1 ≤ u.time
  whole : ∀ m ∈ ms, m.Whole
  bytes : ∃ tail, Unfinished tail ∧ arr.flatMap (·.2) = ms.flatMap Msg.wire ++ tail

theorem SendsAndEnds.run {arr : List (Nat × Bytes)} {ms : List Msg} {u : Hangup} (h : SendsAndEnds arr ms u)
    (d : Nat) (dur : Nat → Nat) (sched : List Nat) (now free : Nat) {reqs : List (Nat × Request)} {e : Option Nat}
    (hr : ServeEnding u dur (TRead.new d sched arr) (byteTimes arr) now free reqs e) :
    reqs.map seen = (ending d u.time dur now free ((completions (byteTimes arr) ms).zip ms)).1.map shown ∧
      e = some (ending d u.time dur now free ((completions (byteTimes arr) ms).zip ms)).2 := by
  obtain ⟨tail, ht, hm⟩ := h.bytes
  exact (hangup_timeline u h.plain d dur sched arr h.order h.last ms h.whole tail ht hm now free).2 reqs e hr

theorem SendsAndEnds.enough {arr : List (Nat × Bytes)} {ms : List Msg} {u : Hangup} (h : SendsAndEnds arr ms u) :
    (ms.flatMap Msg.wire).length ≤ (byteTimes arr).length := by
  obtain ⟨tail, _, hm⟩ := h.bytes
  rw [times_length, hm, List.length_append]; omega

theorem SendsAndEnds.early {arr : List (Nat × Bytes)} {ms : List Msg} {u : Hangup} (h : SendsAndEnds arr ms u) :
    ∀ x ∈ (completions (byteTimes arr) ms).zip ms, x.1 ≤ u.time := by
  intro x hx
  have hmem := completions_mem h.enough x.1 (List.of_mem_zip hx).1
  obtain ⟨y, hy, hx⟩ := List.mem_flatMap.mp hmem
  obtain ⟨b, _, hb⟩ := List.mem_map.mp hx
  have := h.last y hy
  omega

/-- C103.  The server never keeps a connection for longer than its peer, but for what its handlers take: it is closed at
the hang-up at the latest, or when the loop has got rid of the requests that came before. -/
theorem hangup_closes {arr : List (Nat × Bytes)} {ms : List Msg} {u : Hangup} (h : SendsAndEnds arr ms u) (d : Nat)
    (dur : Nat → Nat) (sched : List Nat) (now free : Nat) :
    (∃ reqs e, ServeEnding u dur (TRead.new d sched arr) (byteTimes arr) now free reqs e) ∧
    ∀ reqs e, ServeEnding u dur (TRead.new d sched arr) (byteTimes arr) now free reqs e →
      ∃ x, e = some x ∧ x ≤ max (max now u.time) free + total dur ms.length := by
  obtain ⟨tail, ht, hm⟩ := h.bytes
  refine ⟨(hangup_timeline u h.plain d dur sched arr h.order h.last ms h.whole tail ht hm now free).1, ?_⟩
  intro reqs e hr
  refine ⟨_, (h.run d dur sched now free hr).2, ?_⟩
  have := ending_le d u.time ((completions (byteTimes arr) ms).zip ms) dur now free h.early
  rwa [List.length_zip, completions_length, Nat.min_self] at this

/-- C103.  What a peer has sent before it hangs up is not lost: all its messages are given to the runner, however long
this keeps the loop busy, and the connection is not closed before. -/
theorem hangup_keeps {arr : List (Nat × Bytes)} {ms : List Msg} {u : Hangup} (h : SendsAndEnds arr ms u) (d : Nat)
    (dur : Nat → Nat) (sched : List Nat) (now free : Nat)
    (hp : Lively d u.time now (completions (byteTimes arr) ms)) (reqs : List (Nat × Request)) (e : Option Nat)
    (hr : ServeEnding u dur (TRead.new d sched arr) (byteTimes arr) now free reqs e) :
    reqs.map content = ms.map (fun m => (m.1, Body.buffer m.2)) ∧ ∃ x, e = some x ∧ u.time ≤ x := by
  obtain ⟨h1, h2⟩ := h.run d dur sched now free hr
  have hl := completions_length (byteTimes arr) ms
  have hz := zip_fst _ _ hl
  obtain ⟨i1, i2⟩ := ending_all d u.time ((completions (byteTimes arr) ms).zip ms) dur now now free
    (by rw [hz]; exact hp) (Nat.le_refl _)
  refine ⟨?_, _, h2, by omega⟩
  have := congrArg (List.map (fun x : Nat × Header × Body => x.2)) h1
  rw [List.map_map, List.map_map] at this
  have hs := congrArg (List.map (fun m : Msg => (m.1, Body.buffer m.2))) (i1.trans (zip_snd _ _ hl))
  rw [List.map_map] at hs
  exact this.trans hs

/-- C103.  With a runner that does not keep the loop busy: every message is given to it at the moment at which it is
complete, and the connection is closed at the moment of the hang-up. -/
theorem hangup_exact {arr : List (Nat × Bytes)} {ms : List Msg} {u : Hangup} (h : SendsAndEnds arr ms u) (d : Nat)
    (sched : List Nat) (now : Nat) (hp : Lively d u.time now (completions (byteTimes arr) ms))
    (reqs : List (Nat × Request)) (e : Option Nat)
    (hr : ServeEnding u (fun _ => 0) (TRead.new d sched arr) (byteTimes arr) now now reqs e) :
    reqs.map content = ms.map (fun m => (m.1, Body.buffer m.2)) ∧
    reqs.map (·.1) = (completions (byteTimes arr) ms).map (max now) ∧ e = some (max now u.time) := by
  obtain ⟨h1, h2⟩ := h.run d (fun _ => 0) sched now now hr
  have hl := completions_length (byteTimes arr) ms
  have hz := zip_fst _ _ hl
  rw [ending_times d u.time _ now (by rw [hz]; exact hp)
    (by rw [hz]; exact completions_sorted (times_sorted h.order) h.enough) h.early] at h1 h2
  refine ⟨(hangup_keeps h d _ sched now now hp reqs e hr).1, ?_, h2⟩
  have := congrArg (List.map (fun x : Nat × Header × Body => x.1)) h1
  simp only [List.map_map] at this
  have hs := congrArg (List.map (max now)) hz
  rw [List.map_map] at hs
  exact this.trans hs

/-! ## Non-vacuity -/

private def hi : Msg := (⟨4, 0, 8, 1⟩, [])
private def ask : Msg := (⟨4, 2, 10, 2⟩, [7, 7])

private theorem hi_ask : SendsAndEnds [(1, [4, 0, 0]), (3, [8, 0, 0, 0, 1, 4]), (7, [2, 0, 10, 0, 0, 0, 2, 7, 7, 4])] [hi, ask]
    ⟨9, .eof⟩ :=
  ⟨⟨by decide, by decide⟩, by simp [InOrder], by simp, by simp [hi, ask, Msg.Whole], [4],
    ⟨hi, [0, 0, 8, 0, 0, 0, 1], rfl, by decide, by decide⟩, by decide⟩

/-- A hello, an echo request and a byte of a third message, and the peer hangs up at 9: no timeout is needed for the
connection to be closed then, and a timeout of 5 makes no difference. -/
example : Lively 0 9 0 (completions (byteTimes
    [(1, [4, 0, 0]), (3, [8, 0, 0, 0, 1, 4]), (7, [2, 0, 10, 0, 0, 0, 2, 7, 7, 4])]) [hi, ask]) := .inl rfl
example : Lively 5 9 0 (completions (byteTimes
    [(1, [4, 0, 0]), (3, [8, 0, 0, 0, 1, 4]), (7, [2, 0, 10, 0, 0, 0, 2, 7, 7, 4])]) [hi, ask]) :=
  .inr ⟨⟨by decide, by decide, trivial⟩, by decide⟩

/-- With handlers that take 10 each and a `SequentialRunner` the connection is closed at 23. -/
example : ∃ reqs, ServeEnding ⟨9, .eof⟩ (fun _ => 10) (TRead.new 0 [3]
      [(1, [4, 0, 0]), (3, [8, 0, 0, 0, 1, 4]), (7, [2, 0, 10, 0, 0, 0, 2, 7, 7, 4])])
      (byteTimes [(1, [4, 0, 0]), (3, [8, 0, 0, 0, 1, 4]), (7, [2, 0, 10, 0, 0, 0, 2, 7, 7, 4])]) 0 0 reqs (some 23) ∧
    reqs.map seen = [(3, ⟨4, 0, 8, 1⟩, .buffer []), (13, ⟨4, 2, 10, 2⟩, .buffer [7, 7])] := by
  obtain ⟨⟨reqs, e, hr⟩, _⟩ := hangup_closes hi_ask 0 (fun _ => 10) [3] 0 0
  obtain ⟨h1, h2⟩ := hi_ask.run 0 (fun _ => 10) [3] 0 0 hr
  have he : e = some 23 := by rw [h2]; decide
  subst he
  exact ⟨reqs, hr, by rw [h1]; rfl⟩

end Verif.Props
