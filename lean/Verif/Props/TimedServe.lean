import Verif.TimedServe
import Verif.Props.Timeout

/-!
# Property C100: ReadTimeout of a server
-/

namespace Verif.Props

open Verif

/-! ## Chunks and bytes with their times -/

/-- The bytes of the chunks, each with its arrival time. -/
def stamped (arr : List (Nat × Bytes)) : List (Nat × UInt8) := arr.flatMap (fun x => x.2.map (fun b => (x.1, b)))

theorem stamped_fst (arr : List (Nat × Bytes)) : (stamped arr).map (·.1) = byteTimes arr := by
  induction arr with
  | nil => rfl
  | cons a t ih =>
    simp only [stamped, byteTimes, List.flatMap_cons, List.map_append, List.map_map] at ih ⊢
    rw [ih]; rfl

theorem stamped_snd (arr : List (Nat × Bytes)) : (stamped arr).map (·.2) = arr.flatMap (·.2) := by
  induction arr with
  | nil => rfl
  | cons a t ih =>
    simp only [stamped, List.flatMap_cons, List.map_append, List.map_map] at ih ⊢
    rw [ih]
    congr 1
    exact List.map_id _

private theorem stamped_filter (p : Nat → Bool) (arr : List (Nat × Bytes)) :
    stamped (arr.filter (fun c => p c.1)) = (stamped arr).filter (fun x => p x.1) := by
  induction arr with
  | nil => rfl
  | cons a t ih =>
    simp only [stamped, List.flatMap_cons, List.filter_append] at ih ⊢
    by_cases h : p a.1 = true
    · have e : (a.2.map (fun b => (a.1, b))).filter (fun x => p x.1) = a.2.map (fun b => (a.1, b)) := by
        rw [List.filter_eq_self]; intro x hx; obtain ⟨b, _, rfl⟩ := List.mem_map.mp hx; exact h
      rw [List.filter_cons_of_pos (p := fun c : Nat × Bytes => p c.1) h, List.flatMap_cons, ih, e]
    · have e : (a.2.map (fun b => (a.1, b))).filter (fun x => p x.1) = [] := by
        rw [List.filter_eq_nil_iff]; intro x hx; obtain ⟨b, _, rfl⟩ := List.mem_map.mp hx; exact h
      rw [List.filter_cons_of_neg (p := fun c : Nat × Bytes => p c.1) h, ih, e, List.nil_append]

/-- The bytes are in the order of their arrival. -/
def Sorted (l : List (Nat × UInt8)) : Prop := l.Pairwise (fun a b => a.1 ≤ b.1)

theorem stamped_sorted {arr : List (Nat × Bytes)} (h : InOrder arr) : Sorted (stamped arr) := by
  induction arr with
  | nil => exact List.Pairwise.nil
  | cons a t ih =>
    obtain ⟨h1, h2⟩ := List.pairwise_cons.mp h
    simp only [Sorted, stamped, List.flatMap_cons] at ih ⊢
    refine List.pairwise_append.mpr ⟨?_, ih h2, ?_⟩
    · rw [List.pairwise_map]
      exact List.Pairwise.imp (fun _ => Nat.le_refl _) (List.pairwise_of_forall (R := fun _ _ => True) (fun _ _ => trivial))
    · intro x hx y hy
      obtain ⟨b, _, rfl⟩ := List.mem_map.mp hx
      obtain ⟨c, hc, hy⟩ := List.mem_flatMap.mp hy
      obtain ⟨b', _, rfl⟩ := List.mem_map.mp hy
      exact h1 c hc

theorem sorted_split {l : List (Nat × UInt8)} (h : Sorted l) {d d' : Nat} (hd : d ≤ d') :
    l.filter (fun x => x.1 < d') = l.filter (fun x => x.1 < d) ++
      (l.filter (fun x => d ≤ x.1)).filter (fun x => x.1 < d') := by
  induction l with
  | nil => rfl
  | cons a t ih =>
    obtain ⟨h1, h2⟩ := List.pairwise_cons.mp h
    by_cases ha : a.1 < d
    · have ha' : a.1 < d' := by omega
      have hn : ¬ d ≤ a.1 := by omega
      simp only [List.filter_cons, ha, ha', hn, decide_true, decide_false, if_true, List.cons_append]
      simpa using ih h2
    · have e : t.filter (fun x => decide (x.1 < d)) = [] := by
        rw [List.filter_eq_nil_iff]; intro x hx; have := h1 x hx; simp; omega
      have e2 : t.filter (fun x => decide (d ≤ x.1)) = t := by
        rw [List.filter_eq_self]; intro x hx; have := h1 x hx; simp; omega
      have hn : d ≤ a.1 := by omega
      simp only [List.filter_cons, ha, hn, decide_true, decide_false, if_true, e, e2]
      simp

/-! ## What the server does -/

/-- A message on the wire. -/
abbrev Msg := Header × Bytes

/-- Its bytes. -/
def Msg.wire (m : Msg) : Bytes := m.1.bytes ++ m.2

/-- Its header declares its length. -/
def Msg.Whole (m : Msg) : Prop := m.1.length.toNat = 8 + m.2.length

/-- The times at which the messages at the beginning of a stream are complete; `ts` are the arrival times of
its bytes. -/
def completions : List Nat → List Msg → List Nat
  | _, [] => []
  | ts, m :: ms => ts.getD (m.wire.length - 1) 0 :: completions (ts.drop m.wire.length) ms

/-- A beginning of a message, possibly empty. -/
def Unfinished (tail : Bytes) : Prop := ∃ (m : Msg) (missing : Bytes), m.Whole ∧ missing ≠ [] ∧ tail ++ missing = m.wire

/-- What a peer whose messages are complete at the given times gets from a server with `ReadTimeout = d` that
waits for the first of them since `now`: the requests that the runner gets, with the times, and
the time at which the connection is closed.  `free`, `dur`: when the loop is free for the first
request, and for how long each request keeps it busy. -/
def timeline (d : Nat) : (dur : Nat → Nat) → (now free : Nat) → List (Nat × Msg) → List (Nat × Msg) × Nat
  | _, now, free, [] => ([], max (now + d) free)
  | dur, now, free, (t, m) :: l =>
    if t < now + d then
      let k := max (max now t) free
      let o := timeline d (fun i => dur (i + 1)) k (k + dur 0) l
      ((k, m) :: o.1, o.2)
    else ([], max (now + d) free)

/-- A request as the handler sees it. -/
def seen (x : Nat × Request) : Nat × Header × Body := (x.1, x.2.header, x.2.body)

/-- A message as the handler should see it. -/
def shown (x : Nat × Msg) : Nat × Header × Body := (x.1, x.2.1, .buffer x.2.2)

/-- A run of the server has one result. -/
theorem serveTimed_unique {dur : Nat → Nat} {c : TRead} {ts : List Nat} {now free : Nat}
    {reqs reqs' : List (Nat × Request)} {e e' : Option Nat} (h : ServeTimed dur c ts now free reqs e)
    (h' : ServeTimed dur c ts now free reqs' e') : reqs = reqs' ∧ e = e' := by
  induction h generalizing reqs' e' with
  | waits dur c ts now free h =>
    cases h' <;> simp_all
  | timeout dur c ts now free q c' d h hd =>
    cases h' <;> simp_all
  | fails dur c ts now free q e c' h he =>
    cases h' <;> simp_all
  | request dur c ts now free q c' reqs e h ht ih =>
    cases h' with
    | waits => simp_all
    | timeout => simp_all
    | fails => simp_all
    | request =>
      rename_i h2 ht2
      rw [h] at h2
      simp only [Option.some.injEq, Prod.mk.injEq, true_and] at h2
      obtain ⟨rfl, rfl⟩ := h2
      obtain ⟨rfl, rfl⟩ := ih ht2
      exact ⟨rfl, rfl⟩

/-- The state of a connection of which the bytes `l` have not been returned: those that arrive before `D` it
holds, the others are still to come. -/
structure ConnAt (c : TRead) (l : List (Nat × UInt8)) (D : Nat) : Prop where
  held : TRead.held c = (l.filter (fun x => x.1 < D)).map (·.2)
  arr : stamped c.arr = l.filter (fun x => D ≤ x.1)
  order : InOrder c.arr

theorem ConnAt.arrived {c : TRead} {l : List (Nat × UInt8)} {D d : Nat} (h : ConnAt c l D) (hs : Sorted l)
    (hd : D ≤ d) : TRead.held c ++ arrivedBefore d c.arr = (l.filter (fun x => x.1 < d)).map (·.2) := by
  rw [sorted_split hs hd, List.map_append, ← h.held, ← h.arr]
  congr 1
  rw [← stamped_filter (fun t => decide (t < d)), stamped_snd]
  rfl

theorem ConnAt.coming {c : TRead} {l : List (Nat × UInt8)} {D d : Nat} (h : ConnAt c l D) (hd : D ≤ d) :
    stamped (arrivingFrom d c.arr) = l.filter (fun x => d ≤ x.1) := by
  rw [arrivingFrom, stamped_filter (fun t => decide (d ≤ t)), h.arr, List.filter_filter]
  congr 1; funext x; simp; omega

theorem filter_all_lt {l : List (Nat × UInt8)} {d : Nat} (h : ∀ x ∈ l, x.1 < d) :
    l.filter (fun x => x.1 < d) = l ∧ l.filter (fun x => d ≤ x.1) = [] := by
  constructor
  · rw [List.filter_eq_self]; intro x hx; simpa using h x hx
  · rw [List.filter_eq_nil_iff]; intro x hx; have := h x hx; simp; omega

private theorem getD_lt {l : List Nat} {n : Nat} (h : n < l.length) : l.getD n 0 = l[n] := by
  simp [List.getD, List.getElem?_eq_getElem h]

private theorem sorted_last {l : List (Nat × UInt8)} (h : Sorted l) {n : Nat} (hn : n < l.length) :
    ∀ x ∈ l.take (n + 1), x.1 ≤ (l.map (·.1)).getD n 0 := by
  intro x hx
  obtain ⟨i, hi, rfl⟩ := List.getElem_of_mem hx
  simp only [List.length_take] at hi
  have hil : i < l.length := by omega
  rw [List.getElem_take]
  rw [getD_lt (by simpa using hn), List.getElem_map]
  by_cases he : i = n
  · subst he; exact Nat.le_refl _
  · exact List.pairwise_iff_getElem.mp h i n hil hn (by omega)

private theorem sorted_prefix {l : List (Nat × UInt8)} (h : Sorted l) {n d : Nat}
    (hd : ∀ hn : n < l.length, d ≤ l[n].1) :
    (l.filter (fun x => x.1 < d)) = (l.take n).filter (fun x => x.1 < d) := by
  conv => lhs; rw [← List.take_append_drop n l]
  rw [List.filter_append]
  have : (l.drop n).filter (fun x => decide (x.1 < d)) = [] := by
    rw [List.filter_eq_nil_iff]
    intro x hx
    obtain ⟨i, hi, rfl⟩ := List.getElem_of_mem hx
    simp only [List.length_drop] at hi
    rw [List.getElem_drop]
    have h1 := hd (by omega)
    have h2 : l[n].1 ≤ l[n + i].1 := by
      by_cases hi0 : i = 0
      · subst hi0; exact Nat.le_refl _
      · exact List.pairwise_iff_getElem.mp h n (n + i) (by omega) (by omega) (by omega)
    simp; omega
  rw [this, List.append_nil]

private theorem sorted_filter_take {l : List (Nat × UInt8)} (h : Sorted l) (d : Nat) :
    ∃ k, k ≤ l.length ∧ l.filter (fun x => x.1 < d) = l.take k ∧ ∀ hk : k < l.length, d ≤ l[k].1 := by
  induction l with
  | nil => exact ⟨0, by simp⟩
  | cons a t ih =>
    obtain ⟨h1, h2⟩ := List.pairwise_cons.mp h
    by_cases ha : a.1 < d
    · obtain ⟨k, hk, e, hf⟩ := ih h2
      refine ⟨k + 1, by simp; omega, by simp [ha, e], ?_⟩
      intro hk'
      simpa using hf (by simpa using hk')
    · refine ⟨0, by simp, ?_, fun _ => by simpa using ha⟩
      rw [List.take_zero, List.filter_eq_nil_iff]
      intro x hx
      rcases List.mem_cons.mp hx with rfl | hx
      · simpa using ha
      · have := h1 x hx; simp; omega

theorem wire_pos (m : Msg) : 8 ≤ m.wire.length := by
  simp [Msg.wire, Header.bytes_length]

theorem len_wire {m : Msg} (h : m.Whole) : m.1.len = m.wire.length := by
  simp only [Msg.wire, List.length_append, Header.bytes_length]; exact h

/-- One `Receive` when the next message is complete before the deadline. -/
theorem step_message {c : TRead} {l : List (Nat × UInt8)} {D now : Nat} (h : ConnAt c l D) (hs : Sorted l)
    (hpos : c.timeout ≠ 0) (hD : D ≤ now + c.timeout) (m : Msg) (hw : m.Whole) (rest : Bytes)
    (hl : l.map (·.2) = m.wire ++ rest) (ht : (l.map (·.1)).getD (m.wire.length - 1) 0 < now + c.timeout) :
    ∃ q c', c.receive now = some (some q, none, c') ∧ q.header = m.1 ∧ q.body = .buffer m.2 ∧
      c'.timeout = c.timeout ∧ ConnAt c' (l.drop m.wire.length) (now + c.timeout) := by
  have hlen : m.wire.length ≤ l.length := by
    have := congrArg List.length hl; simp at this; omega
  have hp := wire_pos m
  have hbefore : ∀ x ∈ l.take m.wire.length, x.1 < now + c.timeout := by
    intro x hx
    have := sorted_last hs (n := m.wire.length - 1) (by omega) x (by rwa [Nat.sub_add_cancel (by omega)])
    omega
  obtain ⟨f1, f2⟩ := filter_all_lt hbefore
  have hsplit : ∀ p : Nat × UInt8 → Bool, l.filter p = (l.take m.wire.length).filter p ++ (l.drop m.wire.length).filter p := by
    intro p; rw [← List.filter_append, List.take_append_drop]
  have htake : (l.take m.wire.length).map (·.2) = m.wire := by
    rw [List.map_take, hl, List.take_left]
  obtain ⟨r, h2, h3, h4, b', d', s', h5, h6⟩ := receive_run c now (now + c.timeout) (by omega) h.order
    (by rw [if_neg hpos])
  obtain ⟨q, r', g1, g2, g3, g4⟩ := receive_msg r h2 h3 m.1 m.2
    (((l.drop m.wire.length).filter (fun x => x.1 < now + c.timeout)).map (·.2)) hw
    (by rw [h4, h.arrived hs hD, hsplit, f1, List.map_append, htake]; rfl)
  rw [g1] at h5 h6
  simp only at h5 h6
  rw [h5] at g4
  refine ⟨q, _, h6, g2, g3, rfl, ⟨g4, ?_, List.Pairwise.filter _ h.order⟩⟩
  simp only
  rw [h.coming hD, hsplit, f2, List.nil_append]

/-- One `Receive` when the next message is not complete before the deadline. -/
theorem step_timeout {c : TRead} {l : List (Nat × UInt8)} {D now : Nat} (h : ConnAt c l D) (hs : Sorted l)
    (hpos : c.timeout ≠ 0) (hD : D ≤ now + c.timeout) (m : Msg) (hw : m.Whole) (missing : Bytes)
    (hl : (l.filter (fun x => x.1 < now + c.timeout)).map (·.2) ++ missing = m.wire) (hm : missing ≠ []) :
    ∃ c', c.receive now = some (none, some .timeout, c') ∧ c'.deadline = some (now + c.timeout) := by
  obtain ⟨c', h1, _, _, _, h2⟩ := receive_times_out c now (now + c.timeout) (by omega) h.order
    (by rw [TRead.until, if_neg hpos]) m.1 m.2 _ missing hw hl hm (h.arrived hs hD)
  exact ⟨c', h1, h2⟩

theorem late_missing {l : List (Nat × UInt8)} (hs : Sorted l) {d : Nat} (m : Msg) (rest : Bytes)
    (hl : l.map (·.2) = m.wire ++ rest) (ht : ¬ (l.map (·.1)).getD (m.wire.length - 1) 0 < d) :
    ∃ missing, missing ≠ [] ∧ (l.filter (fun x => x.1 < d)).map (·.2) ++ missing = m.wire := by
  have hlen : m.wire.length ≤ l.length := by
    have := congrArg List.length hl; simp at this; omega
  have hp := wire_pos m
  obtain ⟨k, hk, e, hf⟩ := sorted_filter_take hs d
  have hkm : k < m.wire.length := by
    apply Classical.byContradiction
    intro hc
    have hmem : l[m.wire.length - 1]'(by omega) ∈ l.filter (fun x => decide (x.1 < d)) := by
      rw [e]
      rw [List.mem_iff_getElem]
      exact ⟨m.wire.length - 1, by simp; omega, by rw [List.getElem_take]⟩
    have := (List.mem_filter.mp hmem).2
    rw [getD_lt (by simp; omega), List.getElem_map] at ht
    simp at this
    exact ht this
  refine ⟨m.wire.drop k, by simp; omega, ?_⟩
  rw [e, List.map_take, hl, List.take_append_of_le_length (by omega), List.take_append_drop]

theorem tail_missing {l : List (Nat × UInt8)} (hs : Sorted l) (d : Nat) {tail : Bytes} (hu : Unfinished tail)
    (hl : l.map (·.2) = tail) :
    ∃ (m : Msg) (missing : Bytes), m.Whole ∧ missing ≠ [] ∧ (l.filter (fun x => x.1 < d)).map (·.2) ++ missing = m.wire := by
  obtain ⟨m, missing, hw, hm, he⟩ := hu
  obtain ⟨k, hk, e, hf⟩ := sorted_filter_take hs d
  refine ⟨m, tail.drop k ++ missing, hw, by simp [hm], ?_⟩
  rw [e, List.map_take, hl, ← List.append_assoc, List.take_append_drop, he]

private theorem serve_timeline_aux (d : Nat) (hd : d ≠ 0) (ms : List Msg) (hw : ∀ m ∈ ms, m.Whole) (tail : Bytes)
    (hu : Unfinished tail) : ∀ (dur : Nat → Nat) (c : TRead) (l : List (Nat × UInt8)) (D now free : Nat),
    ConnAt c l D → Sorted l → c.timeout = d → D ≤ now + d → l.map (·.2) = ms.flatMap Msg.wire ++ tail →
    ∃ reqs, ServeTimed dur c (l.map (·.1)) now free reqs
        (some (timeline d dur now free ((completions (l.map (·.1)) ms).zip ms)).2) ∧
      reqs.map seen = (timeline d dur now free ((completions (l.map (·.1)) ms).zip ms)).1.map shown := by
  induction ms with
  | nil =>
    intro dur c l D now free h hs hc hD hl
    obtain ⟨m, missing, hmw, hm, he⟩ := tail_missing hs (now + d) hu (by simpa using hl)
    obtain ⟨c', h1, h2⟩ := step_timeout (now := now) h hs (by omega) (by omega) m hmw missing (by rw [hc]; exact he) hm
    refine ⟨[], ?_, rfl⟩
    have := ServeTimed.timeout dur c (l.map (·.1)) now free none c' _ h1 h2
    rw [hc] at this
    simpa [completions, timeline, Nat.max_eq_right (Nat.le_add_right now d)] using this
  | cons m ms ih =>
    intro dur c l D now free h hs hc hD hl
    have hmw := hw m (by simp)
    rw [List.flatMap_cons, List.append_assoc] at hl
    by_cases ht : (l.map (·.1)).getD (m.wire.length - 1) 0 < now + d
    · obtain ⟨q, c', h1, h2, h3, h4, h5⟩ := step_message (now := now) h hs (by omega) (by omega) m hmw _ hl
        (by rw [hc]; exact ht)
      have hql : q.header.len = m.wire.length := by rw [h2, len_wire hmw]
      obtain ⟨reqs, r1, r2⟩ := ih (fun m' hm' => hw m' (by simp [hm'])) (fun i => dur (i + 1)) c'
        (l.drop m.wire.length) (now + c.timeout)
        (max (returnsAt now m.wire.length (l.map (·.1))) free)
        (max (returnsAt now m.wire.length (l.map (·.1))) free + dur 0) h5
        (List.Pairwise.sublist (List.drop_sublist _ _) hs) (by omega)
        (by rw [hc]; simp only [returnsAt]; omega)
        (by rw [List.map_drop, hl, List.drop_left])
      refine ⟨(max (returnsAt now m.wire.length (l.map (·.1))) free, q) :: reqs, ?_, ?_⟩
      · have := ServeTimed.request dur c (l.map (·.1)) now free q c' reqs _ h1
          (by rw [hql, ← List.map_drop]; exact r1)
        rw [hql] at this
        simp only [completions, List.zip_cons_cons, timeline, ht, if_true]
        rw [← List.map_drop]
        exact this
      · simp only [completions, List.zip_cons_cons, timeline, ht, if_true, List.map_cons]
        rw [← List.map_drop, r2]
        simp [seen, shown, h2, h3, returnsAt]
    · obtain ⟨missing, hm, he⟩ := late_missing hs m _ hl ht
      obtain ⟨c', h1, h2⟩ := step_timeout (now := now) h hs (by omega) (by omega) m hmw missing (by rw [hc]; exact he) hm
      refine ⟨[], ?_, ?_⟩
      · have := ServeTimed.timeout dur c (l.map (·.1)) now free none c' _ h1 h2
        rw [hc] at this
        simpa only [completions, List.zip_cons_cons, timeline, ht, if_false,
          Nat.max_eq_right (Nat.le_add_right now d)] using this
      · simp only [completions, List.zip_cons_cons, timeline, ht, if_false, List.map_nil]

/-- C100.  A server with a ReadTimeout, for every stream of messages, however it is cut into chunks and
whenever these arrive, and for handlers that keep the loop busy for any time: which requests are
given to the runner, when, and when the connection is closed. -/
theorem serve_timeline (d : Nat) (hd : d ≠ 0) (dur : Nat → Nat) (sched : List Nat) (arr : List (Nat × Bytes))
    (ho : InOrder arr) (ms : List Msg) (hw : ∀ m ∈ ms, m.Whole) (tail : Bytes) (hu : Unfinished tail)
    (hm : arr.flatMap (·.2) = ms.flatMap Msg.wire ++ tail) (now free : Nat) :
    (∃ reqs e, ServeTimed dur (TRead.new d sched arr) (byteTimes arr) now free reqs e) ∧
    ∀ reqs e, ServeTimed dur (TRead.new d sched arr) (byteTimes arr) now free reqs e →
      reqs.map seen = (timeline d dur now free ((completions (byteTimes arr) ms).zip ms)).1.map shown ∧
      e = some (timeline d dur now free ((completions (byteTimes arr) ms).zip ms)).2 := by
  obtain ⟨reqs, h1, h2⟩ := serve_timeline_aux d hd ms hw tail hu dur (TRead.new d sched arr) (stamped arr) 0 now free
    ⟨by simp [TRead.held, TRead.new], by rw [List.filter_eq_self.mpr (by simp)]; rfl, ho⟩ (stamped_sorted ho) rfl (by omega)
    (by rw [stamped_snd, hm])
  rw [stamped_fst] at h1 h2
  refine ⟨⟨_, _, h1⟩, fun reqs' e' h' => ?_⟩
  obtain ⟨rfl, rfl⟩ := serveTimed_unique h1 h'
  exact ⟨h2, rfl⟩

/-! ## Peers that are prompt and peers that are not -/

/-- The times at which the messages are complete: each is less than `d` behind the one before it, the first
less than `d` behind `now`. -/
def Prompt (d : Nat) : (now : Nat) → List Nat → Prop
  | _, [] => True
  | now, t :: ts => t < now + d ∧ Prompt d (max now t) ts

/-- The latest of the times, but not before `now`. -/
def latest (now : Nat) (ts : List Nat) : Nat := ts.foldl max now

private theorem timeline_prompt (d : Nat) : ∀ (l : List (Nat × Msg)) (more : List (Nat × Msg)) (now : Nat),
    Prompt d now (l.map (·.1)) →
    (∀ x, more.head? = some x → latest now (l.map (·.1)) + d ≤ x.1) →
    ((timeline d (fun _ => 0) now now (l ++ more)).1.map (·.2) = l.map (·.2) ∧
      ∀ x ∈ (timeline d (fun _ => 0) now now (l ++ more)).1, x.1 ≤ latest now (l.map (·.1))) ∧
    (timeline d (fun _ => 0) now now (l ++ more)).2 = latest now (l.map (·.1)) + d := by
  intro l
  induction l with
  | nil =>
    intro more now _ hm
    cases more with
    | nil => simp [timeline, latest]
    | cons x t =>
      have h1 := hm x rfl
      simp only [List.map_nil, latest, List.foldl_nil] at h1
      rw [List.nil_append, timeline, if_neg (by omega)]
      simp [latest]
  | cons a t ih =>
    intro more now hp hm
    obtain ⟨a, m⟩ := a
    simp only [List.map_cons, Prompt] at hp
    obtain ⟨i1, i2⟩ := ih more (max now a) hp.2 (by simpa [latest] using hm)
    rw [List.cons_append, timeline, if_pos hp.1]
    have hk : max (max now a) now = max now a := by omega
    simp only [hk, Nat.add_zero]
    refine ⟨⟨by rw [List.map_cons, i1.1]; rfl, ?_⟩, by rw [i2]; rfl⟩
    intro x hx
    rcases List.mem_cons.mp hx with rfl | hx
    · have : ∀ (ts : List Nat) (n : Nat), n ≤ latest n ts := by
        intro ts
        induction ts with
        | nil => intro n; exact Nat.le_refl _
        | cons b ts ih => intro n; have := ih (max n b); simp only [latest, List.foldl_cons] at this ⊢; omega
      exact this _ _
    · exact i1.2 x hx

/-- The times at which the requests of a prompt peer are given to the runner. -/
private theorem timeline_times (d : Nat) : ∀ (l : List (Nat × Msg)) (now : Nat), Prompt d now (l.map (·.1)) →
    (l.map (·.1)).Pairwise (· ≤ ·) →
    (timeline d (fun _ => 0) now now l).1 = l.map (fun x => (max now x.1, x.2)) := by
  intro l
  induction l with
  | nil => intros; rfl
  | cons a t ih =>
    intro now hp hs
    obtain ⟨a, m⟩ := a
    simp only [List.map_cons, Prompt] at hp
    rw [List.map_cons, List.pairwise_cons] at hs
    rw [timeline, if_pos hp.1]
    have hk : max (max now a) now = max now a := by omega
    simp only [hk, Nat.add_zero, List.map_cons]
    rw [ih _ hp.2 hs.2]
    congr 1
    refine List.map_congr_left fun x hx => ?_
    have := hs.1 x.1 (List.mem_map_of_mem hx)
    simp only [Prod.mk.injEq, and_true]
    omega

theorem completions_length (ts : List Nat) (ms : List Msg) : (completions ts ms).length = ms.length := by
  induction ms generalizing ts with
  | nil => rfl
  | cons m ms ih => simp [completions, ih]

private theorem completions_append (ts : List Nat) (a b : List Msg) :
    completions ts (a ++ b) = completions ts a ++ completions (ts.drop (a.flatMap Msg.wire).length) b := by
  induction a generalizing ts with
  | nil => simp [completions]
  | cons m a ih => simp [completions, ih, List.drop_drop]

theorem zip_fst {α β : Type} : ∀ (a : List α) (b : List β), a.length = b.length → (a.zip b).map (·.1) = a
  | [], [], _ => rfl
  | x :: a, y :: b, h => by simp [zip_fst a b (by simpa using h)]

theorem zip_snd {α β : Type} : ∀ (a : List α) (b : List β), a.length = b.length → (a.zip b).map (·.2) = b
  | [], [], _ => rfl
  | x :: a, y :: b, h => by simp [zip_snd a b (by simpa using h)]

/-- What a handler sees of a request, without the time. -/
def content (x : Nat × Request) : Header × Body := (x.2.header, x.2.body)

theorem completions_mem {ts : List Nat} {ms : List Msg} (h : (ms.flatMap Msg.wire).length ≤ ts.length) :
    ∀ t ∈ completions ts ms, t ∈ ts := by
  induction ms generalizing ts with
  | nil => intro t ht; simp [completions] at ht
  | cons m ms ih =>
    intro t ht
    have hp := wire_pos m
    rw [List.flatMap_cons, List.length_append] at h
    rcases List.mem_cons.mp ht with rfl | ht
    · rw [getD_lt (by omega)]; exact List.getElem_mem _
    · exact List.mem_of_mem_drop (ih (by rw [List.length_drop]; omega) t ht)

theorem completions_sorted {ts : List Nat} (hs : ts.Pairwise (· ≤ ·)) {ms : List Msg}
    (h : (ms.flatMap Msg.wire).length ≤ ts.length) : (completions ts ms).Pairwise (· ≤ ·) := by
  induction ms generalizing ts with
  | nil => exact List.Pairwise.nil
  | cons m ms ih =>
    have hp := wire_pos m
    rw [List.flatMap_cons, List.length_append] at h
    refine List.pairwise_cons.mpr ⟨?_, ih (List.Pairwise.sublist (List.drop_sublist _ _) hs)
      (by rw [List.length_drop]; omega)⟩
    intro t ht
    have hmem := completions_mem (by rw [List.length_drop]; omega) t ht
    obtain ⟨i, hi, rfl⟩ := List.getElem_of_mem hmem
    rw [List.length_drop] at hi
    rw [getD_lt (by omega), List.getElem_drop]
    exact List.pairwise_iff_getElem.mp hs _ _ (by omega) (by omega) (by omega)

theorem times_sorted {arr : List (Nat × Bytes)} (ho : InOrder arr) : (byteTimes arr).Pairwise (· ≤ ·) := by
  rw [← stamped_fst, List.pairwise_map]
  exact stamped_sorted ho

theorem times_length (arr : List (Nat × Bytes)) : (byteTimes arr).length = (arr.flatMap (·.2)).length := by
  rw [← stamped_fst, ← stamped_snd]; simp

/-- C100.  A server with a ReadTimeout `d` and a runner that does not keep it busy.  All messages that come
promptly are given to the runner, each at the moment at which it is complete (or, if it was there
before, at once); the connection is closed when the peer has then been without a complete message for
`d`, neither earlier nor later. -/
theorem serve_prompt (d : Nat) (hd : d ≠ 0) (sched : List Nat) (arr : List (Nat × Bytes)) (ho : InOrder arr)
    (ms : List Msg) (hw : ∀ m ∈ ms, m.Whole) (tail : Bytes) (hu : Unfinished tail)
    (hm : arr.flatMap (·.2) = ms.flatMap Msg.wire ++ tail) (now : Nat)
    (hp : Prompt d now (completions (byteTimes arr) ms)) (reqs : List (Nat × Request)) (e : Option Nat)
    (hr : ServeTimed (fun _ => 0) (TRead.new d sched arr) (byteTimes arr) now now reqs e) :
    reqs.map content = ms.map (fun m => (m.1, Body.buffer m.2)) ∧
    reqs.map (·.1) = (completions (byteTimes arr) ms).map (max now) ∧
    e = some (latest now (completions (byteTimes arr) ms) + d) := by
  obtain ⟨h1, h2⟩ := (serve_timeline d hd (fun _ => 0) sched arr ho ms hw tail hu hm now now).2 reqs e hr
  have hl := completions_length (byteTimes arr) ms
  have hz := zip_fst _ _ hl
  obtain ⟨_, i3⟩ := timeline_prompt d ((completions (byteTimes arr) ms).zip ms) [] now (by rw [hz]; exact hp)
    (by simp)
  rw [List.append_nil] at i3
  rw [hz] at i3
  rw [timeline_times d _ now (by rw [hz]; exact hp) (by
    rw [hz]
    refine completions_sorted (times_sorted ho) ?_
    rw [times_length, hm, List.length_append]; omega)] at h1
  refine ⟨?_, ?_, by rw [h2, i3]⟩
  · have := congrArg (List.map (fun x : Nat × Header × Body => x.2)) h1
    simp only [List.map_map] at this
    have hs := congrArg (List.map (fun m : Msg => (m.1, Body.buffer m.2))) (zip_snd _ _ hl)
    rw [List.map_map] at hs
    exact this.trans hs
  · have := congrArg (List.map (fun x : Nat × Header × Body => x.1)) h1
    simp only [List.map_map] at this
    have hs := congrArg (List.map (max now)) hz
    rw [List.map_map] at hs
    exact this.trans hs

/-- C100.  A peer that is slow: after the messages `done`, which came promptly, the next message is not
complete in time, however many of its bytes come meanwhile and whatever comes later.  Exactly the
messages `done` are given to the runner, and the connection is closed when the timeout has passed. -/
theorem serve_slow (d : Nat) (hd : d ≠ 0) (sched : List Nat) (arr : List (Nat × Bytes)) (ho : InOrder arr)
    (done : List Msg) (m : Msg) (later : List Msg) (hw : ∀ m' ∈ done ++ m :: later, m'.Whole) (tail : Bytes)
    (hu : Unfinished tail) (hm : arr.flatMap (·.2) = (done ++ m :: later).flatMap Msg.wire ++ tail) (now : Nat)
    (hp : Prompt d now (completions (byteTimes arr) done))
    (hslow : latest now (completions (byteTimes arr) done) + d ≤
      (byteTimes arr).getD ((done.flatMap Msg.wire).length + m.wire.length - 1) 0)
    (reqs : List (Nat × Request)) (e : Option Nat)
    (hr : ServeTimed (fun _ => 0) (TRead.new d sched arr) (byteTimes arr) now now reqs e) :
    reqs.map content = done.map (fun m => (m.1, Body.buffer m.2)) ∧
    e = some (latest now (completions (byteTimes arr) done) + d) := by
  obtain ⟨h1, h2⟩ := (serve_timeline d hd (fun _ => 0) sched arr ho _ hw tail hu hm now now).2 reqs e hr
  have hl := completions_length (byteTimes arr) done
  have hz := zip_fst _ _ hl
  rw [completions_append, List.zip_append hl] at h1 h2
  have hwp := wire_pos m
  obtain ⟨⟨i1, i2⟩, i3⟩ := timeline_prompt d ((completions (byteTimes arr) done).zip done)
    ((completions ((byteTimes arr).drop (done.flatMap Msg.wire).length) (m :: later)).zip (m :: later)) now
    (by rw [hz]; exact hp)
    (by
      intro x hx
      rw [completions, List.zip_cons_cons, List.head?_cons, Option.some.injEq] at hx
      rw [hz, ← hx]
      simp only
      have : ((byteTimes arr).drop (done.flatMap Msg.wire).length).getD (m.wire.length - 1) 0
          = (byteTimes arr).getD ((done.flatMap Msg.wire).length + m.wire.length - 1) 0 := by
        simp only [List.getD, List.getElem?_drop]
        rw [Nat.add_sub_assoc (by omega)]
      rw [this]
      exact hslow)
  rw [hz] at i3
  refine ⟨?_, by rw [h2, i3]⟩
  have := congrArg (List.map (fun x : Nat × Header × Body => x.2)) h1
  rw [List.map_map, List.map_map] at this
  rw [zip_snd _ _ hl] at i1
  calc reqs.map content = reqs.map ((fun x : Nat × Header × Body => x.2) ∘ seen) := rfl
    _ = _ := this
    _ = (List.map (·.2) (timeline d (fun _ => 0) now now ((completions (byteTimes arr) done).zip done ++
          (completions ((byteTimes arr).drop (done.flatMap Msg.wire).length) (m :: later)).zip (m :: later))).1).map
          (fun m : Msg => (m.1, Body.buffer m.2)) := by rw [List.map_map]; rfl
    _ = _ := by rw [i1]

private theorem timeline_busy (d : Nat) : ∀ (l : List (Nat × Msg)) (dur : Nat → Nat) (now now' free : Nat),
    Prompt d now' (l.map (·.1)) → now' ≤ now →
    (timeline d dur now free l).1.map (·.2) = l.map (·.2) ∧
    latest now' (l.map (·.1)) + d ≤ (timeline d dur now free l).2 := by
  intro l
  induction l with
  | nil => intro dur now now' free _ hn; simp only [timeline, List.map_nil, latest, List.foldl_nil, true_and]; omega
  | cons a t ih =>
    intro dur now now' free hp hn
    obtain ⟨a, m⟩ := a
    simp only [List.map_cons, Prompt] at hp
    rw [timeline, if_pos (by omega)]
    obtain ⟨i1, i2⟩ := ih (fun i => dur (i + 1)) (max (max now a) free) (max now' a)
      (max (max now a) free + dur 0) hp.2 (by omega)
    exact ⟨by simp only [List.map_cons]; rw [i1], i2⟩

/-- C100.  Slow handlers do not cost a peer its connection: if the messages come promptly, all of them are given
to the runner, however long it keeps the server busy with each, and the connection is not closed
before the peer has been without a complete message for the timeout. -/
theorem serve_busy (d : Nat) (hd : d ≠ 0) (dur : Nat → Nat) (sched : List Nat) (arr : List (Nat × Bytes))
    (ho : InOrder arr) (ms : List Msg) (hw : ∀ m ∈ ms, m.Whole) (tail : Bytes) (hu : Unfinished tail)
    (hm : arr.flatMap (·.2) = ms.flatMap Msg.wire ++ tail) (now free : Nat)
    (hp : Prompt d now (completions (byteTimes arr) ms)) (reqs : List (Nat × Request)) (e : Option Nat)
    (hr : ServeTimed dur (TRead.new d sched arr) (byteTimes arr) now free reqs e) :
    reqs.map content = ms.map (fun m => (m.1, Body.buffer m.2)) ∧
    ∃ x, e = some x ∧ latest now (completions (byteTimes arr) ms) + d ≤ x := by
  obtain ⟨h1, h2⟩ := (serve_timeline d hd dur sched arr ho ms hw tail hu hm now free).2 reqs e hr
  have hl := completions_length (byteTimes arr) ms
  have hz := zip_fst _ _ hl
  obtain ⟨i1, i2⟩ := timeline_busy d ((completions (byteTimes arr) ms).zip ms) dur now now free
    (by rw [hz]; exact hp) (Nat.le_refl _)
  rw [hz] at i2
  refine ⟨?_, _, h2, i2⟩
  have := congrArg (List.map (fun x : Nat × Header × Body => x.2)) h1
  rw [List.map_map, List.map_map] at this
  have hs := congrArg (List.map (fun m : Msg => (m.1, Body.buffer m.2))) (i1.trans (zip_snd _ _ hl))
  rw [List.map_map] at hs
  exact this.trans hs

/-- C100.  A peer that sends every message in one piece, none of them `d` or more after the one before it (an echo
request at times, say), keeps its connection: everything it sends is given to the runner, at the
moment at which it arrives. -/
theorem serve_keepalive (d : Nat) (hd : d ≠ 0) (sched : List Nat) (sent : List (Nat × Msg))
    (hw : ∀ x ∈ sent, x.2.Whole) (ho : (sent.map (·.1)).Pairwise (· ≤ ·)) (now : Nat)
    (hn : ∀ x ∈ sent, now ≤ x.1) (hp : Prompt d now (sent.map (·.1))) (reqs : List (Nat × Request)) (e : Option Nat)
    (hr : ServeTimed (fun _ => 0) (TRead.new d sched (sent.map (fun x => (x.1, x.2.wire))))
      (byteTimes (sent.map (fun x => (x.1, x.2.wire)))) now now reqs e) :
    reqs.map seen = sent.map shown ∧ e = some (latest now (sent.map (·.1)) + d) := by
  have hc : ∀ sent : List (Nat × Msg),
      completions (byteTimes (sent.map (fun x => (x.1, x.2.wire)))) (sent.map (·.2)) = sent.map (·.1) := by
    intro sent
    induction sent with
    | nil => rfl
    | cons a t ih =>
      have hwp := wire_pos a.2
      simp only [byteTimes, List.map_cons, List.flatMap_cons, completions] at ih ⊢
      have e1 : (a.2.wire.map (fun _ => a.1)).length = a.2.wire.length := List.length_map ..
      have e2 : (a.2.wire.map (fun _ => a.1) ++ (t.map (fun x => (x.1, x.2.wire))).flatMap
          (fun x => x.2.map (fun _ => x.1))).drop a.2.wire.length = (t.map (fun x => (x.1, x.2.wire))).flatMap
          (fun x => x.2.map (fun _ => x.1)) := by
        rw [← e1, List.drop_left]
      rw [e2, ih, getD_lt (by rw [List.length_append, e1]; omega),
        List.getElem_append_left (by rw [e1]; omega), List.getElem_map]
  obtain ⟨h1, h2, h3⟩ := serve_prompt d hd sched _ (by
      simp only [InOrder, List.pairwise_map] at ho ⊢; exact ho) (sent.map (·.2))
    (by intro m hm; obtain ⟨x, hx, rfl⟩ := List.mem_map.mp hm; exact hw x hx) []
    ⟨(⟨4, 2, 8, 1⟩, []), Msg.wire (⟨4, 2, 8, 1⟩, []), rfl, by decide, rfl⟩
    (by rw [List.append_nil, List.flatMap_map, List.flatMap_map]) now (by rw [hc]; exact hp) reqs e hr
  rw [hc] at h2 h3
  refine ⟨?_, h3⟩
  have hlen : reqs.length = sent.length := by simpa using congrArg List.length h1
  refine List.ext_getElem (by simpa using hlen) fun i hi hi' => ?_
  simp only [List.length_map] at hi hi'
  have g1 : (reqs.map content)[i]'(by simpa using hi) = (sent.map (·.2) |>.map fun m => (m.1, Body.buffer m.2))[i]'(by simpa using hi') := by
    simp only [h1]
  have g2 : (reqs.map (·.1))[i]'(by simpa using hi) = ((sent.map (·.1)).map (max now))[i]'(by simpa using hi') := by
    simp only [h2]
  simp only [List.getElem_map, content] at g1 g2
  have := hn sent[i] (List.getElem_mem _)
  simp only [List.getElem_map, seen, shown]
  rw [g2]
  rw [Nat.max_eq_right this]
  exact Prod.ext rfl g1

/-! ## No timeout -/

private theorem receive_never (c : TRead) (now : Nat) (h0 : c.timeout = 0) (hd : c.deadline = none)
    (m : Msg) (missing : Bytes) (hw : m.Whole) (hne : missing ≠ [])
    (hm : TRead.held c ++ c.arr.flatMap (·.2) ++ missing = m.wire) : c.receive now = none := by
  obtain ⟨r', g1, _⟩ := receive_part
    (.buf c.buf none (.src (c.data ++ c.arr.flatMap (·.2)) c.sched .timeout false)) (by simp [Rd.Ok])
    m.1 m.2 _ missing hw hm hne (by simp [Rd.content, TRead.held])
  simp only [TRead.receive, h0, if_true, hd]
  rw [g1]
  simp

private theorem receive_now (c : TRead) (now : Nat) (h0 : c.timeout = 0) (hd : c.deadline = none)
    (m : Msg) (rest : Bytes) (hw : m.Whole) (hm : TRead.held c ++ c.arr.flatMap (·.2) = m.wire ++ rest) :
    ∃ q c', c.receive now = some (some q, none, c') ∧ q.header = m.1 ∧ q.body = .buffer m.2 ∧
      TRead.held c' ++ c'.arr.flatMap (·.2) = rest ∧ c'.timeout = 0 ∧ c'.deadline = none := by
  obtain ⟨q, r', g1, g2, g3, g4⟩ := receive_msg (F := .timeout)
    (.buf c.buf none (.src (c.data ++ c.arr.flatMap (·.2)) c.sched .timeout false)) (by simp [Rd.Ok])
    rfl m.1 m.2 rest hw (by
      have : m.1.bytes ++ m.2 ++ rest = m.wire ++ rest := rfl
      rw [this, ← hm]; simp [Rd.content, TRead.held])
  have ht : (Rd.buf c.buf none (.src (c.data ++ c.arr.flatMap (·.2)) c.sched .timeout false)).Timed _ :=
    ⟨_, _, _, rfl, Nat.le_refl _⟩
  have hsh := ht.receive
  rw [g1] at hsh
  obtain ⟨b', d', s', hsh, _⟩ := hsh
  simp only at hsh
  subst hsh
  refine ⟨q, ⟨b', d', s', none, 0, []⟩, ?_, g2, g3, by simpa [Rd.content, TRead.held] using g4, rfl, rfl⟩
  simp only [TRead.receive, h0, if_true, hd]
  rw [g1]
  simp [TRead.put, hd, h0]

private theorem serve_patient_aux (ms : List Msg) (hw : ∀ m ∈ ms, m.Whole) (tail : Bytes) (hu : Unfinished tail) :
    ∀ (dur : Nat → Nat) (c : TRead) (ts : List Nat) (now free : Nat), c.timeout = 0 → c.deadline = none →
    TRead.held c ++ c.arr.flatMap (·.2) = ms.flatMap Msg.wire ++ tail →
    ∃ reqs, ServeTimed dur c ts now free reqs none ∧
      reqs.map content = ms.map (fun m => (m.1, Body.buffer m.2)) := by
  induction ms with
  | nil =>
    intro dur c ts now free h0 hd hm
    obtain ⟨m, missing, hmw, hne, he⟩ := hu
    exact ⟨[], .waits _ _ _ _ _ (receive_never c now h0 hd m missing hmw hne
      (by rw [hm, List.flatMap_nil, List.nil_append]; exact he)), rfl⟩
  | cons m ms ih =>
    intro dur c ts now free h0 hd hm
    rw [List.flatMap_cons, List.append_assoc] at hm
    obtain ⟨q, c', h1, h2, h3, h4, h5, h6⟩ := receive_now c now h0 hd m _ (hw m (by simp)) hm
    obtain ⟨reqs, r1, r2⟩ := ih (fun m' h' => hw m' (by simp [h'])) (fun i => dur (i + 1)) c' (ts.drop q.header.len)
      (max (returnsAt now q.header.len ts) free) (max (returnsAt now q.header.len ts) free + dur 0) h5 h6 h4
    exact ⟨_, .request _ _ _ _ _ _ _ _ _ h1 r1, by simp [content, h2, h3, r2]⟩

/-- C100.  A server without ReadTimeout never closes a connection for being slow: whatever the times, every message
is given to the runner and `serve` does not end. -/
theorem serve_patient (dur : Nat → Nat) (sched : List Nat) (arr : List (Nat × Bytes)) (ms : List Msg)
    (hw : ∀ m ∈ ms, m.Whole) (tail : Bytes) (hu : Unfinished tail)
    (hm : arr.flatMap (·.2) = ms.flatMap Msg.wire ++ tail) (now free : Nat) :
    (∃ reqs e, ServeTimed dur (TRead.new 0 sched arr) (byteTimes arr) now free reqs e) ∧
    ∀ reqs e, ServeTimed dur (TRead.new 0 sched arr) (byteTimes arr) now free reqs e →
      reqs.map content = ms.map (fun m => (m.1, Body.buffer m.2)) ∧ e = none := by
  obtain ⟨reqs, h1, h2⟩ := serve_patient_aux ms hw tail hu dur (TRead.new 0 sched arr) (byteTimes arr) now free rfl rfl
    (by simpa [TRead.held, TRead.new] using hm)
  refine ⟨⟨_, _, h1⟩, fun reqs' e' h' => ?_⟩
  obtain ⟨rfl, rfl⟩ := serveTimed_unique h1 h'
  exact ⟨h2, rfl⟩

/-! ## A wrong header -/

private theorem serve_prefix (d : Nat) (hd : d ≠ 0) (ms : List Msg) (hw : ∀ m ∈ ms, m.Whole) (rest : Bytes) :
    ∀ (c : TRead) (l : List (Nat × UInt8)) (D now : Nat), ConnAt c l D → Sorted l → c.timeout = d → D ≤ now + d →
    l.map (·.2) = ms.flatMap Msg.wire ++ rest → Prompt d now (completions (l.map (·.1)) ms) →
    ∃ c' D' reqs, ConnAt c' (l.drop (ms.flatMap Msg.wire).length) D' ∧ c'.timeout = d ∧
      D' ≤ latest now (completions (l.map (·.1)) ms) + d ∧
      reqs.map content = ms.map (fun m => (m.1, Body.buffer m.2)) ∧
      ∀ reqs' e, ServeTimed (fun _ => 0) c' ((l.drop (ms.flatMap Msg.wire).length).map (·.1))
          (latest now (completions (l.map (·.1)) ms)) (latest now (completions (l.map (·.1)) ms)) reqs' e →
        ServeTimed (fun _ => 0) c (l.map (·.1)) now now (reqs ++ reqs') e := by
  induction ms with
  | nil =>
    intro c l D now h hs hc hD hl hp
    exact ⟨c, D, [], by simpa using h, hc, by simpa [completions, latest] using hD, rfl,
      fun reqs' e h' => by simpa [completions, latest] using h'⟩
  | cons m ms ih =>
    intro c l D now h hs hc hD hl hp
    have hmw := hw m (by simp)
    rw [List.flatMap_cons, List.append_assoc] at hl
    simp only [completions, Prompt] at hp
    obtain ⟨q, c1, h1, h2, h3, h4, h5⟩ := step_message (now := now) h hs (by omega) (by omega) m hmw _ hl
      (by rw [hc]; exact hp.1)
    have hql : q.header.len = m.wire.length := by rw [h2, len_wire hmw]
    have hmax : max (returnsAt now m.wire.length (l.map (·.1))) now
        = max now ((l.map (·.1)).getD (m.wire.length - 1) 0) := by simp only [returnsAt]; omega
    obtain ⟨c', D', reqs, g1, g2, g3, g4, g5⟩ := ih (fun m' hm' => hw m' (by simp [hm'])) c1
      (l.drop m.wire.length) (now + c.timeout) (max now ((l.map (·.1)).getD (m.wire.length - 1) 0)) h5
      (List.Pairwise.sublist (List.drop_sublist _ _) hs) (by omega) (by omega)
      (by rw [List.map_drop, hl, List.drop_left]) (by rw [List.map_drop]; exact hp.2)
    rw [List.map_drop] at g3
    rw [List.drop_drop, ← List.length_append, ← List.flatMap_cons] at g1 g5
    simp only [List.map_drop] at g5 ⊢
    refine ⟨c', D', (max now ((l.map (·.1)).getD (m.wire.length - 1) 0), q) :: reqs, g1, g2, g3,
      by simp [content, h2, h3, g4], fun reqs' e h' => ?_⟩
    have := ServeTimed.request (fun _ => 0) c (l.map (·.1)) now now q c1 (reqs ++ reqs') e h1
      (by rw [hql, hmax]; exact g5 reqs' e h')
    rw [hql, hmax] at this
    exact this

/-- C100.  A peer whose stream goes wrong, by a header that declares less than its own size: what came before is
given to the runner, and the connection is closed at the moment at which the header is complete. -/
theorem serve_corrupt (d : Nat) (hd : d ≠ 0) (sched : List Nat) (arr : List (Nat × Bytes)) (ho : InOrder arr)
    (ms : List Msg) (hw : ∀ m ∈ ms, m.Whole) (h : Header) (hh : h.length.toNat < 8) (rest : Bytes)
    (hm : arr.flatMap (·.2) = ms.flatMap Msg.wire ++ (h.bytes ++ rest)) (now : Nat)
    (hp : Prompt d now (completions (byteTimes arr) ms))
    (ht : (byteTimes arr).getD ((ms.flatMap Msg.wire).length + 7) 0 < latest now (completions (byteTimes arr) ms) + d)
    (reqs : List (Nat × Request)) (e : Option Nat)
    (hr : ServeTimed (fun _ => 0) (TRead.new d sched arr) (byteTimes arr) now now reqs e) :
    reqs.map content = ms.map (fun m => (m.1, Body.buffer m.2)) ∧
    e = some (max (latest now (completions (byteTimes arr) ms))
      ((byteTimes arr).getD ((ms.flatMap Msg.wire).length + 7) 0)) := by
  obtain ⟨c', D', rs, g1, g2, g3, g4, g5⟩ := serve_prefix d hd ms hw _ (TRead.new d sched arr) (stamped arr) 0 now
    ⟨by simp [TRead.held, TRead.new], by rw [List.filter_eq_self.mpr (by simp)]; rfl, ho⟩ (stamped_sorted ho) rfl
    (by omega) (by rw [stamped_snd, hm]) (by rw [stamped_fst]; exact hp)
  have hs' : Sorted ((stamped arr).drop (ms.flatMap Msg.wire).length) :=
    List.Pairwise.sublist (List.drop_sublist _ _) (stamped_sorted ho)
  rw [stamped_fst] at g3 g5
  rw [List.map_drop, stamped_fst] at g5
  generalize hN : latest now (completions (byteTimes arr) ms) = N at *
  have hl : ((stamped arr).drop (ms.flatMap Msg.wire).length).map (·.2) = h.bytes ++ rest := by
    rw [List.map_drop, stamped_snd, hm, List.drop_left]
  have hfst : ((stamped arr).drop (ms.flatMap Msg.wire).length).map (·.1) = (byteTimes arr).drop (ms.flatMap Msg.wire).length := by
    rw [List.map_drop, stamped_fst]
  have hgd : ((byteTimes arr).drop (ms.flatMap Msg.wire).length).getD 7 0
      = (byteTimes arr).getD ((ms.flatMap Msg.wire).length + 7) 0 := by
    simp only [List.getD, List.getElem?_drop]
  generalize hL : (stamped arr).drop (ms.flatMap Msg.wire).length = l at *
  have hlen : 8 ≤ l.length := by
    have := congrArg List.length hl; simp [Header.bytes_length] at this; omega
  obtain ⟨f1, _⟩ := filter_all_lt (l := l.take 8) (d := N + d) (by
    intro x hx
    have := sorted_last hs' (n := 7) (by omega) x hx
    rw [hfst, hgd] at this
    omega)
  obtain ⟨r, h2, h3, h4, b', d', s', h5, h6⟩ := receive_run c' N (N + d) (by omega) g1.order
    (by rw [if_neg (by omega), g2])
  have hcont : r.content = h.bytes ++ ((l.drop 8).filter (fun x => x.1 < N + d)).map (·.2) := by
    rw [h4, g1.arrived hs' (by omega)]
    conv => lhs; rw [← List.take_append_drop 8 l]
    rw [List.filter_append, List.map_append, f1, List.map_take, hl]
    have := h.bytes_length
    rw [List.take_append_of_le_length (by omega), List.take_of_length_le (by omega)]
  have hof : Header.ofBytes r.content = h := by rw [hcont, Header.ofBytes_bytes]
  have hrl : 8 ≤ r.content.length := by rw [hcont]; simp [Header.bytes_length]
  have hcor : ∃ r', Conn.receive r = (none, some .corruptedHeader, r') := by
    have hlen' : h.len < 8 := hh
    rcases Conn.receive_spec .timeout r h2 with ⟨g, _⟩ | ⟨_, _, r', g, _⟩ | ⟨_, g, _⟩ | ⟨g, _⟩
    · omega
    · exact ⟨r', g⟩
    · rw [hof] at g; omega
    · rw [hof] at g; omega
  obtain ⟨r', g⟩ := hcor
  rw [g] at h6
  have hf := ServeTimed.fails (fun _ => 0) c' ((byteTimes arr).drop (ms.flatMap Msg.wire).length) N N _ _ _ h6
    (by decide)
  have := g5 _ _ hf
  obtain ⟨rfl, rfl⟩ := serveTimed_unique this hr
  refine ⟨by simpa using g4, ?_⟩
  simp only [returnsAt, hgd]
  congr 1
  omega

/-! ## Non-vacuity -/

private def hello : Msg := (⟨4, 0, 8, 1⟩, [])
private def echo : Msg := (⟨4, 2, 10, 2⟩, [7, 7])

/-- A hello in two pieces, an echo request, and a byte of a third message: both are given to the runner when they
are complete, and 5 after the second the connection is closed. -/
example : ∃ reqs, ServeTimed (fun _ => 0) (TRead.new 5 [3]
      [(1, [4, 0, 0]), (3, [8, 0, 0, 0, 1, 4]), (7, [2, 0, 10, 0, 0, 0, 2, 7, 7, 4])])
      (byteTimes [(1, [4, 0, 0]), (3, [8, 0, 0, 0, 1, 4]), (7, [2, 0, 10, 0, 0, 0, 2, 7, 7, 4])]) 0 0 reqs (some 12) ∧
    reqs.map seen = [(3, ⟨4, 0, 8, 1⟩, .buffer []), (7, ⟨4, 2, 10, 2⟩, .buffer [7, 7])] := by
  have hu : Unfinished [4] := ⟨hello, [0, 0, 8, 0, 0, 0, 1], rfl, by decide, by decide⟩
  have h := serve_timeline 5 (by decide) (fun _ => 0) [3]
    [(1, [4, 0, 0]), (3, [8, 0, 0, 0, 1, 4]), (7, [2, 0, 10, 0, 0, 0, 2, 7, 7, 4])] (by simp [InOrder])
    [hello, echo] (by simp [hello, echo, Msg.Whole]) [4] hu (by decide) 0 0
  obtain ⟨⟨reqs, e, hr⟩, h⟩ := h
  obtain ⟨h1, h2⟩ := h reqs e hr
  have he : e = some 12 := by rw [h2]; decide
  subst he
  exact ⟨reqs, hr, by rw [h1]; rfl⟩

/-- These messages come promptly. -/
example : Prompt 5 0 (completions (byteTimes
    [(1, [4, 0, 0]), (3, [8, 0, 0, 0, 1, 4]), (7, [2, 0, 10, 0, 0, 0, 2, 7, 7, 4])]) [hello, echo]) := by
  refine ⟨by decide, by decide, trivial⟩

/-- A peer that sends one byte of its second message in every unit of time is slow: `serve_slow` says that it is
disconnected at 1 + 5. -/
example : Prompt 5 0 (completions (byteTimes ((1, hello.wire) ::
      [(2, [4]), (3, [2]), (4, [0]), (5, [10]), (6, [0]), (7, [0]), (8, [0]), (9, [2]), (10, [7]), (11, [7])])) [hello]) ∧
    latest 0 (completions (byteTimes ((1, hello.wire) ::
      [(2, [4]), (3, [2]), (4, [0]), (5, [10]), (6, [0]), (7, [0]), (8, [0]), (9, [2]), (10, [7]), (11, [7])])) [hello]) + 5 ≤
    (byteTimes ((1, hello.wire) ::
      [(2, [4]), (3, [2]), (4, [0]), (5, [10]), (6, [0]), (7, [0]), (8, [0]), (9, [2]), (10, [7]), (11, [7])])).getD
      (([hello].flatMap Msg.wire).length + echo.wire.length - 1) 0 :=
  ⟨⟨by decide, trivial⟩, by decide⟩

/-- A header that declares 7 bytes, in time. -/
example : (byteTimes [(2, hello.wire ++ Header.bytes ⟨4, 0, 7, 1⟩)]).getD (([hello].flatMap Msg.wire).length + 7) 0 <
    latest 0 (completions (byteTimes [(2, hello.wire ++ Header.bytes ⟨4, 0, 7, 1⟩)]) [hello]) + 5 := by decide

/-- Echo requests at the times 2, 6 and 10 keep a connection with a timeout of 5. -/
example : Prompt 5 0 ([(2, echo), (6, echo), (10, echo)].map (·.1)) := by
  refine ⟨by decide, by decide, by decide, trivial⟩

end Verif.Props
