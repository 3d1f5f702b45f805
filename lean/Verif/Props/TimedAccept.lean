import Verif.TimedAccept
import Verif.Props.TimedClose
import Verif.Props.TimedReply

/-!
# C102: silent peers and the limit of connections
-/

namespace Verif.Props

open Verif

/-- A caller that sends these messages, and perhaps the beginning of one more, and hangs up or not. -/
structure Sends (c : Caller) (ms : List Msg) : Prop where
  order : InOrder c.arr
  whole : ∀ m ∈ ms, m.Whole
  bytes : ∃ tail, Unfinished tail ∧ c.arr.flatMap (·.2) = ms.flatMap Msg.wire ++ tail
  ends : ∀ u, c.hangs = some u → Hangup.Plain u ∧ ∀ x ∈ c.arr, x.1 ≤ u.time

/-- When a caller that sends `ms` is disconnected by a server with `ReadTimeout = d` (0: none), see `serve_timeline`,
`serve_patient` and `hangup_timeline`; `none`: never. -/
def leaves (d : Nat) (c : Caller) (ms : List Msg) : Option Nat :=
  match c.hangs with
  | none => if d = 0 then none else
    some (timeline d (fun _ => 0) c.arrives c.arrives ((completions (byteTimes c.arr) ms).zip ms)).2
  | some u => some (ending d u.time (fun _ => 0) c.arrives c.arrives ((completions (byteTimes c.arr) ms).zip ms)).2

private theorem Sends.run {c : Caller} {ms : List Msg} (h : Sends c ms) (d : Nat) :
    (∃ reqs e, c.Served d reqs e) ∧ ∀ reqs e, c.Served d reqs e → e = leaves d c ms := by
  obtain ⟨ho, hw, ⟨tail, hu, hm⟩, hx⟩ := h
  unfold Caller.Served leaves
  cases hc : c.hangs with
  | none =>
    simp only
    by_cases hd : d = 0
    · subst hd
      have := serve_patient (fun _ => 0) c.sched c.arr ms hw tail hu hm c.arrives c.arrives
      exact ⟨this.1, fun reqs e hr => (this.2 reqs e hr).2⟩
    · have := serve_timeline d hd (fun _ => 0) c.sched c.arr ho ms hw tail hu hm c.arrives c.arrives
      rw [if_neg hd]
      exact ⟨this.1, fun reqs e hr => (this.2 reqs e hr).2⟩
  | some u =>
    simp only
    obtain ⟨h1, h2⟩ := hx u hc
    have := hangup_timeline u h1 d (fun _ => 0) c.sched c.arr ho h2 ms hw tail hu hm c.arrives c.arrives
    exact ⟨this.1, fun reqs e hr => (this.2 reqs e hr).2⟩

/-- Not disconnected before the time `t`; not at the time `t` either. -/
def stays (t : Nat) (x : Option Nat) : Bool := x.all (fun y => t ≤ y)
def staysOn (t : Nat) (x : Option Nat) : Bool := x.all (fun y => t < y)

/-- The callers that have been served, with what they send. -/
def served (cs : List (Caller × List Msg)) (bs : List Bool) : List (Caller × List Msg) :=
  ((cs.zip bs).filter (·.2)).map (·.1)

private theorem room_iff {m : Int} (h0 : 0 < m) (h1 : m < 2 ^ 31) (n : Nat) : hasRoom m n = true ↔ (n : Int) < m := by
  have hm : m ≠ 0 := by omega
  have ht : toInt32 m = m := by unfold toInt32; omega
  simp only [hasRoom, ht, Bool.not_eq_true', Bool.and_eq_false_iff, bne_eq_false_iff_eq, decide_eq_false_iff_not]
  omega

private theorem open_some (late : Bool) (t d : Nat) (l : List (Caller × List Msg)) :
    l.countP (fun p => staysOn t (leaves d p.1 p.2)) ≤ openAt late t (l.map (fun p => leaves d p.1 p.2)) ∧
    openAt late t (l.map (fun p => leaves d p.1 p.2)) ≤ l.countP (fun p => stays t (leaves d p.1 p.2)) := by
  simp only [openAt, List.countP_map]
  constructor
  · apply List.countP_mono_left
    intro p _ h
    simp only [Function.comp]
    cases hl : leaves d p.1 p.2 with
    | none => rfl
    | some x => simp only [hl, staysOn, Option.all_some, decide_eq_true_eq] at h; simp [h]
  · apply List.countP_mono_left
    intro p _ h
    simp only [Function.comp] at h
    cases hl : leaves d p.1 p.2 with
    | none => rfl
    | some x =>
      simp only [hl, Bool.or_eq_true, Bool.and_eq_true, decide_eq_true_eq, beq_iff_eq] at h
      simp only [stays, Option.all_some, decide_eq_true_eq]; omega

private theorem door_aux {m : Int} (h0 : 0 < m) (h1 : m < 2 ^ 31) {d : Nat} :
    ∀ (cs : List (Caller × List Msg)) (bs : List Bool) (adm : List (Caller × List Msg)),
      (∀ p ∈ cs, Sends p.1 p.2) →
      Door m d (adm.map (fun p => leaves d p.1 p.2)) (cs.map (·.1)) bs →
      ∀ (i : Nat) (p : Caller × List Msg) (b : Bool), cs[i]? = some p → bs[i]? = some b →
        (b = false → m ≤ ((adm ++ served (cs.take i) (bs.take i)).countP
          (fun q => stays p.1.arrives (leaves d q.1 q.2)) : Nat)) ∧
        (b = true → (((adm ++ served (cs.take i) (bs.take i)).countP
          (fun q => staysOn p.1.arrives (leaves d q.1 q.2)) : Nat) : Int) < m) := by
  intro cs
  induction cs with
  | nil => intro bs adm _ _ i p b hp; simp at hp
  | cons c cs ih =>
    intro bs adm hf h i p b hp hb
    cases h with
    | refuse =>
      rename_i bs late hr ht
      obtain ⟨o2, o3⟩ := open_some late c.1.arrives d adm
      cases i with
      | zero =>
        simp only [List.getElem?_cons_zero, Option.some.injEq] at hp hb
        subst hp; subst hb
        refine ⟨fun _ => ?_, fun h => (by cases h)⟩
        have hn : ¬ ((openAt late c.1.arrives (adm.map (fun p => leaves d p.1 p.2)) : Nat) : Int) < m :=
          fun hc => by rw [(room_iff h0 h1 _).mpr hc] at hr; cases hr
        simp only [List.take_zero, served, List.zip_nil_left, List.filter_nil, List.map_nil, List.append_nil]
        omega
      | succ i =>
        simp only [List.getElem?_cons_succ] at hp hb
        have := ih bs adm (fun p hp => hf p (by simp [hp])) ht i p b hp hb
        simpa [served] using this
    | admit =>
      rename_i bs late e hs hr ht
      obtain ⟨reqs, hs⟩ := hs
      obtain ⟨o2, o3⟩ := open_some late c.1.arrives d adm
      have he : e = leaves d c.1 c.2 := ((hf c (by simp)).run d).2 reqs e hs
      subst he
      cases i with
      | zero =>
        simp only [List.getElem?_cons_zero, Option.some.injEq] at hp hb
        subst hp; subst hb
        refine ⟨fun h => (by cases h), fun _ => ?_⟩
        have hn := (room_iff h0 h1 _).mp hr
        dsimp only at hn
        simp only [List.take_zero, served, List.zip_nil_left, List.filter_nil, List.map_nil, List.append_nil]
        omega
      | succ i =>
        simp only [List.getElem?_cons_succ] at hp hb
        have ht' : Door m d ((adm ++ [c]).map (fun p => leaves d p.1 p.2)) (cs.map (·.1)) bs := by
          simpa using ht
        have := ih bs (adm ++ [c]) (fun p hp => hf p (by simp [hp])) ht' i p b hp hb
        simpa [served] using this

/-- C102.  With `MaxConns = m`, who is served: a caller is refused only if `m` of the earlier ones are still connected,
where a peer stays connected as long as `leaves` says, and served only if fewer are.  (A peer that is
disconnected at the moment of the arrival may count or not.) -/
theorem door_decides {m : Int} (h0 : 0 < m) (h1 : m < 2 ^ 31) {d : Nat}
    (cs : List (Caller × List Msg)) (hf : ∀ p ∈ cs, Sends p.1 p.2) (bs : List Bool)
    (h : Door m d [] (cs.map (·.1)) bs) (i : Nat) (p : Caller × List Msg) (b : Bool) (hp : cs[i]? = some p)
    (hb : bs[i]? = some b) :
    (b = false → m ≤ ((served (cs.take i) (bs.take i)).countP (fun q => stays p.1.arrives (leaves d q.1 q.2)) : Nat)) ∧
    (b = true → (((served (cs.take i) (bs.take i)).countP (fun q => staysOn p.1.arrives (leaves d q.1 q.2)) : Nat) : Int)
      < m) := by
  simpa using door_aux h0 h1 cs bs [] hf h i p b hp hb

private theorem served_sublist (cs : List (Caller × List Msg)) (bs : List Bool) : (served cs bs).Sublist cs := by
  induction cs generalizing bs with
  | nil => simp [served]
  | cons c cs ih =>
    cases bs with
    | nil => simp [served]
    | cons b bs =>
      cases b with
      | false =>
        have : served (c :: cs) (false :: bs) = served cs bs := by simp [served]
        rw [this]; exact (ih bs).cons _
      | true =>
        have : served (c :: cs) (true :: bs) = c :: served cs bs := by simp [served]
        rw [this]; exact (ih bs).cons_cons _

/-- C102.  Peers that never send a whole message keep others out for no longer than `ReadTimeout`: a
caller is served if fewer than `m` of the earlier callers have come within the last `d` or have sent something. -/
theorem door_silent {m : Int} (h0 : 0 < m) (h1 : m < 2 ^ 31) {d : Nat} (hd : d ≠ 0)
    (cs : List (Caller × List Msg)) (hf : ∀ p ∈ cs, Sends p.1 p.2) (bs : List Bool)
    (h : Door m d [] (cs.map (·.1)) bs) (i : Nat) (p : Caller × List Msg) (b : Bool) (hp : cs[i]? = some p)
    (hb : bs[i]? = some b)
    (hfew : (((cs.take i).countP (fun q => p.1.arrives ≤ q.1.arrives + d || !q.2.isEmpty) : Nat) : Int) < m) :
    b = true := by
  cases b with
  | true => rfl
  | false =>
    exfalso
    have h2 := (door_decides h0 h1 cs hf bs h i p false hp hb).1 rfl
    have h3 := List.Sublist.countP_le (p := fun q : Caller × List Msg => stays p.1.arrives (leaves d q.1 q.2))
      (served_sublist (cs.take i) (bs.take i))
    have h4 : (cs.take i).countP (fun q => stays p.1.arrives (leaves d q.1 q.2)) ≤
        (cs.take i).countP (fun q => p.1.arrives ≤ q.1.arrives + d || !q.2.isEmpty) := by
      apply List.countP_mono_left
      intro q _ hq
      simp only [decide_eq_true_eq, Bool.or_eq_true, Bool.not_eq_true', List.isEmpty_eq_false_iff]
      rcases hms : q.2 with _ | ⟨x, l⟩
      · left
        cases hc : q.1.hangs with
        | none =>
          simp only [leaves, hc, hms, completions, List.zip_nil_left, timeline, if_neg hd, stays, Option.all_some,
            decide_eq_true_eq] at hq
          omega
        | some u =>
          simp only [leaves, hc, hms, completions, List.zip_nil_left, ending, stays, Option.all_some,
            decide_eq_true_eq] at hq
          split at hq <;> omega
      · right; simp
    omega

/-- C102.  Peers that keep sending keep their place: with `m` of them connected and sending promptly, whoever comes
while they are is refused. -/
theorem door_full {m : Int} (h0 : 0 < m) (h1 : m < 2 ^ 31) {d : Nat} (hd : d ≠ 0)
    (cs : List (Caller × List Msg)) (hf : ∀ p ∈ cs, Sends p.1 p.2) (bs : List Bool)
    (h : Door m d [] (cs.map (·.1)) bs) (i : Nat) (p : Caller × List Msg) (b : Bool) (hp : cs[i]? = some p)
    (hb : bs[i]? = some b)
    (hfull : m ≤ ((served (cs.take i) (bs.take i)).countP (fun q => decide
      (p.1.arrives < latest q.1.arrives (completions (byteTimes q.1.arr) q.2) + d) &&
        q.1.hangs.all (fun u => decide (p.1.arrives < u.time))) : Nat))
    (hprompt : ∀ q ∈ cs, Prompt d q.1.arrives (completions (byteTimes q.1.arr) q.2)) : b = false := by
  cases b with
  | false => rfl
  | true =>
    exfalso
    have h2 := (door_decides h0 h1 cs hf bs h i p true hp hb).2 rfl
    have h3 : (served (cs.take i) (bs.take i)).countP (fun q => decide
        (p.1.arrives < latest q.1.arrives (completions (byteTimes q.1.arr) q.2) + d) &&
          q.1.hangs.all (fun u => decide (p.1.arrives < u.time))) ≤
        (served (cs.take i) (bs.take i)).countP (fun q => staysOn p.1.arrives (leaves d q.1 q.2)) := by
      apply List.countP_mono_left
      intro q hq hlt
      simp only [Bool.and_eq_true, decide_eq_true_eq] at hlt
      obtain ⟨hlt, hlt2⟩ := hlt
      have hq' : q ∈ cs := List.mem_of_mem_take ((served_sublist _ _).subset hq)
      have hpr := hprompt q hq'
      cases hc : q.1.hangs with
      | none =>
        obtain ⟨ho, hw, ⟨tail, hu, hm⟩, _⟩ := hf q hq'
        obtain ⟨⟨reqs, e, hs⟩, ht⟩ :=
          serve_timeline d hd (fun _ => 0) q.1.sched q.1.arr ho q.2 hw tail hu hm q.1.arrives q.1.arrives
        have e1 := (ht reqs e hs).2
        have e2 := (serve_prompt d hd q.1.sched q.1.arr ho q.2 hw tail hu hm q.1.arrives hpr reqs e hs).2.2
        rw [e1] at e2
        have e3 := Option.some.inj e2
        simp only [leaves, hc, if_neg hd, staysOn, Option.all_some, decide_eq_true_eq]
        omega
      | some u =>
        have hz := zip_fst _ _ (completions_length (byteTimes q.1.arr) q.2)
        have := ending_prompt d u.time ((completions (byteTimes q.1.arr) q.2).zip q.2) (fun _ => 0) q.1.arrives
          q.1.arrives q.1.arrives (by rw [hz]; exact hpr) (Nat.le_refl _)
        rw [hz] at this
        simp only [hc, Option.all_some, decide_eq_true_eq] at hlt2
        simp only [leaves, hc, staysOn, Option.all_some, decide_eq_true_eq]
        omega
    omega

/-- When a peer is disconnected by a server without timeout: when it hangs up. -/
def gone (c : Caller) : Option Nat := c.hangs.map (fun u => max c.arrives u.time)

/-- C102, C103.  Without `ReadTimeout` the limit counts exactly the peers that have not hung up: a caller is refused only
if `m` of the earlier ones are still there, and served only if fewer are.  (For a peer that hangs up at the
moment of the arrival both are possible.) -/
theorem door_hangup {m : Int} (h0 : 0 < m) (h1 : m < 2 ^ 31)
    (cs : List (Caller × List Msg)) (hf : ∀ p ∈ cs, Sends p.1 p.2) (bs : List Bool)
    (h : Door m 0 [] (cs.map (·.1)) bs) (i : Nat) (p : Caller × List Msg) (b : Bool) (hp : cs[i]? = some p)
    (hb : bs[i]? = some b) :
    (b = false → m ≤ ((served (cs.take i) (bs.take i)).countP (fun q => stays p.1.arrives (gone q.1)) : Nat)) ∧
    (b = true → (((served (cs.take i) (bs.take i)).countP (fun q => staysOn p.1.arrives (gone q.1)) : Nat) : Int)
      < m) := by
  have hg : ∀ q ∈ served (cs.take i) (bs.take i), leaves 0 q.1 q.2 = gone q.1 := by
    intro q hq
    have hs := hf q (List.mem_of_mem_take ((served_sublist _ _).subset hq))
    cases hc : q.1.hangs with
    | none => simp [leaves, gone, hc]
    | some u =>
      have hu := hs.ends u hc
      have hse : SendsAndEnds q.1.arr q.2 u := ⟨hu.1, hs.order, hu.2, hs.whole, hs.bytes⟩
      have hz := zip_fst _ _ (completions_length (byteTimes q.1.arr) q.2)
      have := ending_times 0 u.time ((completions (byteTimes q.1.arr) q.2).zip q.2) q.1.arrives (.inl rfl)
        (by rw [hz]; exact completions_sorted (times_sorted hs.order) hse.enough) hse.early
      simp only [leaves, gone, hc, Option.map_some]
      rw [this]
  have h2 := door_decides h0 h1 cs hf bs h i p b hp hb
  have hc : ∀ f : Option Nat → Bool, (served (cs.take i) (bs.take i)).countP (fun q => f (leaves 0 q.1 q.2)) =
      (served (cs.take i) (bs.take i)).countP (fun q => f (gone q.1)) :=
    fun f => List.countP_congr (fun q hq => by rw [hg q hq])
  rw [hc (stays p.1.arrives), hc (staysOn p.1.arrives)] at h2
  exact h2

/-- If the connections are never closed, exactly the first `m` callers are served. -/
theorem door_never {m : Int} (h0 : 0 < m) (h1 : m < 2 ^ 31) (serves : Caller → Option Nat → Prop) (cs : List Caller)
    (hf : ∀ c ∈ cs, ∀ e, serves c e → e = none) (bs : List Bool) (h : DoorVia m serves [] cs bs) :
    bs = (List.range cs.length).map (fun i : Nat => decide ((i : Int) < m)) := by
  have key : ∀ (cs : List Caller) (bs : List Bool) (n k : Nat), (∀ c ∈ cs, ∀ e, serves c e → e = none) →
      DoorVia m serves (List.replicate n none) cs bs → (n = k ∧ (n : Int) ≤ m) ∨ (m = n ∧ n ≤ k) →
      bs = (List.range' k cs.length).map (fun i : Nat => decide ((i : Int) < m)) := by
    intro cs
    induction cs with
    | nil => intro bs n k _ h _; cases h; rfl
    | cons c cs ih =>
      intro bs n k hf h hn
      have ho : ∀ late, openAt late c.arrives (List.replicate n none) = n := by
        intro late
        simp [openAt, List.countP_replicate]
      cases h with
      | refuse =>
        rename_i bs late hr ht
        rw [ho] at hr
        have hge : ¬ ((n : Int) < m) := fun hc => by rw [(room_iff h0 h1 _).mpr hc] at hr; cases hr
        have hk : ¬ ((k : Int) < m) := by omega
        simp only [List.length_cons, List.range'_succ, List.map_cons, hk, decide_false, List.cons.injEq, true_and]
        have := ih bs n (k + 1) (fun p hp => hf p (by simp [hp])) ht
        apply this
        right
        omega
      | admit =>
        rename_i bs late e hs hr ht
        rw [ho] at hr
        have hlt := (room_iff h0 h1 _).mp hr
        have hk : (k : Int) < m := by omega
        have he := hf c (by simp) e hs
        subst he
        simp only [List.length_cons, List.range'_succ, List.map_cons, hk, decide_true, List.cons.injEq, true_and]
        refine ih bs (n + 1) (k + 1) (fun p hp => hf p (by simp [hp])) ?_ ?_
        · rw [List.replicate_succ']; exact ht
        · omega
  have := key cs bs 0 0 hf h (.inl ⟨rfl, by omega⟩)
  rw [List.range_eq_range']
  exact this

/-- C102.  Without `ReadTimeout` peers that stay connected keep their place for ever, whether they send
anything or not: exactly the first `m` callers are served. -/
theorem door_no_timeout {m : Int} (h0 : 0 < m) (h1 : m < 2 ^ 31) (cs : List (Caller × List Msg))
    (hf : ∀ p ∈ cs, Sends p.1 p.2) (hn : ∀ p ∈ cs, p.1.hangs = none) (bs : List Bool)
    (h : Door m 0 [] (cs.map (·.1)) bs) :
    bs = (List.range cs.length).map (fun i : Nat => decide ((i : Int) < m)) := by
  have := door_never h0 h1 _ (cs.map (·.1)) (fun c hc e he => by
    obtain ⟨p, hp, rfl⟩ := List.mem_map.mp hc
    obtain ⟨reqs, hs⟩ := he
    have he := ((hf p hp).run 0).2 reqs e hs
    simpa only [leaves, hn p hp, if_true] using he) bs h
  rwa [List.length_map] at this

/-- C104, many peers, the part that holds: with the default runner peers that do not read the answers do not
change who is served. -/
theorem door_deaf_partial {ans : Request → Answer} (ha : AnswersWell ans) (m : Int) (d wt : Nat) (room : Option Nat)
    (cs : List (Caller × List Msg)) (hf : ∀ p ∈ cs, Sends p.1 p.2) (hn : ∀ p ∈ cs, p.1.hangs = none) (bs : List Bool) :
    DoorReply m d wt false ans room [] (cs.map (·.1)) bs ↔ Door m d [] (cs.map (·.1)) bs := by
  have hone : ∀ p ∈ cs, ∀ e, (∃ reqs, p.1.Served d reqs e) ↔ ∃ reqs, ServeReply false ans room (some (TConn.new wt))
      (TRead.new d p.1.sched p.1.arr) (byteTimes p.1.arr) p.1.arrives p.1.arrives reqs e := by
    intro p hp e
    obtain ⟨⟨rs, x, hr⟩, hx⟩ := (hf p hp).run d
    have hs := hr
    simp only [Caller.Served, hn p hp] at hs
    have hq := reply_ondemand ha room wt d p.1.sched p.1.arr p.1.arrives rs x hs
    constructor
    · rintro ⟨reqs, h⟩
      have : e = x := by rw [hx reqs e h, hx rs x hr]
      subst this
      exact ⟨_, (hq _ _).mpr ⟨rfl, rfl⟩⟩
    · rintro ⟨reqs, h⟩
      obtain ⟨_, rfl⟩ := (hq _ _).mp h
      exact ⟨rs, hr⟩
  have key : ∀ (S T : Caller → Option Nat → Prop) (cs : List Caller) (ends : List (Option Nat)) (bs : List Bool),
      (∀ c ∈ cs, ∀ e, S c e → T c e) → DoorVia m S ends cs bs → DoorVia m T ends cs bs := by
    intro S T cs ends bs hST h
    induction h with
    | nil => exact .nil _
    | refuse ends c cs bs late hr ht ih => exact .refuse _ _ _ _ late hr (ih (fun c hc => hST c (by simp [hc])))
    | admit ends c cs bs late e hr hs ht ih =>
      exact .admit _ _ _ _ late e hr (hST c (by simp) e hs) (ih (fun c hc => hST c (by simp [hc])))
  constructor
  · refine key _ _ _ _ _ fun c hc e he => ?_
    obtain ⟨p, hp, rfl⟩ := List.mem_map.mp hc
    exact (hone p hp e).mpr he.2
  · refine key _ _ _ _ _ fun c hc e he => ?_
    obtain ⟨p, hp, rfl⟩ := List.mem_map.mp hc
    exact ⟨hn p hp, (hone p hp e).mp he⟩

/-- C104, many peers, the part that does not hold: with a `SequentialRunner`, `m` peers that send a message each, in time, and
do not read the answer, lock everyone else out for ever, whatever the timeouts are. -/
theorem door_deaf_false {ans : Request → Answer} (ha : AnswersWell ans) {m : Int} (h0 : 0 < m) (h1 : m < 2 ^ 31)
    (d wt : Nat) (hd : d ≠ 0) (cs : List (Caller × List Msg)) (hf : ∀ p ∈ cs, Sends p.1 p.2)
    (hp : ∀ p ∈ cs, p.2 ≠ [] ∧ Prompt d p.1.arrives (completions (byteTimes p.1.arr) p.2)) (bs : List Bool)
    (h : DoorReply m d wt true ans (some 0) [] (cs.map (·.1)) bs) :
    bs = (List.range cs.length).map (fun i : Nat => decide ((i : Int) < m)) := by
  have := door_never h0 h1 _ (cs.map (·.1)) (fun c hc e he => by
    obtain ⟨p, hq, rfl⟩ := List.mem_map.mp hc
    obtain ⟨_, reqs, hs⟩ := he
    obtain ⟨ho, hw, ⟨tail, hu, hm⟩, _⟩ := hf p hq
    exact ((reply_deaf_false ha wt d hd p.1.sched p.1.arr ho p.2 (hp p hq).1 hw tail hu hm p.1.arrives (hp p hq).2).2
      reqs e hs).2.2) bs h
  rwa [List.length_map] at this

/-- The accept loop has a result for all callers. -/
theorem door_total (m : Int) (d : Nat) (cs : List (Caller × List Msg)) (hf : ∀ p ∈ cs, Sends p.1 p.2) :
    ∃ bs, Door m d [] (cs.map (·.1)) bs := by
  have key : ∀ (cs : List (Caller × List Msg)) (ends : List (Option Nat)), (∀ p ∈ cs, Sends p.1 p.2) →
      ∃ bs, Door m d ends (cs.map (·.1)) bs := by
    intro cs
    induction cs with
    | nil => exact fun ends _ => ⟨[], .nil ends⟩
    | cons c cs ih =>
      intro ends hf
      rcases hr : hasRoom m (openAt false c.1.arrives ends) with _ | _
      · obtain ⟨bs, hb⟩ := ih ends (fun p hp => hf p (by simp [hp]))
        exact ⟨_, .refuse ends c.1 _ bs false hr hb⟩
      · have hx := ((hf c (by simp)).run d).1
        obtain ⟨reqs, e, hs⟩ := hx
        obtain ⟨bs, hb⟩ := ih (ends ++ [e]) (fun p hp => hf p (by simp [hp]))
        exact ⟨_, .admit ends c.1 _ bs false e hr ⟨reqs, hs⟩ hb⟩
  exact key cs [] hf

/-! ## Cases -/

/-- A peer that sends four bytes of a header and no more. -/
private def mute (t : Nat) : Caller × List Msg := (⟨t, [], [(t, [4, 0, 0, 8])], none⟩, [])

private theorem mute_sends (t : Nat) : Sends (mute t).1 (mute t).2 :=
  ⟨by simp [mute, InOrder], by simp [mute], ⟨[4, 0, 0, 8],
    ⟨(⟨4, 0, 8, 1⟩, []), [0, 0, 0, 1], rfl, by decide, by decide⟩, by simp [mute]⟩, by simp [mute]⟩

/-- Two places, a timeout of 5: of mute peers that come at 0, 1, 3 and 9 all but the third are served. -/
example (bs : List Bool) (h : Door 2 5 [] ([mute 0, mute 1, mute 3, mute 9].map (·.1)) bs) :
    bs[3]? ≠ some false := by
  intro hb
  have := door_silent (by decide) (by decide) (by decide) [mute 0, mute 1, mute 3, mute 9]
    (by intro p hp; simp at hp; rcases hp with rfl | rfl | rfl | rfl <;> exact mute_sends _) bs h 3 (mute 9) false rfl hb
    (by decide)
  cases this

/-- Without a timeout the third and all that come after are refused. -/
example (bs : List Bool) (h : Door 2 0 [] ([mute 0, mute 1, mute 3, mute 1000000].map (·.1)) bs) :
    bs = [true, true, false, false] := by
  rw [door_no_timeout (by decide) (by decide) [mute 0, mute 1, mute 3, mute 1000000]
    (by intro p hp; simp at hp; rcases hp with rfl | rfl | rfl | rfl <;> exact mute_sends _)
    (by intro p hp; simp at hp; rcases hp with rfl | rfl | rfl | rfl <;> rfl) bs h]
  decide

/-- A mute peer that hangs up. -/
private def brief (t f : Nat) : Caller × List Msg := (⟨t, [], [(t, [4, 0, 0, 8])], some ⟨max t f, .eof⟩⟩, [])

private theorem brief_sends (t f : Nat) : Sends (brief t f).1 (brief t f).2 :=
  ⟨by simp [brief, InOrder], by simp [brief], ⟨[4, 0, 0, 8],
    ⟨(⟨4, 0, 8, 1⟩, []), [0, 0, 0, 1], rfl, by decide, by decide⟩, by simp [brief]⟩, by
      intro u hu
      simp only [brief, Option.some.injEq] at hu
      subst hu
      exact ⟨⟨by simp [Err.timeout], by simp⟩, by simp [brief]; omega⟩⟩

/-- Two places, no timeout: the first peer has hung up when the third comes. -/
example (bs : List Bool) (h : Door 2 0 [] ([brief 0 2, mute 1, mute 3].map (·.1)) bs) : bs[2]? ≠ some false := by
  intro hb
  have h1 := (door_hangup (by decide) (by decide) [brief 0 2, mute 1, mute 3]
    (by intro p hp; simp at hp; rcases hp with rfl | rfl | rfl
        · exact brief_sends _ _
        · exact mute_sends _
        · exact mute_sends _) bs h 2 (mute 3) false rfl hb).1 rfl
  have h2 := List.Sublist.countP_le (p := fun q : Caller × List Msg => stays (mute 3).1.arrives (gone q.1))
    (served_sublist ([brief 0 2, mute 1, mute 3].take 2) (bs.take 2))
  have h3 : ([brief 0 2, mute 1, mute 3].take 2).countP (fun q => stays (mute 3).1.arrives (gone q.1)) = 1 := by decide
  omega

/-- A peer that sends a hello when it is connected. -/
private def greets (t : Nat) : Caller × List Msg := (⟨t, [], [(t, Header.bytes ⟨4, 0, 8, 1⟩)], none⟩, [(⟨4, 0, 8, 1⟩, [])])

private theorem greets_sends (t : Nat) : Sends (greets t).1 (greets t).2 :=
  ⟨by simp [greets, InOrder], by simp [greets, Msg.Whole], ⟨[], ⟨(⟨4, 0, 8, 1⟩, []), Header.bytes ⟨4, 0, 8, 1⟩,
    rfl, by decide, by decide⟩, by simp [greets, Msg.wire]⟩, by simp [greets]⟩

/-- With a limit of 2, a read timeout of 5 and a `SequentialRunner`, two peers that greet and do not read lock out one
that comes at 1000000. -/
example (bs : List Bool) (h : DoorReply 2 5 5 true (fun q => ⟨q.header, none⟩) (some 0) []
    ([greets 0, greets 1, greets 3, greets 1000000].map (·.1)) bs) : bs = [true, true, false, false] := by
  refine door_deaf_false (fun q w h => by cases h) (by decide) (by decide) 5 5 (by decide)
    [greets 0, greets 1, greets 3, greets 1000000] (by simp [greets_sends]) ?_ bs h
  simp only [List.mem_cons, List.not_mem_nil, or_false]
  rintro p (rfl | rfl | rfl | rfl) <;> exact ⟨by decide, by decide, trivial⟩

/-- There is such a run. -/
example : DoorReply 2 5 5 true (fun q => ⟨q.header, none⟩) (some 0) []
    ([greets 0, greets 1, greets 3, greets 1000000].map (·.1)) [true, true, false, false] := by
  have hs : ∀ t, ∃ reqs, ServeReply true (fun q => ⟨q.header, none⟩) (some 0) (some (TConn.new 5))
      (TRead.new 5 (greets t).1.sched (greets t).1.arr) (byteTimes (greets t).1.arr) (greets t).1.arrives
      (greets t).1.arrives reqs none := by
    intro t
    obtain ⟨ho, hw, ⟨tail, hu, hm⟩, _⟩ := greets_sends t
    have hc : completions (byteTimes (greets t).1.arr) (greets t).2 = [t] := by
      simp [greets, completions, byteTimes, Msg.wire, Header.bytes]
    obtain ⟨⟨reqs, e, h⟩, hx⟩ := reply_deaf_false (ans := fun q => ⟨q.header, none⟩) (fun q w h => by cases h) 5 5
      (by decide) (greets t).1.sched (greets t).1.arr ho (greets t).2 (by simp [greets]) hw tail hu hm (greets t).1.arrives
      (by rw [hc]; exact ⟨by simp only [greets]; omega, trivial⟩)
    have := (hx reqs e h).2.2
    subst this
    exact ⟨_, h⟩
  exact .admit _ _ _ _ false none (by decide) ⟨rfl, hs 0⟩ (.admit _ _ _ _ false none (by decide) ⟨rfl, hs 1⟩
    (.refuse _ _ _ _ false (by decide) (.refuse _ _ _ _ false (by decide) (.nil _))))

end Verif.Props
