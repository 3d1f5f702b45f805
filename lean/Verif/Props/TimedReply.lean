import Verif.TimedReply
import Verif.Props.TimedServe

/-!
# C104: peers that do not read
-/

namespace Verif.Props

open Verif

/-- The handlers answer with messages that can be serialised. -/
def AnswersWell (ans : Request → Answer) : Prop := ∀ q w, (ans q).body = some w → w.err = none

/-- How many of the answers, one after the other, a peer takes that takes `room` bytes (`none`: any number). -/
def roomFor : (room : Option Nat) → (sizes : List Nat) → Nat
  | _, [] => 0
  | none, _ :: l => roomFor none l + 1
  | some k, n :: l => if n ≤ k then roomFor (some (k - n)) l + 1 else 0

/-- The requests, and whether the answer was written while the connection was open: the first `n` were. -/
def marked : (n : Nat) → List (Nat × Request) → List (Nat × Request × Bool)
  | _, [] => []
  | n, (t, q) :: l => (t, q, decide (0 < n)) :: marked (n - 1) l

/-- The sizes of the answers. -/
def sizes (ans : Request → Answer) (reqs : List (Nat × Request)) : List Nat := reqs.map (fun x => (ans x.2).size)

/-- A run of the server has one result. -/
theorem serveReply_unique {seq : Bool} {ans : Request → Answer} {room : Option Nat} {w : Option TConn} {c : TRead}
    {ts : List Nat} {now free : Nat} {reqs reqs' : List (Nat × Request × Bool)} {e e' : Option Nat}
    (h : ServeReply seq ans room w c ts now free reqs e)
    (h' : ServeReply seq ans room w c ts now free reqs' e') : reqs = reqs' ∧ e = e' := by
  induction h generalizing reqs' e' with
  | waits room w c ts now free h => cases h' <;> simp_all
  | timeout room w c ts now free q c' d h hd => cases h' <;> simp_all
  | fails room w c ts now free q e c' h he => cases h' <;> simp_all
  | stuck room w c ts now free q c' t h hk hw hs => cases h' <;> simp_all
  | answered room w c ts now free q c' t e w' fin reqs x h hk hw ht ih =>
    cases h' with
    | waits => simp_all
    | timeout => simp_all
    | fails => simp_all
    | stuck => simp_all
    | blocks => simp_all
    | answered =>
      rename_i hw2 h2 hk2 ht2
      rw [h] at h2
      simp only [Option.some.injEq, Prod.mk.injEq, true_and] at h2
      obtain ⟨rfl, rfl⟩ := h2
      subst hk hk2
      rw [hw] at hw2
      simp only [Option.some.injEq, Prod.mk.injEq] at hw2
      obtain ⟨rfl, rfl, rfl⟩ := hw2
      obtain ⟨rfl, rfl⟩ := ih ht2
      exact ⟨rfl, rfl⟩
  | blocks room w c ts now free q c' t reqs x h hk hw hs ht ih =>
    cases h' with
    | waits => simp_all
    | timeout => simp_all
    | fails => simp_all
    | stuck => simp_all
    | answered => simp_all
    | blocks =>
      rename_i hw2 h2 hk2 ht2
      rw [h] at h2
      simp only [Option.some.injEq, Prod.mk.injEq, true_and] at h2
      obtain ⟨rfl, rfl⟩ := h2
      subst hk hk2
      obtain ⟨rfl, rfl⟩ := ih ht2
      exact ⟨rfl, rfl⟩
  | queues room c ts now free q c' t reqs x h hk ht ih =>
    cases h' with
    | waits => simp_all
    | timeout => simp_all
    | fails => simp_all
    | queues =>
      rename_i h2 hk2 ht2
      rw [h] at h2
      simp only [Option.some.injEq, Prod.mk.injEq, true_and] at h2
      obtain ⟨rfl, rfl⟩ := h2
      subst hk hk2
      obtain ⟨rfl, rfl⟩ := ih ht2
      exact ⟨rfl, rfl⟩

/-! ## One answer -/

private theorem serialises {rv : UInt8} {a : Answer} (ha : ∀ w, a.body = some w → w.err = none) :
    (ConnOp.respond rv a.header a.body).Serialises := by
  have hf : ∀ p : Bytes, (Conn.forceWrite (BW.new []) p).1 = none := by
    intro p
    rw [(Conn.forceWrite_took (BW.new []) p).2.1]
    exact (force_plan_nil (BW.new []) p rfl rfl).1
  simp only [ConnOp.Serialises, ConnOp.run, Response.write, Header.writeTo_eq]
  cases hb : a.body with
  | none => exact hf _
  | some w => simp only [ha w hb]; exact hf _

/-- The size of an answer is the number of bytes that it takes on the wire. -/
theorem answer_size (rv : UInt8) (a : Answer) (ha : ∀ w, a.body = some w → w.err = none) :
    (ConnOp.respond rv a.header a.body).message.length = a.size := by
  have hf : ∀ p : Bytes, ((Conn.forceWrite (BW.new []) p).2.tr.out ++ (Conn.forceWrite (BW.new []) p).2.buf) = p := by
    intro p
    have h1 := (force_plan_nil (BW.new []) p rfl rfl).1
    simpa [BW.new] using ((Conn.forceWrite_took (BW.new []) p).1.ok h1).2
  simp only [ConnOp.message, ConnOp.run, Response.write, Header.writeTo_eq, Answer.size]
  cases hb : a.body with
  | none => simp only; rw [hf]; simp [Header.bytes_length, headerlen]
  | some w => simp only [ha w hb]; rw [hf]; simp [Header.bytes_length, headerlen]

/-- The sending half of a connection that has only been used for answers and has not failed. -/
private structure Fresh (w : TConn) : Prop where
  deadline : w.deadline = none
  err : w.bw.err = none
  plan : w.bw.tr.plan = []
  cap : w.bw.buf.length ≤ 4096

private theorem Fresh.new (d : Nat) : Fresh (TConn.new d) := ⟨rfl, rfl, rfl, Nat.zero_le _⟩

private theorem Fresh.ready {w : TConn} (hw : Fresh w) (t : Nat) {rv : UInt8} {a : Answer}
    (hs : (ConnOp.respond rv a.header a.body).Serialises) :
    ∃ w', w.respond t .ready rv a.header a.body = some (none, w', t) ∧ Fresh w' := by
  have h := op_ready w t (.respond rv a.header a.body) hw.plan (by rw [hw.deadline]; intro d hd; cases hd)
  obtain ⟨t1, t2, _, t4⟩ := op_took (.respond rv a.header a.body) w.bw
  obtain ⟨t5, t6⟩ := t4 hw.err hw.plan
  have e : w.respond t .ready rv a.header a.body = timedOp w t .ready (.respond rv a.header a.body) := rfl
  rw [e, h, t2 hs, t5]
  exact ⟨_, rfl, ⟨hw.deadline, t5, t6, t1.cap hw.cap⟩⟩

private theorem Fresh.stalled {w : TConn} (hw : Fresh w) (t k : Nat) {rv : UInt8} {a : Answer}
    (hs : (ConnOp.respond rv a.header a.body).Serialises) : w.respond t (.stalled k) rv a.header a.body = none :=
  write_blocked_false w hw.deadline hw.err hw.cap (.respond rv a.header a.body) hs (respond_nonempty _ _ _ hs) t k

private theorem peer_cases (room : Option Nat) (n : Nat) (l : List Nat) :
    (peerFor room n = .ready ∧ roomFor room (n :: l) = roomFor (room.map (· - n)) l + 1) ∨
    (∃ k, peerFor room n = .stalled k ∧ roomFor room (n :: l) = 0) := by
  cases room with
  | none => exact .inl ⟨rfl, rfl⟩
  | some k =>
    by_cases h : n ≤ k
    · exact .inl ⟨by simp [peerFor, h], by simp [roomFor, h]⟩
    · exact .inr ⟨k, by simp [peerFor, h], by simp [roomFor, h]⟩

/-! ## OnDemandRoutineRunner -/

private theorem queue_run {ans : Request → Answer} {dur : Nat → Nat} {c : TRead} {ts : List Nat} {now free : Nat}
    {reqs : List (Nat × Request)} {e : Option Nat} (h : ServeTimed dur c ts now free reqs e) (hd : dur = fun _ => 0)
    (room : Option Nat) : ServeReply false ans room none c ts now free (marked 0 reqs) e := by
  induction h with
  | waits dur c ts now free h => exact .waits _ _ _ _ _ _ h
  | timeout dur c ts now free q c' d h hx => exact .timeout _ _ _ _ _ _ _ _ _ h hx
  | fails dur c ts now free q e c' h he => exact .fails _ _ _ _ _ _ _ _ _ h he
  | request dur c ts now free q c' reqs e h ht ih =>
    subst hd
    exact .queues _ _ _ _ _ _ _ _ _ _ h rfl (ih rfl)

private theorem ondemand_run {ans : Request → Answer} (ha : AnswersWell ans) {dur : Nat → Nat} {c : TRead} {ts : List Nat}
    {now free : Nat} {reqs : List (Nat × Request)} {e : Option Nat} (h : ServeTimed dur c ts now free reqs e)
    (hd : dur = fun _ => 0) (room : Option Nat) (w : TConn) (hw : Fresh w) :
    ServeReply false ans room (some w) c ts now free (marked (roomFor room (sizes ans reqs)) reqs) e := by
  induction h generalizing room w with
  | waits dur c ts now free h => exact .waits _ _ _ _ _ _ h
  | timeout dur c ts now free q c' d h hx => exact .timeout _ _ _ _ _ _ _ _ _ h hx
  | fails dur c ts now free q e c' h he => exact .fails _ _ _ _ _ _ _ _ _ h he
  | request dur c ts now free q c' reqs e h ht ih =>
    subst hd
    simp only [sizes, List.map_cons]
    rcases peer_cases room (ans q).size (sizes ans reqs) with ⟨h1, h2⟩ | ⟨k, h1, h2⟩
    · obtain ⟨w', g1, g2⟩ := hw.ready (max (returnsAt now q.header.len ts) free) (serialises (ha q))
      simp only [sizes] at h2
      rw [h2]
      exact .answered _ _ _ _ _ _ _ _ _ _ _ _ _ _ h rfl (by rw [h1]; exact g1)
        (by simpa [sizes] using ih rfl (room.map (· - (ans q).size)) w' g2)
    · simp only [sizes] at h2
      rw [h2]
      exact .blocks _ _ _ _ _ _ _ _ _ _ _ h rfl (by rw [h1]; exact hw.stalled _ _ (serialises (ha q))) rfl (queue_run ht rfl room)

/-- C104.  With the default runner a peer that does not read the answers makes no difference to when its requests are
handled and when it is disconnected: as with handlers that write nothing (C100).  The handlers from the first
whose answer the peer does not take are blocked until then. -/
theorem reply_ondemand {ans : Request → Answer} (ha : AnswersWell ans) (room : Option Nat) (wt d : Nat) (sched : List Nat)
    (arr : List (Nat × Bytes)) (now : Nat) (reqs : List (Nat × Request)) (e : Option Nat)
    (h : ServeTimed (fun _ => 0) (TRead.new d sched arr) (byteTimes arr) now now reqs e)
    (reqs' : List (Nat × Request × Bool)) (e' : Option Nat) :
    ServeReply false ans room (some (TConn.new wt)) (TRead.new d sched arr) (byteTimes arr) now now reqs' e' ↔
      reqs' = marked (roomFor room (sizes ans reqs)) reqs ∧ e' = e := by
  have hr := ondemand_run ha h rfl room (TConn.new wt) (Fresh.new wt)
  constructor
  · intro h'; exact serveReply_unique h' hr
  · rintro ⟨rfl, rfl⟩; exact hr

/-! ## SequentialRunner -/

private theorem seq_run {ans : Request → Answer} (ha : AnswersWell ans) {dur : Nat → Nat} {c : TRead} {ts : List Nat}
    {now free : Nat} {reqs : List (Nat × Request)} {e : Option Nat} (h : ServeTimed dur c ts now free reqs e)
    (hd : dur = fun _ => 0) (room : Option Nat) (w : TConn) (hw : Fresh w) :
    ServeReply true ans room (some w) c ts now free
      (marked (roomFor room (sizes ans reqs)) (reqs.take (roomFor room (sizes ans reqs) + 1)))
      (if roomFor room (sizes ans reqs) = reqs.length then e else none) := by
  induction h generalizing room w with
  | waits dur c ts now free h => cases room <;> exact .waits _ _ _ _ _ _ h
  | timeout dur c ts now free q c' d h hx => cases room <;> exact .timeout _ _ _ _ _ _ _ _ _ h hx
  | fails dur c ts now free q e c' h he => cases room <;> exact .fails _ _ _ _ _ _ _ _ _ h he
  | request dur c ts now free q c' reqs e h ht ih =>
    subst hd
    simp only [sizes, List.map_cons]
    rcases peer_cases room (ans q).size (sizes ans reqs) with ⟨h1, h2⟩ | ⟨k, h1, h2⟩
    · obtain ⟨w', g1, g2⟩ := hw.ready (max (returnsAt now q.header.len ts) free) (serialises (ha q))
      simp only [sizes] at h2
      rw [h2, List.take_succ_cons]
      have := ih rfl (room.map (· - (ans q).size)) w' g2
      have hl : ∀ (α : Type) (a b : α) (n m : Nat), (if n + 1 = m + 1 then a else b) = (if n = m then a else b) := by
        intro α a b n m
        by_cases h : n = m
        · simp [h]
        · rw [if_neg h, if_neg (by omega)]
      rw [List.length_cons, hl]
      exact .answered _ _ _ _ _ _ _ _ _ _ _ _ _ _ h rfl (by rw [h1]; exact g1)
        (by simp only [sizes] at this; exact this)
    · simp only [sizes] at h2
      rw [h2, List.take_succ_cons, List.length_cons, if_neg (by omega)]
      exact .stuck _ _ _ _ _ _ _ _ _ h rfl (by rw [h1]; exact hw.stalled _ _ (serialises (ha q))) rfl

/-- C104, with a `SequentialRunner`: everything is handled as with handlers that write nothing, up to the first
request whose answer the peer does not take.  If there is one, the connection is never closed. -/
theorem reply_sequential {ans : Request → Answer} (ha : AnswersWell ans) (room : Option Nat) (wt d : Nat) (sched : List Nat)
    (arr : List (Nat × Bytes)) (now : Nat) (reqs : List (Nat × Request)) (e : Option Nat)
    (h : ServeTimed (fun _ => 0) (TRead.new d sched arr) (byteTimes arr) now now reqs e)
    (reqs' : List (Nat × Request × Bool)) (e' : Option Nat) :
    ServeReply true ans room (some (TConn.new wt)) (TRead.new d sched arr) (byteTimes arr) now now reqs' e' ↔
      reqs' = marked (roomFor room (sizes ans reqs)) (reqs.take (roomFor room (sizes ans reqs) + 1)) ∧
      e' = if roomFor room (sizes ans reqs) = reqs.length then e else none := by
  have hr := seq_run ha h rfl room (TConn.new wt) (Fresh.new wt)
  constructor
  · intro h'; exact serveReply_unique h' hr
  · rintro ⟨rfl, rfl⟩; exact hr

/-! ## Peers that read everything, and peers that read nothing -/

private theorem roomFor_all (l : List Nat) : roomFor none l = l.length := by
  induction l with
  | nil => rfl
  | cons a l ih => simp [roomFor, ih]

private theorem size_pos (a : Answer) : 0 < a.size := by unfold Answer.size headerlen; omega

private theorem roomFor_none (l : List Nat) (h : ∀ n ∈ l, 0 < n) : roomFor (some 0) l = 0 := by
  cases l with
  | nil => rfl
  | cons a l =>
    have : ¬ a ≤ 0 := by have := h a (by simp); omega
    simp [roomFor, this]

private theorem sizes_pos (ans : Request → Answer) (reqs : List (Nat × Request)) : ∀ n ∈ sizes ans reqs, 0 < n := by
  intro n hn
  obtain ⟨x, _, rfl⟩ := List.mem_map.mp hn
  exact size_pos _

private theorem sizes_length (ans : Request → Answer) (reqs : List (Nat × Request)) :
    (sizes ans reqs).length = reqs.length := by simp [sizes]

private theorem marked_all (l : List (Nat × Request)) (n : Nat) (h : l.length ≤ n) :
    marked n l = l.map (fun x => (x.1, x.2, true)) := by
  induction l generalizing n with
  | nil => rfl
  | cons a l ih =>
    have h' : l.length + 1 ≤ n := h
    have hn : 0 < n := by omega
    simp [marked, ih (n - 1) (by omega), hn]

private theorem marked_zero (l : List (Nat × Request)) : marked 0 l = l.map (fun x => (x.1, x.2, false)) := by
  induction l with
  | nil => rfl
  | cons a l ih => simp [marked, ih]

/-- C104, peers that read: the answers change nothing, whatever the runner is, and all are written. -/
theorem reply_read (seq : Bool) {ans : Request → Answer} (ha : AnswersWell ans) (wt d : Nat) (sched : List Nat)
    (arr : List (Nat × Bytes)) (now : Nat) (reqs : List (Nat × Request)) (e : Option Nat)
    (h : ServeTimed (fun _ => 0) (TRead.new d sched arr) (byteTimes arr) now now reqs e)
    (reqs' : List (Nat × Request × Bool)) (e' : Option Nat) :
    ServeReply seq ans none (some (TConn.new wt)) (TRead.new d sched arr) (byteTimes arr) now now reqs' e' ↔
      reqs' = reqs.map (fun x => (x.1, x.2, true)) ∧ e' = e := by
  cases seq with
  | false =>
    rw [reply_ondemand ha none wt d sched arr now reqs e h, roomFor_all, sizes_length, marked_all _ _ (Nat.le_refl _)]
  | true =>
    rw [reply_sequential ha none wt d sched arr now reqs e h, roomFor_all, sizes_length,
      List.take_of_length_le (Nat.le_succ _), marked_all _ _ (Nat.le_refl _), if_pos rfl]

/-- C104, the part that holds: with the default runner a prompt peer that reads nothing is disconnected when the
read timeout has passed since its last message.  Until then every message that it sends costs one more
handler that is blocked: there is no limit to their number. -/
theorem reply_deaf_partial {ans : Request → Answer} (ha : AnswersWell ans) (wt d : Nat) (hd : d ≠ 0) (sched : List Nat)
    (arr : List (Nat × Bytes)) (ho : InOrder arr) (ms : List Msg) (hw : ∀ m ∈ ms, m.Whole) (tail : Bytes)
    (hu : Unfinished tail) (hm : arr.flatMap (·.2) = ms.flatMap Msg.wire ++ tail) (now : Nat)
    (hp : Prompt d now (completions (byteTimes arr) ms)) (reqs : List (Nat × Request × Bool)) (e : Option Nat)
    (hr : ServeReply false ans (some 0) (some (TConn.new wt)) (TRead.new d sched arr) (byteTimes arr) now now reqs e) :
    reqs.map (fun x => content (x.1, x.2.1)) = ms.map (fun m => (m.1, Body.buffer m.2)) ∧
    reqs.map (·.1) = (completions (byteTimes arr) ms).map (max now) ∧
    (∀ x ∈ reqs, x.2.2 = false) ∧
    e = some (latest now (completions (byteTimes arr) ms) + d) := by
  obtain ⟨⟨rs, x, h⟩, _⟩ := serve_timeline d hd (fun _ => 0) sched arr ho ms hw tail hu hm now now
  obtain ⟨h1, h2, h3⟩ := serve_prompt d hd sched arr ho ms hw tail hu hm now hp rs x h
  obtain ⟨rfl, rfl⟩ := (reply_ondemand ha (some 0) wt d sched arr now rs x h reqs e).mp hr
  rw [roomFor_none _ (sizes_pos _ _), marked_zero]
  refine ⟨?_, ?_, ?_, h3⟩
  · rw [List.map_map, ← h1]; rfl
  · rw [List.map_map, ← h2]; rfl
  · intro y hy
    obtain ⟨z, _, rfl⟩ := List.mem_map.mp hy
    rfl

/-- C104, the part that does not hold: with a `SequentialRunner` a prompt peer that sends a message and does not read the
answer is never disconnected, whatever the read timeout and the write timeout are, and whatever else it
sends: its first request is handled and no other. -/
theorem reply_deaf_false {ans : Request → Answer} (ha : AnswersWell ans) (wt d : Nat) (hd : d ≠ 0) (sched : List Nat)
    (arr : List (Nat × Bytes)) (ho : InOrder arr) (ms : List Msg) (hne : ms ≠ []) (hw : ∀ m ∈ ms, m.Whole)
    (tail : Bytes) (hu : Unfinished tail) (hm : arr.flatMap (·.2) = ms.flatMap Msg.wire ++ tail) (now : Nat)
    (hp : Prompt d now (completions (byteTimes arr) ms)) :
    (∃ reqs e, ServeReply true ans (some 0) (some (TConn.new wt)) (TRead.new d sched arr) (byteTimes arr) now now reqs e) ∧
    ∀ reqs e,
      ServeReply true ans (some 0) (some (TConn.new wt)) (TRead.new d sched arr) (byteTimes arr) now now reqs e →
      reqs.map (fun x => content (x.1, x.2.1)) = (ms.take 1).map (fun m => (m.1, Body.buffer m.2)) ∧
      (∀ x ∈ reqs, x.2.2 = false) ∧ e = none := by
  obtain ⟨⟨rs, x, h⟩, _⟩ := serve_timeline d hd (fun _ => 0) sched arr ho ms hw tail hu hm now now
  obtain ⟨h1, h2, h3⟩ := serve_prompt d hd sched arr ho ms hw tail hu hm now hp rs x h
  have hs := reply_sequential ha (some 0) wt d sched arr now rs x h
  refine ⟨⟨_, _, (hs _ _).mpr ⟨rfl, rfl⟩⟩, fun reqs e hr => ?_⟩
  obtain ⟨rfl, rfl⟩ := (hs _ _).mp hr
  rw [roomFor_none _ (sizes_pos _ _), marked_zero]
  refine ⟨?_, ?_, ?_⟩
  · have h4 := congrArg (List.take 1) h1
    rw [← List.map_take, ← List.map_take] at h4
    rw [← h4, List.map_map]; rfl
  · intro y hy
    obtain ⟨z, _, rfl⟩ := List.mem_map.mp hy
    rfl
  · rw [if_neg]
    intro hl
    have := congrArg List.length h1
    simp only [List.length_map, ← hl] at this
    exact hne (List.length_eq_zero_iff.mp this.symm)

/-! ## The hypotheses can be met -/

private def pong : Request → Answer := fun q => ⟨⟨0, 3, 0, q.header.transaction⟩, some ⟨[7, 7], 2, none⟩⟩

private def ping : Msg := (⟨4, 2, 10, 2⟩, [7, 7])

example : AnswersWell pong := by intro q w h; cases h; rfl

/-- Three echo requests of a peer that takes 25 bytes: two answers of 10 bytes are written, the third blocks. -/
example : ∃ reqs, ServeTimed (fun _ => 0) (TRead.new 5 [] [(1, ping.wire), (3, ping.wire), (7, ping.wire)])
      (byteTimes [(1, ping.wire), (3, ping.wire), (7, ping.wire)]) 0 0 reqs (some 12) ∧
    roomFor (some 25) (sizes pong reqs) = 2 ∧ reqs.length = 3 := by
  have hu : Unfinished [] := ⟨ping, ping.wire, rfl, by decide, by decide⟩
  obtain ⟨⟨reqs, e, hr⟩, h⟩ := serve_timeline 5 (by decide) (fun _ => 0) [] [(1, ping.wire), (3, ping.wire), (7, ping.wire)]
    (by simp [InOrder]) [ping, ping, ping] (by simp [ping, Msg.Whole]) [] hu (by decide) 0 0
  obtain ⟨h1, h2⟩ := h reqs e hr
  have he : e = some 12 := by rw [h2]; decide
  have hl : reqs.length = 3 := by
    have := congrArg List.length h1
    rw [List.length_map] at this
    rw [this]; decide
  subst he
  refine ⟨reqs, hr, ?_, hl⟩
  match reqs, hl with
  | [a, b, c], _ => simp [sizes, roomFor, pong, Answer.size, headerlen]

example : InOrder [(1, ping.wire), (3, ping.wire)] ∧ (∀ m ∈ [ping, ping], m.Whole) ∧ Unfinished [] ∧
    [(1, ping.wire), (3, ping.wire)].flatMap (·.2) = [ping, ping].flatMap Msg.wire ++ [] ∧
    Prompt 5 0 (completions (byteTimes [(1, ping.wire), (3, ping.wire)]) [ping, ping]) :=
  ⟨by simp [InOrder], by simp [ping, Msg.Whole], ⟨ping, ping.wire, rfl, by decide, by decide⟩, by decide,
    by decide, by decide, trivial⟩

end Verif.Props
