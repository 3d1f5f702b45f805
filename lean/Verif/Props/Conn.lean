import Verif.Conn
import Verif.Spec.Wire

/-!
# Properties C10 - C12: the sending half of a connection
-/

namespace Verif.Props

open Verif

/-! ## C10 -/

/-- What a user of a connection can do to its output. -/
inductive ConnOp where
  | send (q : Request)
  | respond (rv : UInt8) (h : Header) (w : Option Wr)
  | flush

/-- Run one operation. -/
def ConnOp.run (b : BW) : ConnOp → Option Err × BW
  | .send q => ((Conn.send b q).1, (Conn.send b q).2.1)
  | .respond rv h w => ((Response.write b rv h w).1, (Response.write b rv h w).2.1)
  | .flush => Conn.flush b

/-- The message of the operation, as it is written to a transport that never fails (nothing
if it cannot be serialised). -/
def ConnOp.message (op : ConnOp) : Bytes := ((op.run (.new [])).2.tr.out ++ (op.run (.new [])).2.buf)

/-- The operation has no error of its own: it succeeds on a transport that never fails. -/
def ConnOp.Serialises (op : ConnOp) : Prop := (op.run (.new [])).1 = none

/-- Run operations one after another, whatever they return. -/
def runOps : BW → List ConnOp → List (Option Err) × BW
  | b, [] => ([], b)
  | b, op :: t =>
    match op.run b with
    | (e, b') => let o := runOps b' t; (e :: o.1, o.2)

/-- An empty plan means no error. -/
private theorem write_plan_nil (b : BW) (p : Bytes) (h : b.err = none) (hp : b.tr.plan = []) :
    (b.write p).2.2.err = none ∧ (b.write p).2.2.tr.plan = [] := by
  have hfl : ∀ b : BW, b.err = none → b.tr.plan = [] → b.flush.2.err = none ∧ b.flush.2.tr.plan = [] := by
    intro b h hp
    unfold BW.flush
    rw [h]
    simp only
    split
    · exact ⟨h, hp⟩
    · have : b.tr.write b.buf = (b.buf.length, none, { b.tr with out := b.tr.out ++ b.buf }) := by
        simp [Transport.write, hp]
      rw [this]; simp [hp]
  have hl : ∀ fuel p (b : BW), b.err = none → b.tr.plan = [] →
      (BW.loop fuel p b).2.2.err = none ∧ (BW.loop fuel p b).2.2.tr.plan = [] := by
    intro fuel
    induction fuel with
    | zero => intro p b h hp; exact ⟨h, hp⟩
    | succ fuel ih =>
      intro p b h hp
      unfold BW.loop
      by_cases hc : b.avail < p.length ∧ b.err = none
      · rw [if_pos hc]
        by_cases hb : b.buf = []
        · simp only [hb, if_true]
          have : b.tr.write p = (p.length, none, { b.tr with out := b.tr.out ++ p }) := by
            simp [Transport.write, hp]
          rw [this]
          exact ih _ _ rfl hp
        · simp only [hb, if_false]
          have := hfl { b with buf := b.buf ++ p.take b.avail } h hp
          exact ih _ _ this.1 this.2
      · rw [if_neg hc]; exact ⟨h, hp⟩
  have := hl 3 p b h hp
  unfold BW.write
  rcases hw : BW.loop 3 p b with ⟨n, p', b'⟩
  rw [hw] at this
  simp only at this
  simp [this.1, this.2]

private theorem flush_plan_nil (b : BW) (h : b.err = none) (hp : b.tr.plan = []) :
    b.flush.2.err = none ∧ b.flush.2.tr.plan = [] := by
  unfold BW.flush
  rw [h]
  simp only
  split
  · exact ⟨h, hp⟩
  · have : b.tr.write b.buf = (b.buf.length, none, { b.tr with out := b.tr.out ++ b.buf }) := by
      simp [Transport.write, hp]
    rw [this]; simp [hp]

theorem force_plan_nil (b : BW) (p : Bytes) (h : b.err = none) (hp : b.tr.plan = []) :
    (Conn.forceWrite b p).2.err = none ∧ (Conn.forceWrite b p).2.tr.plan = [] := by
  obtain ⟨h1, h2⟩ := write_plan_nil b p h hp
  have h3 := (b.write_took p).2.1
  unfold Conn.forceWrite
  rcases hw : b.write p with ⟨n, e, b'⟩
  rw [hw] at h1 h2 h3
  simp only at h1 h2 h3
  rw [h1] at h3; subst h3
  exact flush_plan_nil b' h1 h2

/-- A response cannot be serialised, or is written and flushed. -/
theorem respond_kind (rv : UInt8) (h : Header) (w : Option Wr) :
    (∃ e, ∀ b, (ConnOp.respond rv h w).run b = (some e, b)) ∨
    (∃ msg, ∀ b, (ConnOp.respond rv h w).run b = Conn.forceWrite b msg) := by
  by_cases hw : ∃ w' e, w = some w' ∧ w'.err = some e
  · obtain ⟨w', e, rfl, he⟩ := hw
    exact .inl ⟨e, fun b => by simp [ConnOp.run, Response.write, he]⟩
  · refine .inr ?_
    cases w with
    | none => exact ⟨_, fun b => by simp [ConnOp.run, Response.write, Header.writeTo_eq]; rfl⟩
    | some w' =>
      have he : w'.err = none := by
        cases he : w'.err with
        | none => rfl
        | some e => exact absurd ⟨w', e, rfl, he⟩ hw
      exact ⟨_, fun b => by simp [ConnOp.run, Response.write, he, Header.writeTo_eq]; rfl⟩

/-- The three things an operation can be. -/
theorem op_kind (op : ConnOp) :
    (∃ e, ∀ b, op.run b = (some e, b)) ∨
    (∃ msg, ∀ b, op.run b = ((b.write msg).2.1, (b.write msg).2.2)) ∨
    (∃ msg, ∀ b, op.run b = Conn.forceWrite b msg) ∨ op = .flush := by
  cases op with
  | flush => exact .inr (.inr (.inr rfl))
  | send q =>
    rcases q.writeTo_any with ⟨n, e, q', h⟩ | ⟨msg, q', hne, h⟩
    · exact .inl ⟨e, fun b => by simp [ConnOp.run, Conn.send, h]⟩
    · refine .inr (.inl ⟨msg, fun b => ?_⟩)
      simp only [ConnOp.run, Conn.send, h, bufWriteTo_conn b msg hne]
  | respond rv h w =>
    rcases respond_kind rv h w with h | h
    · exact .inl h
    · exact .inr (.inr (.inl h))

/-- What every operation does to the connection. -/
theorem op_took (op : ConnOp) (b : BW) :
    b.Took op.message (op.run b).2 ∧
    (op.Serialises → (op.run b).1 = (op.run b).2.err) ∧
    (¬ op.Serialises → (op.run b).1 ≠ none ∧ (op.run b).2 = b ∧ op.message = []) ∧
    (b.err = none → b.tr.plan = [] → (op.run b).2.err = none ∧ (op.run b).2.tr.plan = []) := by
  rcases op_kind op with ⟨e, key⟩ | ⟨msg, key⟩ | ⟨msg, key⟩ | rfl
  · have hs : ¬ op.Serialises := by simp [ConnOp.Serialises, key]
    have hm : op.message = [] := by simp [ConnOp.message, key, BW.new]
    rw [hm, key]
    exact ⟨.refl b, fun h => absurd h hs, fun _ => ⟨by simp, rfl, rfl⟩, fun h hp => ⟨h, hp⟩⟩
  · obtain ⟨t1, t2, t3, t4⟩ := (BW.new []).write_took msg
    have hp := write_plan_nil (BW.new []) msg rfl rfl
    have hm : op.message = msg := by
      simp only [ConnOp.message, key]
      rw [(t1.ok hp.1).2]; simp [BW.new]
    have hs : op.Serialises := by simp only [ConnOp.Serialises, key, t2, hp.1]
    rw [hm, key]
    obtain ⟨u1, u2, u3, u4⟩ := b.write_took msg
    exact ⟨u1, fun _ => u2, fun h => absurd hs h, fun h hp => write_plan_nil b msg h hp⟩
  · obtain ⟨t1, t2, t3⟩ := Conn.forceWrite_took (BW.new []) msg
    have hp := force_plan_nil (BW.new []) msg rfl rfl
    have hm : op.message = msg := by
      simp only [ConnOp.message, key]
      rw [(t1.ok hp.1).2]; simp [BW.new]
    have hs : op.Serialises := by simp only [ConnOp.Serialises, key, t2, hp.1]
    rw [hm, key]
    obtain ⟨u1, u2, u3⟩ := Conn.forceWrite_took b msg
    exact ⟨u1, fun _ => u2, fun h => absurd hs h, fun h hp => force_plan_nil b msg h hp⟩
  · have hm : ConnOp.message .flush = [] := by
      simp [ConnOp.message, ConnOp.run, Conn.flush, BW.flush, BW.new]
    have hs : ConnOp.Serialises .flush := by
      simp [ConnOp.Serialises, ConnOp.run, Conn.flush, BW.flush, BW.new]
    rw [hm]
    obtain ⟨h1, h2, h3⟩ := b.flush_took
    exact ⟨h1, fun _ => h2, fun h => absurd hs h, fun h hp => flush_plan_nil b h hp⟩

theorem runOps_took (ops : List ConnOp) (b : BW) :
    b.Took (ops.flatMap ConnOp.message) (runOps b ops).2 := by
  induction ops generalizing b with
  | nil => exact .refl b
  | cons op t ih =>
    have h := (op_took op b).1
    simp only [runOps, List.flatMap_cons]
    exact h.trans (ih _)

theorem runOps_append (ops ops' : List ConnOp) (b : BW) :
    runOps b (ops ++ ops') = ((runOps b ops).1 ++ (runOps (runOps b ops).2 ops').1,
      (runOps (runOps b ops).2 ops').2) := by
  induction ops generalizing b with
  | nil => simp [runOps]
  | cons op t ih => simp [runOps, ih]

/-- C10.  On a new connection with any transport: whatever was sent, what the transport got
is a prefix of the concatenation of the messages. -/
theorem conn_prefix (plan : List (Option (Nat × Err))) (ops : List ConnOp) :
    (runOps (.new plan) ops).2.tr.out <+: ops.flatMap ConnOp.message := by
  obtain ⟨k, _, hk⟩ := (runOps_took ops (.new plan)).pre rfl
  rw [hk]
  simp only [BW.new, List.nil_append]
  exact List.take_prefix _ _

/-- C10.  After a flush that returns nil everything that was sent has been transmitted. -/
theorem conn_flushed (plan : List (Option (Nat × Err))) (ops : List ConnOp)
    (h : ((ConnOp.flush).run (runOps (.new plan) ops).2).1 = none) :
    ((ConnOp.flush).run (runOps (.new plan) ops).2).2.tr.out = ops.flatMap ConnOp.message := by
  have h1 := runOps_took ops (.new plan)
  obtain ⟨h2, h3, _⟩ := op_took .flush (runOps (.new plan) ops).2
  have h4 := (BW.flush_took (runOps (.new plan) ops).2).2.2
  have hs : ConnOp.Serialises .flush := by
    simp [ConnOp.Serialises, ConnOp.run, Conn.flush, BW.flush, BW.new]
  have hm : ConnOp.message .flush = [] := by
    simp [ConnOp.message, ConnOp.run, Conn.flush, BW.flush, BW.new]
  have he := h3 hs
  rw [h] at he
  rw [hm] at h2
  have := ((h1.trans h2).ok he.symm).2
  have hb : ((ConnOp.flush).run (runOps (.new plan) ops).2).2.buf = [] := h4 h
  rw [hb] at this
  simpa [BW.new] using this

/-- C10.  Nothing is held back or lost while no operation fails: what has not been
transmitted is in the 4096-byte buffer. -/
theorem conn_buffered (plan : List (Option (Nat × Err))) (ops : List ConnOp)
    (hs : ∀ op ∈ ops, op.Serialises) (h : ∀ e ∈ (runOps (.new plan) ops).1, e = none) :
    (runOps (.new plan) ops).2.tr.out ++ (runOps (.new plan) ops).2.buf = ops.flatMap ConnOp.message ∧
      (runOps (.new plan) ops).2.buf.length ≤ 4096 := by
  have h1 := runOps_took ops (.new plan)
  have he : (runOps (.new plan) ops).2.err = none := by
    clear h1
    rcases List.eq_nil_or_concat ops with rfl | ⟨t, op, rfl⟩
    · rfl
    · simp only [List.concat_eq_append] at h hs ⊢
      rw [runOps_append] at h ⊢
      have h3 := (op_took op (runOps (.new plan) t).2).2.1 (hs op (by simp))
      simp only [runOps]
      rw [← h3]
      exact h _ (by simp [runOps])
  refine ⟨?_, h1.cap (by simp [BW.new])⟩
  rw [(h1.ok he).2]; simp [BW.new]

/-- C10.  Write errors are sticky: once an operation whose message can be serialised has
failed, every later operation fails, and not a single byte is transmitted any more. -/
theorem conn_sticky (plan : List (Option (Nat × Err))) (ops later : List ConnOp) (op : ConnOp)
    (hs : op.Serialises) (e : Err) (h : (op.run (runOps (.new plan) ops).2).1 = some e) :
    (∀ x ∈ (runOps (op.run (runOps (.new plan) ops).2).2 later).1, x ≠ none) ∧
    (runOps (op.run (runOps (.new plan) ops).2).2 later).2.tr.out =
      (op.run (runOps (.new plan) ops).2).2.tr.out := by
  have he := (op_took op (runOps (.new plan) ops).2).2.1 hs
  rw [h] at he
  generalize (op.run (runOps (.new plan) ops).2).2 = b at he
  clear h
  induction later generalizing b with
  | nil => exact ⟨by simp [runOps], rfl⟩
  | cons l t ih =>
    obtain ⟨h1, h2, h3, _⟩ := op_took l b
    have hst := h1.stuck e he.symm
    obtain ⟨i1, i2⟩ := ih (l.run b).2 hst.1.symm
    simp only [runOps, List.mem_cons, forall_eq_or_imp]
    refine ⟨⟨?_, i1⟩, by rw [i2, hst.2]⟩
    by_cases hl : l.Serialises
    · rw [h2 hl, hst.1]; simp
    · exact (h3 hl).1

/-- C10.  A message that cannot be serialised does not disturb the stream: an error is
returned and the connection is as before. -/
theorem conn_serialisation_error (op : ConnOp) (b : BW) (h : ¬ op.Serialises) :
    (op.run b).1 ≠ none ∧ (op.run b).2 = b ∧ op.message = [] := (op_took op b).2.2.1 h

/-- C10.  With a transport that never fails, no serialisable operation fails. -/
theorem conn_no_spurious_error (ops : List ConnOp) (hs : ∀ op ∈ ops, op.Serialises) :
    ∀ e ∈ (runOps (.new []) ops).1, e = none := by
  suffices h : ∀ b : BW, b.err = none → b.tr.plan = [] →
      ∀ e ∈ (runOps b ops).1, e = none from h _ rfl rfl
  induction ops with
  | nil => intro b _ _ e he; simp [runOps] at he
  | cons op t ih =>
    intro b hb hp
    have hop : (op.run b).2.err = none ∧ (op.run b).2.tr.plan = [] := (op_took op b).2.2.2 hb hp
    intro e he
    simp only [runOps, List.mem_cons] at he
    rcases he with rfl | he
    · rw [(op_took op b).2.1 (hs op (by simp)), hop.1]
    · exact ih (fun o ho => hs o (by simp [ho])) _ hop.1 hop.2 e he

/-- Non-vacuity: two sends, of which the second does not fit into the buffer any more; the
transport takes 100 bytes and fails. -/
example :
    (runOps (.new [some (100, .io 7)]) [.send (newRequest 2 (some fun _ => ⟨zeros 3000, 3000, none⟩)),
      .send (newRequest 3 (some fun _ => ⟨zeros 2000, 2000, none⟩)), .flush]).1 =
      [none, some (.io 7), some (.io 7)] := by decide +kernel

/-! ## C11 -/

private theorem send_write (b : BW) (q : Request) (msg : Bytes) (hne : msg ≠ []) {q' : Request}
    (h : ∀ (ω : Type) (w : Dst ω) (s : ω), q.writeTo w s =
      ⟨(bufWriteTo w msg s).1, (bufWriteTo w msg s).2.1, (bufWriteTo w msg s).2.2, q'⟩) :
    Conn.send b q = ((b.write msg).2.1, (b.write msg).2.2, q') := by
  simp only [Conn.send, h, bufWriteTo_conn b msg hne]

/-- C11, the part that holds.  If `Send` returns nil, then every request could be
serialised, and all of them have been transmitted in order, after whatever was buffered
before.  Missing: that nothing is written when one of them fails. -/
theorem sendBatch_success_partial (b : BW) (qs : List Request) (h : (sendBatch b qs).1 = none) :
    (∀ q ∈ qs, (ConnOp.send q).Serialises) ∧
    (sendBatch b qs).2.tr.out = b.tr.out ++ b.buf ++ qs.flatMap (fun q => (ConnOp.send q).message) ∧
    (sendBatch b qs).2.buf = [] := by
  induction qs generalizing b with
  | nil =>
    simp only [sendBatch] at h ⊢
    obtain ⟨h1, h2, h3⟩ := b.flush_took
    have hb := h3 h
    have := (h1.ok (by rw [← h2]; exact h)).2
    simp only [Conn.flush]
    rw [hb] at this
    simp at this
    exact ⟨by simp, by simp [this], hb⟩
  | cons q t ih =>
    obtain ⟨o1, o2, o3, _⟩ := op_took (.send q) b
    simp only [sendBatch] at h ⊢
    rcases hs : Conn.send b q with ⟨e, b', q'⟩
    rw [hs] at h
    have hr : ConnOp.run b (.send q) = (e, b') := by simp [ConnOp.run, hs]
    rw [hr] at o1 o2 o3
    cases e with
    | some e => simp at h
    | none =>
      simp only at h o1 o2 o3 ⊢
      have hser : (ConnOp.send q).Serialises := by
        apply Classical.byContradiction
        intro hn; exact (o3 hn).1 rfl
      obtain ⟨i1, i2, i3⟩ := ih b' h
      refine ⟨by simpa using ⟨hser, i1⟩, ?_, i3⟩
      rw [i2, (o1.ok (o2 hser).symm).2]
      simp

/-- C11.  If `Send` fails on a transport that works, the error is that of the first request
that cannot be serialised, and exactly the requests before it have been put on the
connection (transmitted or buffered), in order. -/
theorem sendBatch_failure (b : BW) (hb : b.err = none) (hp : b.tr.plan = []) (qs rest : List Request)
    (q : Request) (hs : ∀ q ∈ qs, (ConnOp.send q).Serialises) (hq : ¬ (ConnOp.send q).Serialises) :
    (sendBatch b (qs ++ q :: rest)).1 = ((ConnOp.send q).run (.new [])).1 ∧
    (sendBatch b (qs ++ q :: rest)).2.tr.out ++ (sendBatch b (qs ++ q :: rest)).2.buf =
      b.tr.out ++ b.buf ++ qs.flatMap (fun q => (ConnOp.send q).message) := by
  induction qs generalizing b with
  | nil =>
    simp only [List.nil_append, sendBatch]
    rcases op_kind (.send q) with ⟨e, key⟩ | ⟨msg, key⟩ | ⟨msg, key⟩ | h
    · have h1 := key b
      simp only [ConnOp.run] at h1
      rcases hs : Conn.send b q with ⟨e', b', q'⟩
      rw [hs] at h1
      simp only [Prod.mk.injEq] at h1
      rw [h1.1, h1.2]
      simp [key]
    · exfalso; apply hq
      simp only [ConnOp.Serialises, key]
      rw [((BW.new []).write_took msg).2.1, (write_plan_nil (BW.new []) msg rfl rfl).1]
    · exfalso; apply hq
      simp only [ConnOp.Serialises, key]
      rw [(Conn.forceWrite_took (BW.new []) msg).2.1, (force_plan_nil (BW.new []) msg rfl rfl).1]
    · simp at h
  | cons x t ih =>
    obtain ⟨o1, o2, o3, o4⟩ := op_took (.send x) b
    have hx := hs x (by simp)
    obtain ⟨p1, p2⟩ := o4 hb hp
    have p3 := o2 hx
    rcases hsx : Conn.send b x with ⟨e, b', q'⟩
    have hr : ConnOp.run b (.send x) = (e, b') := by simp [ConnOp.run, hsx]
    rw [hr] at o1 p1 p2 p3
    simp only at o1 p1 p2 p3
    rw [p1] at p3; subst p3
    simp only [List.cons_append, sendBatch, hsx]
    obtain ⟨i1, i2⟩ := ih b' p1 p2 (fun y hy => hs y (by simp [hy]))
    refine ⟨i1, ?_⟩
    rw [i2, (o1.ok p1).2]
    simp

/-- C11 is false: a first request whose message is larger than the 4096-byte buffer is
transmitted before the second one fails. -/
theorem sendBatch_false (q1 q2 : Request) (h1 : (ConnOp.send q1).Serialises)
    (hl : 4096 < (ConnOp.send q1).message.length) (h2 : ¬ (ConnOp.send q2).Serialises) :
    (sendBatch (.new []) [q1, q2]).1 ≠ none ∧
      (sendBatch (.new []) [q1, q2]).2.tr.out = (ConnOp.send q1).message := by
  have hf := sendBatch_failure (.new []) rfl rfl [q1] [] q2 (by simpa using h1) h2
  simp only [List.cons_append, List.nil_append, List.flatMap_cons, List.flatMap_nil,
    List.append_nil] at hf
  refine ⟨by rw [hf.1]; exact h2, ?_⟩
  rcases q1.writeTo_any with ⟨n, e, q', h⟩ | ⟨msg, q', hne, h⟩
  · exfalso; revert h1; simp [ConnOp.Serialises, ConnOp.run, Conn.send, h]
  · have hw : ∀ p : Bytes, 4096 < p.length → (BW.new []).write p =
        (p.length, none, ⟨[], none, ⟨p, []⟩⟩) := by
      intro p hp
      have hc : (BW.new []).avail < p.length ∧ (BW.new []).err = none := by
        simp [BW.avail, BW.new, bufSize]; exact hp
      have hl : BW.loop 3 p (BW.new []) = (p.length, [], ⟨[], none, ⟨p, []⟩⟩) := by
        rw [BW.loop, if_pos hc]
        simp [BW.new, Transport.write, BW.loop]
      rw [BW.write, hl]
      simp
    have hm : (ConnOp.send q1).message = msg := by
      obtain ⟨t1, _⟩ := (BW.new []).write_took msg
      have hp := write_plan_nil (BW.new []) msg rfl rfl
      simp only [ConnOp.message, ConnOp.run, send_write _ _ msg hne h]
      rw [(t1.ok hp.1).2]; simp [BW.new]
    rw [hm] at hl ⊢
    simp only [sendBatch, send_write _ _ msg hne h, hw msg hl]
    rcases op_kind (.send q2) with ⟨e, key⟩ | ⟨msg', key⟩ | ⟨msg', key⟩ | h
    · have k1 := key ⟨[], none, ⟨msg, []⟩⟩
      simp only [ConnOp.run] at k1
      rcases hs : Conn.send ⟨[], none, ⟨msg, []⟩⟩ q2 with ⟨e', b', q'⟩
      rw [hs] at k1
      simp only [Prod.mk.injEq] at k1
      rw [k1.1, k1.2]
    · exfalso; apply h2
      simp only [ConnOp.Serialises, key]
      rw [((BW.new []).write_took msg').2.1, (write_plan_nil (BW.new []) msg' rfl rfl).1]
    · exfalso; apply h2
      simp only [ConnOp.Serialises, key]
      rw [(Conn.forceWrite_took (BW.new []) msg').2.1, (force_plan_nil (BW.new []) msg' rfl rfl).1]
    · simp at h

/-- C11 is false also for small requests: those before the failing one stay in the buffer
of the connection, and the next flush (or response) transmits them. -/
theorem sendBatch_leftover_false (q1 q2 : Request) (h1 : (ConnOp.send q1).Serialises)
    (h2 : ¬ (ConnOp.send q2).Serialises) :
    (sendBatch (.new []) [q1, q2]).1 ≠ none ∧
      (Conn.flush (sendBatch (.new []) [q1, q2]).2).2.tr.out = (ConnOp.send q1).message := by
  have hf := sendBatch_failure (.new []) rfl rfl [q1] [] q2 (by simpa using h1) h2
  simp only [List.cons_append, List.nil_append, List.flatMap_cons, List.flatMap_nil,
    List.append_nil] at hf
  refine ⟨by rw [hf.1]; exact h2, ?_⟩
  have hst : (sendBatch (.new []) [q1, q2]).2.err = none ∧
      (sendBatch (.new []) [q1, q2]).2.tr.plan = [] := by
    obtain ⟨_, _, _, o4⟩ := op_took (.send q1) (.new [])
    obtain ⟨p1, p2⟩ := o4 rfl rfl
    rcases hs : Conn.send (.new []) q1 with ⟨e, b', q'⟩
    have hr : ConnOp.run (.new []) (.send q1) = (e, b') := by simp [ConnOp.run, hs]
    simp only [ConnOp.Serialises, hr] at h1
    rw [hr] at p1 p2
    simp only at p1 p2
    subst h1
    simp only [sendBatch, hs]
    have hn := (op_took (.send q2) b').2.2.1 h2
    rcases hs2 : Conn.send b' q2 with ⟨e2, b2, q2'⟩
    simp only [ConnOp.run, hs2] at hn
    cases e2 with
    | none => exact absurd rfl hn.1
    | some e2 => simp only [hn.2.1]; exact ⟨p1, p2⟩
  generalize (sendBatch (.new []) [q1, q2]).2 = b at hf hst
  obtain ⟨f1, f2, f3⟩ := b.flush_took
  have fe := (flush_plan_nil b hst.1 hst.2).1
  have := (f1.ok fe).2
  rw [f3 (by rw [f2]; exact fe)] at this
  simp only [List.append_nil] at this
  simp only [Conn.flush]
  rw [this, hf.2]; simp [BW.new]

/-- Non-vacuity: such requests. -/
example : (ConnOp.send (newRequest 13 (some fun _ => ⟨zeros 5000, 5000, none⟩))).Serialises ∧
    4096 < (ConnOp.send (newRequest 13 (some fun _ => ⟨zeros 5000, 5000, none⟩))).message.length ∧
    ¬ (ConnOp.send (newRequest 14 (some fun _ => ⟨[], 0, some (.io 1)⟩))).Serialises := by
  refine ⟨?_, ?_, ?_⟩
  · unfold ConnOp.Serialises; decide +kernel
  · decide +kernel
  · unfold ConnOp.Serialises; decide +kernel

/-! ## C12 -/

/-- The message a response should be. -/
def Reply (rv : UInt8) (h : Header) (b msg : Bytes) : Prop :=
  Layout msg [.num 1 (if h.version = 0 then rv else h.version).toNat, .num 1 h.type.toNat,
    .num 2 msg.length, .num 4 h.transaction.toNat, .raw b]

theorem response_eq (c : BW) (rv : UInt8) (h : Header) (w : Option Wr) (b : Bytes)
    (hw : (w = none ∧ b = []) ∨ ∃ n, w = some ⟨b, n, none⟩) :
    Response.write c rv h w = ((Conn.forceWrite c (Header.bytes
      ⟨if h.version = 0 then rv else h.version, h.type, UInt16.ofNat (8 + b.length), h.transaction⟩
      ++ b)).1, (Conn.forceWrite c (Header.bytes
      ⟨if h.version = 0 then rv else h.version, h.type, UInt16.ofNat (8 + b.length), h.transaction⟩
      ++ b)).2,
      ⟨if h.version = 0 then rv else h.version, h.type, UInt16.ofNat (8 + b.length),
        h.transaction⟩) := by
  obtain ⟨v, t, l, x⟩ := h
  have hu : UInt16.ofNat headerlen + UInt16.ofNat b.length = UInt16.ofNat (8 + b.length) := by
    simp [headerlen]
  rcases hw with ⟨rfl, rfl⟩ | ⟨n, rfl⟩
  · by_cases hv : v = 0 <;> simp [Response.write, Header.writeTo_eq, hv, headerlen]
  · by_cases hv : v = 0 <;>
      simp only [Response.write, Header.writeTo_eq, hv, if_true, if_false, hu]

/-- C12, the part that holds: a body of at most 65527 bytes (the reported count does not
matter; a nil message is an empty body).  On a connection without a previous write error,
either the call returns nil and the message has been transmitted, complete, after what was
buffered before, or it returns the transport's error and a part of it was transmitted.
Missing: bodies that do not fit. -/
theorem response_partial (c : BW) (rv : UInt8) (h : Header) (w : Option Wr) (b : Bytes)
    (hw : (w = none ∧ b = []) ∨ ∃ n, w = some ⟨b, n, none⟩) (hl : 8 + b.length ≤ 65535)
    (hc : c.err = none) :
    ∃ msg, Reply rv h b msg ∧ msg.length = 8 + b.length ∧
      (((Response.write c rv h w).1 = none ∧
        (Response.write c rv h w).2.1.tr.out = c.tr.out ++ c.buf ++ msg ∧
        (Response.write c rv h w).2.1.buf = []) ∨
       ((Response.write c rv h w).1 ≠ none ∧
        (Response.write c rv h w).2.1.tr.out <+: c.tr.out ++ c.buf ++ msg)) := by
  refine ⟨Header.bytes ⟨if h.version = 0 then rv else h.version, h.type,
      UInt16.ofNat (8 + b.length), h.transaction⟩ ++ b, ?_, ?_, ?_⟩
  case refine_3 =>
    rw [response_eq c rv h w b hw]
    generalize Header.bytes ⟨if h.version = 0 then rv else h.version, h.type,
      UInt16.ofNat (8 + b.length), h.transaction⟩ ++ b = msg
    obtain ⟨f1, f2, f3⟩ := Conn.forceWrite_took c msg
    simp only
    cases he : (Conn.forceWrite c msg).1 with
    | none =>
      left
      have := (f1.ok (by rw [← f2]; exact he)).2
      rw [f3 he] at this
      exact ⟨rfl, by simpa using this, f3 he⟩
    | some e =>
      right
      obtain ⟨k, _, hk⟩ := f1.pre hc
      refine ⟨by simp, ?_⟩
      rw [hk, List.append_assoc]
      exact (List.prefix_append_right_inj _).mpr (List.take_prefix _ _)
  · have hu : (UInt16.ofNat (8 + b.length)).toNat = 8 + b.length := by
      simp only [UInt16.toNat_ofNat']; omega
    simp only [Reply, Header.bytes, List.append_assoc, Layout.u8, Layout.u16, Layout.u32, hu]
    simp
    omega
  · simp [Header.bytes_length]

/-- C12.  A message that fails to serialise: its error, and nothing is transmitted or
buffered, on any connection. -/
theorem response_fails (c : BW) (rv : UInt8) (h : Header) (w : Wr) (e : Err)
    (he : w.err = some e) :
    (Response.write c rv h (some w)).1 = some e ∧ (Response.write c rv h (some w)).2.1 = c := by
  simp [Response.write, he]

/-- C12 is false for bodies that do not fit: `ResponseWriter.Write` reports success and
transmits a message whose length field is its size modulo 65536. -/
theorem response_tooLong_false (rv : UInt8) (h : Header) (b : Bytes) (n : Nat)
    (hl : 65535 < 8 + b.length) :
    ∃ msg, (Response.write (.new []) rv h (some ⟨b, n, none⟩)).1 = none ∧
      (Response.write (.new []) rv h (some ⟨b, n, none⟩)).2.1.tr.out = msg ∧
      msg.length = 8 + b.length ∧ At msg 2 2 ((8 + b.length) % 65536) ∧
      ¬ Reply rv h b msg := by
  rw [response_eq (.new []) rv h _ b (.inr ⟨n, rfl⟩)]
  simp only
  generalize hH : (⟨if h.version = 0 then rv else h.version, h.type, UInt16.ofNat (8 + b.length),
    h.transaction⟩ : Header) = H
  obtain ⟨f1, f2, f3⟩ := Conn.forceWrite_took (.new []) (H.bytes ++ b)
  have fe := (force_plan_nil (.new []) (H.bytes ++ b) rfl rfl).1
  have hn : (Conn.forceWrite (.new []) (H.bytes ++ b)).1 = none := by rw [f2]; exact fe
  have hout : (Conn.forceWrite (.new []) (H.bytes ++ b)).2.tr.out = H.bytes ++ b := by
    have := (f1.ok fe).2
    rw [f3 hn] at this
    simpa [BW.new] using this
  have hlen : (H.bytes ++ b).length = 8 + b.length := by simp [Header.bytes_length]
  refine ⟨H.bytes ++ b, hn, hout, hlen, ?_, ?_⟩
  · refine ⟨by rw [hlen]; omega, ?_⟩
    have e : H.bytes ++ b = (be H.version ++ be H.type) ++ (be H.length ++ (be H.transaction ++ b)) := by
      simp [Header.bytes]
    rw [e, List.drop_append_of_le_length (by simp), List.drop_eq_nil_of_le (by simp), List.nil_append,
      List.take_append_of_le_length (by simp), List.take_of_length_le (by simp), getBE_be]
    rw [← hH]
    show (UInt16.ofNat (8 + b.length)).toNat = _
    simp only [UInt16.toNat_ofNat']
  · intro hr
    obtain ⟨_, _, hr⟩ := hr
    obtain ⟨_, _, hr⟩ := hr
    obtain ⟨_, h2, _⟩ := hr
    have hlt := getBE_lt (List.take 2 (List.drop 1 (List.drop 1 (H.bytes ++ b))))
    rw [h2, hlen] at hlt
    have h3 : (List.take 2 (List.drop 1 (List.drop 1 (H.bytes ++ b)))).length ≤ 2 := by simp; omega
    have h4 : 256 ^ (List.take 2 (List.drop 1 (List.drop 1 (H.bytes ++ b)))).length ≤ 256 ^ 2 :=
      Nat.pow_le_pow_right (by omega) h3
    omega

/-- Non-vacuity. -/
example : ∃ msg, (Response.write (.new []) 4 ⟨0, 3, 0, 9⟩ (some ⟨[1, 2], 2, none⟩)).2.1.tr.out = msg ∧
    msg = [4, 3, 0, 10, 0, 0, 0, 9, 1, 2] := ⟨_, rfl, by decide +kernel⟩

end Verif.Props
