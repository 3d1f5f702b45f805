import Verif.ConnConc
import Verif.MutexLive
import Verif.Props.Conn

/-!
# Property C09: concurrent writers
-/

namespace Verif.Props

open Verif

/-- What an operation does to the connection.  `Send` (net.go:178-187) serialises the request
into the connection; what it writes is found by running the same code on a destination that
records the writes.  `ResponseWriter.Write` (server.go:58-90) serialises into a private
buffer and calls `forceWrite`. -/
def ConnOp.call : ConnOp → Call ⊕ Option Err
  | .send q =>
    match (q.writeTo recorder []).dst with
    | [p] => .inl (.write p)
    | _ => .inr (q.writeTo recorder []).err
  | .respond rv h w =>
    match (Response.write (.new []) rv h w).1 with
    | some e => .inr (some e)
    | none => .inl (.force (Response.write (.new []) rv h w).2.1.tr.out)
  | .flush => .inl .flush

/-- That is all an operation does, in every state of the connection. -/
theorem call_run (op : ConnOp) (b : BW) : runCall Call.run ConnOp.call b op = op.run b := by
  cases op with
  | flush => rfl
  | send q =>
    simp only [runCall, ConnOp.call, ConnOp.run, Conn.send]
    rcases q.writeTo_any with ⟨n, e, q', h⟩ | ⟨msg, q', hne, h⟩
    · simp [h]
    · simp only [h, bufWriteTo_conn b msg hne]
      have : bufWriteTo recorder msg [] = (msg.length, none, [msg]) := by
        simp [bufWriteTo, recorder, hne]
      simp [this, Call.run]
  | respond rv h w =>
    simp only [runCall, ConnOp.call, ConnOp.run]
    by_cases hw : ∃ w' e, w = some w' ∧ w'.err = some e
    · obtain ⟨w', e, rfl, he⟩ := hw
      simp [response_fails _ _ _ _ _ he]
    · have hk : ∃ b, (w = none ∧ b = []) ∨ ∃ n, w = some ⟨b, n, none⟩ := by
        cases w with
        | none => exact ⟨[], .inl ⟨rfl, rfl⟩⟩
        | some w =>
          obtain ⟨o, n, e⟩ := w
          cases e with
          | none => exact ⟨o, .inr ⟨n, rfl⟩⟩
          | some e => exact absurd ⟨_, e, rfl, rfl⟩ hw
      obtain ⟨body, hk⟩ := hk
      rw [response_eq b rv h w body hk, response_eq (.new []) rv h w body hk]
      generalize Header.bytes ⟨if h.version = 0 then rv else h.version, h.type,
        UInt16.ofNat (8 + body.length), h.transaction⟩ ++ body = msg
      obtain ⟨f1, f2, f3⟩ := Conn.forceWrite_took (.new []) msg
      have fe := (force_plan_nil (.new []) msg rfl rfl).1
      have hn : (Conn.forceWrite (.new []) msg).1 = none := by rw [f2]; exact fe
      have hout : (Conn.forceWrite (.new []) msg).2.tr.out = msg := by
        have := (f1.ok fe).2
        rw [f3 hn] at this
        simpa [BW.new] using this
      simp [hn, hout, Call.run]

private theorem runSeq_eq (b : BW) (ops : List ConnOp) : runSeq Call.run ConnOp.call b ops = runOps b ops := by
  induction ops generalizing b with
  | nil => rfl
  | cons op t ih => simp only [runSeq, runOps, call_run, ih]

/-- The messages that are on their way: the one of the goroutine that holds the lock. -/
def GoConn.pending (c : GoConn ConnOp) : Bytes :=
  match c.mu with
  | none => []
  | some i => (c.th i).current.flatMap ConnOp.message

/-- C09.  Any number of goroutines with arbitrary programs of sends, responses and flushes,
in any interleaving of their steps, over any transport.  There is one order of the completed
operations (`c.log`) such that

* every goroutine's operations are in it in program order, none lost, none repeated;
* each returned what it returns when the operations run one after another in that order;
* when no goroutine is inside a call, the connection is in the state of that sequential run;
* the bytes given to the transport are, at every moment, a prefix of the concatenation of the
  whole messages in that order, followed by at most one message in progress. -/
theorem concurrent_writers (plan : List (Option (Nat × Err))) (progs : Nat → List ConnOp)
    (c : GoConn ConnOp) (h : GoConn.Reach ConnOp.call plan progs c) :
    (∀ i, (c.log.filter (·.1 = i)).map (·.2.1) ++ (c.th i).current ++ (c.th i).todo = progs i) ∧
    c.log.map (·.2.2) = (runOps (.new plan) (c.log.map (·.2.1))).1 ∧
    (c.mu = none → c.sh = (runOps (.new plan) (c.log.map (·.2.1))).2) ∧
    c.sh.tr.out <+: (c.log.map (·.2.1)).flatMap ConnOp.message ++ GoConn.pending c := by
  have inv := GoSys.inv connMachine_sound ConnOp.call (.new plan) progs c h
  refine ⟨inv.order, by rw [← runSeq_eq]; exact inv.res, fun hm => by rw [← runSeq_eq]; exact (inv.free hm).2, ?_⟩
  cases hm : c.mu with
  | none =>
    rw [(inv.free hm).2, runSeq_eq]
    simp only [GoConn.pending, hm, List.append_nil]
    exact conn_prefix plan _
  | some i =>
    obtain ⟨_, op, k, m, h1, h2, h3⟩ := inv.held i hm
    have h4 := Micro.runs_out (h3.toward (k.runs _) rfl)
    have h5 : k.run (runSeq Call.run ConnOp.call (.new plan) (c.log.map (·.2.1))).2 =
        op.run (runOps (.new plan) (c.log.map (·.2.1))).2 := by
      rw [← call_run, runSeq_eq, runCall, h2]
    rw [h5] at h4
    refine h4.trans ?_
    have h6 : (op.run (runOps (.new plan) (c.log.map (·.2.1))).2).2 =
        (runOps (.new plan) (c.log.map (·.2.1) ++ [op])).2 := by
      rw [runOps_append]; simp [runOps]
    rw [h6]
    refine (conn_prefix plan _).trans ?_
    simp [GoConn.pending, hm, GoThread.current, h1]

/-- C09.  At most one goroutine is inside a call, and it holds the lock. -/
theorem concurrent_exclusive (plan : List (Option (Nat × Err))) (progs : Nat → List ConnOp)
    (c : GoConn ConnOp) (h : GoConn.Reach ConnOp.call plan progs c) (i : Nat)
    (hi : (c.th i).pc ≠ none) : c.mu = some i ∧ ∀ j, j ≠ i → (c.th j).pc = none := by
  exact (GoSys.inv connMachine_sound ConnOp.call (.new plan) progs c h).exclusive i hi

/-- C09, C10.  When a `Flush` of any goroutine has returned nil, everything that all
goroutines had written before has been transmitted. -/
theorem concurrent_flushed (plan : List (Option (Nat × Err))) (progs : Nat → List ConnOp)
    (c : GoConn ConnOp) (h : GoConn.Reach ConnOp.call plan progs c) (a b : List (Nat × ConnOp × Option Err)) (i : Nat)
    (hl : c.log = a ++ (i, .flush, none) :: b) : (a.map (·.2.1)).flatMap ConnOp.message <+: c.sh.tr.out := by
  have inv := GoSys.inv connMachine_sound ConnOp.call (.new plan) progs c h
  have hres := inv.res
  rw [runSeq_eq, hl] at hres
  simp only [List.map_append, List.map_cons] at hres
  rw [runOps_append] at hres
  have hlen : ∀ (b : BW) (ops : List ConnOp), (runOps b ops).1.length = ops.length := by
    intro b ops
    induction ops generalizing b with
    | nil => rfl
    | cons op t ih => simp [runOps, ih]
  have hr := (List.append_inj hres (by simp [hlen])).2
  simp only [runOps, List.cons.injEq] at hr
  have hf := conn_flushed plan (a.map (·.2.1)) hr.1.symm
  have hmono : ∀ (ops : List ConnOp) (b : BW), b.tr.out <+: (runOps b ops).2.tr.out := by
    intro ops b
    have := runOps_took ops b
    cases he : b.err with
    | none => obtain ⟨k, _, hk⟩ := this.pre he; rw [hk]; exact List.prefix_append _ _
    | some e => rw [(this.stuck e he).2]; exact List.prefix_rfl
  have hlog : (runOps (.new plan) (c.log.map (·.2.1))).2.tr.out <+: c.sh.tr.out := by
    cases hm : c.mu with
    | none => rw [(inv.free hm).2, runSeq_eq]; exact List.prefix_rfl
    | some j =>
      obtain ⟨_, op, k, m, h1, h2, h3⟩ := inv.held j hm
      have := Micro.runs_out h3
      rw [runSeq_eq] at this
      exact this
  refine List.IsPrefix.trans ?_ hlog
  rw [hl]
  simp only [List.map_append, List.map_cons]
  rw [runOps_append, ← hf]
  exact hmono _ _

/-- C09.  No deadlock: as long as some goroutine has something to do, some goroutine can
make a step. -/
theorem concurrent_progress (plan : List (Option (Nat × Err))) (progs : Nat → List ConnOp)
    (c : GoConn ConnOp) (h : GoConn.Reach ConnOp.call plan progs c) (i : Nat)
    (hi : (c.th i).pc ≠ none ∨ (c.th i).todo ≠ []) : ∃ c', GoSys.Step connMachine true ConnOp.call c c' := by
  exact (GoSys.inv connMachine_sound ConnOp.call (.new plan) progs c h).progress connMachine_live i hi

/-- C64.  Finitely many goroutines with finite programs cannot go on for ever, whatever the
interleaving and whatever the transport does: every call returns.  No fairness is assumed. -/
theorem concurrent_terminates (plan : List (Option (Nat × Err))) (progs : Nat → List ConnOp) (N : Nat)
    (hN : ∀ i, N ≤ i → progs i = []) (ex : Nat → GoConn ConnOp) (h0 : ex 0 = .init (.new plan) progs) :
    ¬ ∀ n, GoSys.Step connMachine true ConnOp.call (ex n) (ex (n + 1)) :=
  GoSys.terminates connMachine_sound ConnOp.call (.new plan) progs N hN ex h0

/-- C64.  An execution ends only when every operation of every goroutine has returned; the
mutex is free. -/
theorem concurrent_final (plan : List (Option (Nat × Err))) (progs : Nat → List ConnOp)
    (c : GoConn ConnOp) (h : GoConn.Reach ConnOp.call plan progs c)
    (hf : ∀ c', ¬ GoSys.Step connMachine true ConnOp.call c c') :
    c.mu = none ∧ ∀ i, (c.log.filter (·.1 = i)).map (·.2.1) = progs i :=
  GoSys.final connMachine_sound ConnOp.call (.new plan) progs connMachine_live c h hf

/-- Non-vacuity: two goroutines answer with different messages; goroutine 1 is in the middle
of its call (one byte is in the buffer, nothing is transmitted) while goroutine 0 waits. -/
example : ∃ c, GoConn.Reach ConnOp.call
    [] (fun i => [.respond 4 ⟨0, 3, 0, UInt32.ofNat i⟩ none, .flush]) c ∧
    c.mu = some 1 ∧ c.sh.buf = [4] ∧ c.sh.tr.out = [] ∧ (c.th 0).todo.length = 2 ∧
    (c.th 1).todo.length = 1 ∧ GoConn.pending c = [4, 3, 0, 8, 0, 0, 0, 1] := by
  refine ⟨_, .tail (.tail (.tail .refl
    (.lock _ 1 (.respond 4 ⟨0, 3, 0, 1⟩ none) [.flush] (.force [4, 3, 0, 8, 0, 0, 0, 1]) rfl
      (by rfl) (fun _ => rfl)))
    (.step _ 1 [.flush] (.respond 4 ⟨0, 3, 0, 1⟩ none) (.loop [4, 3, 0, 8, 0, 0, 0, 1] true)
      (.copy 8 [4, 3, 0, 8, 0, 0, 0, 1] true true) ⟨[], none, ⟨[], []⟩⟩ rfl (by rfl)))
    (.step _ 1 [.flush] (.respond 4 ⟨0, 3, 0, 1⟩ none) (.copy 8 [4, 3, 0, 8, 0, 0, 0, 1] true true)
      (.copy 7 [3, 0, 8, 0, 0, 0, 1] true true) ⟨[4], none, ⟨[], []⟩⟩ rfl (by rfl)),
    rfl, rfl, rfl, rfl, rfl, by rfl⟩

/-- Non-vacuity of the final states: a flush of an empty buffer, to the end. -/
example : ∃ c, GoConn.Reach ConnOp.call [] (fun i => if i = 0 then [.flush] else []) c ∧
    (∀ c', ¬ GoSys.Step connMachine true ConnOp.call c c') ∧ c.log = [(0, .flush, none)] := by
  refine ⟨_, .tail (.tail (.tail .refl
    (.lock _ 0 .flush [] .flush rfl rfl (fun _ => rfl)))
    (.step _ 0 [] .flush (.flush .call) (.done none) (.new []) rfl (by rfl)))
    (.unlock _ 0 [] .flush (.done none) none rfl rfl), ?_, rfl⟩
  intro c' hs
  cases hs with
  | skip i op rest e ht hc | lock i op rest k ht hc hm | step i todo op m m' sh' ht hs | unlock i todo op m e ht he =>
    by_cases hi : i = 0 <;> simp [GoSys.set, GoSys.init, hi] at ht

end Verif.Props
