import Verif.Conn
import Verif.Mutex

/-!
# Concurrent use of the sending half of a connection (net.go:151-187)

Any number of goroutines call `Write`, `Flush` and `forceWrite` on one connection.  The
calls are split into atomic steps (one byte copied into the buffer, one byte taken by the
transport, one test of the loop); the steps of different goroutines interleave arbitrarily.
Memory is sequentially consistent (Go's guarantee for programs without data races).
-/

namespace Verif

/-- A call of the connection. -/
inductive Call where
  | write (p : Bytes)   -- net.go:151-155
  | flush               -- net.go:158-162
  | force (p : Bytes)   -- net.go:165-175
  deriving DecidableEq, Repr

/-- The call executed without interruption. -/
def Call.run (b : BW) : Call → Option Err × BW
  | .write p => ((b.write p).2.1, (b.write p).2.2)
  | .flush => Conn.flush b
  | .force p => Conn.forceWrite b p

/-- `net.Conn.Write`, the decision part: how many of the bytes will be taken, the error
returned afterwards, and the transport with the plan advanced. -/
def Transport.begin (t : Transport) (p : Bytes) : Nat × Option Err × Transport :=
  match t.plan with
  | [] => (p.length, none, t)
  | none :: rest => (p.length, none, { t with plan := rest })
  | some (k, e) :: rest => (min k p.length, some e, { t with plan := rest })

/-- Where a flush returns to: the caller of the connection, or the loop of
`bufio.Writer.Write` with the rest of the bytes (`fl`: a flush follows the write). -/
inductive Back where
  | call
  | loop (p : Bytes) (fl : Bool)
  deriving DecidableEq, Repr

/-- Where a transport write returns to. -/
inductive After where
  | direct (p : Bytes) (n : Nat) (fl : Bool)  -- the large-write case of bufio.Writer.Write
  | flush (n : Nat) (back : Back)             -- bufio.Writer.Flush
  deriving DecidableEq, Repr

/-- The position of a goroutine inside a call (between `mu.Lock` and `mu.Unlock`). -/
inductive Micro where
  /-- the test of the loop in `bufio.Writer.Write` -/
  | loop (p : Bytes) (fl : Bool)
  /-- `copy(b.buf[b.n:], p)`: `k` bytes still to copy -/
  | copy (k : Nat) (p : Bytes) (fl last : Bool)
  /-- the start of `bufio.Writer.Flush` -/
  | flush (back : Back)
  /-- inside `net.Conn.Write`: the transport still takes `k` bytes of `q`, then returns `e` -/
  | tx (q : Bytes) (k : Nat) (e : Option Err) (after : After)
  /-- about to unlock and return `e` -/
  | done (e : Option Err)
  deriving DecidableEq, Repr

/-- The position right after `mu.Lock`. -/
def Call.start : Call → Micro
  | .write p => .loop p false
  | .flush => .flush .call
  | .force p => .loop p true

/-- Return from a flush with error `e`. -/
def Back.ret (e : Option Err) : Back → Micro
  | .call => .done e
  | .loop p fl => .loop p fl

/-- One step of a goroutine inside a call: bufio.Writer.Write, bufio.Writer.Flush and
`forceWrite` (net.go:165-175). -/
def Micro.step : Micro → BW → Option (Micro × BW)
  | .done _, _ => none
  | .loop p fl, b =>
    if b.avail < p.length ∧ b.err = none then
      if b.buf = [] then
        match b.tr.begin p with
        | (n, e, t) => some (.tx p n e (.direct p n fl), { b with tr := t })
      else some (.copy (min b.avail p.length) p fl false, b)
    else
      match b.err with
      | some e => some (.done (some e), b)
      | none => some (.copy (min b.avail p.length) p fl true, b)
  | .copy 0 p fl last, b =>
    some (if last then (if fl then .flush .call else .done none) else .flush (.loop p fl), b)
  | .copy (_ + 1) [] fl last, b => some (.copy 0 [] fl last, b)
  | .copy (k + 1) (x :: p) fl last, b => some (.copy k p fl last, { b with buf := b.buf ++ [x] })
  | .flush back, b =>
    match b.err with
    | some e => some (back.ret (some e), b)
    | none =>
      if b.buf = [] then some (back.ret none, b)
      else
        match b.tr.begin b.buf with
        | (n, e, t) => some (.tx b.buf n e (.flush n back), { b with tr := t })
  | .tx (x :: q) (k + 1) e after, b =>
    some (.tx q k e after, { b with tr := { b.tr with out := b.tr.out ++ [x] } })
  | .tx [] (_ + 1) e after, b => some (.tx [] 0 e after, b)
  | .tx _ 0 e (.direct p n fl), b => some (.loop (p.drop n) fl, { b with err := e })
  | .tx _ 0 e (.flush n back), b =>
    match (if n < b.buf.length ∧ e = none then some Err.shortWrite else e) with
    | some e => some (back.ret (some e), { b with buf := b.buf.drop n, err := some e })
    | none => some (back.ret none, { b with buf := [], err := none })

/-- The sending half of a connection as an object. -/
def connMachine : Machine BW Micro Call (Option Err) where
  start := Call.start
  step := Micro.step
  stop := fun m => match m with
    | .done e => some e
    | _ => none

theorem connStep (m : Micro) (b : BW) : connMachine.step m b = m.step b := rfl

/-- Zero or more steps. -/
abbrev Micro.Runs (m : Micro) (b : BW) (m' : Micro) (b' : BW) : Prop := connMachine.Runs m b m' b'

/-- Steps only append to what the transport got. -/
theorem Micro.step_out {m b m' b'} (h : Micro.step m b = some (m', b')) : b.tr.out <+: b'.tr.out := by
  have hb : ∀ p, (b.tr.begin p).2.2.out = b.tr.out := by
    intro p; unfold Transport.begin; split <;> rfl
  unfold Micro.step at h
  split at h
  · simp at h
  · split at h
    · split at h
      · rename_i p _ _ _
        have := hb p
        revert h this
        rcases b.tr.begin p with ⟨n, e, t⟩
        intro h this
        simp only [Option.some.injEq, Prod.mk.injEq] at h
        obtain ⟨-, rfl⟩ := h
        simp only at this; simp [this]
      · simp only [Option.some.injEq, Prod.mk.injEq] at h
        obtain ⟨-, rfl⟩ := h; exact List.prefix_rfl
    · split at h <;>
      · simp only [Option.some.injEq, Prod.mk.injEq] at h
        obtain ⟨-, rfl⟩ := h; exact List.prefix_rfl
  · simp only [Option.some.injEq, Prod.mk.injEq] at h
    obtain ⟨-, rfl⟩ := h; exact List.prefix_rfl
  · simp only [Option.some.injEq, Prod.mk.injEq] at h
    obtain ⟨-, rfl⟩ := h; exact List.prefix_rfl
  · simp only [Option.some.injEq, Prod.mk.injEq] at h
    obtain ⟨-, rfl⟩ := h; exact List.prefix_rfl
  · split at h
    · simp only [Option.some.injEq, Prod.mk.injEq] at h
      obtain ⟨-, rfl⟩ := h; exact List.prefix_rfl
    · split at h
      · simp only [Option.some.injEq, Prod.mk.injEq] at h
        obtain ⟨-, rfl⟩ := h; exact List.prefix_rfl
      · have := hb b.buf
        revert h this
        rcases b.tr.begin b.buf with ⟨n, e, t⟩
        intro h this
        simp only [Option.some.injEq, Prod.mk.injEq] at h
        obtain ⟨-, rfl⟩ := h
        simp only at this; simp [this]
  · simp only [Option.some.injEq, Prod.mk.injEq] at h
    obtain ⟨-, rfl⟩ := h; exact List.prefix_append _ _
  · simp only [Option.some.injEq, Prod.mk.injEq] at h
    obtain ⟨-, rfl⟩ := h; exact List.prefix_rfl
  · simp only [Option.some.injEq, Prod.mk.injEq] at h
    obtain ⟨-, rfl⟩ := h; exact List.prefix_rfl
  · split at h <;>
    · simp only [Option.some.injEq, Prod.mk.injEq] at h
      obtain ⟨-, rfl⟩ := h; exact List.prefix_rfl

theorem Micro.runs_out {m b m' b'} (h : Micro.Runs m b m' b') : b.tr.out <+: b'.tr.out := by
  induction h with
  | refl => exact List.prefix_rfl
  | head s _ ih => exact (Micro.step_out s).trans ih

/-! ## A call that runs alone does what `Conn.lean` says -/

theorem Micro.copy_runs (k : Nat) (p : Bytes) (fl last : Bool) (b : BW) (h : k ≤ p.length) :
    Micro.Runs (.copy k p fl last) b (.copy 0 (p.drop k) fl last) { b with buf := b.buf ++ p.take k } := by
  induction k generalizing p b with
  | zero => simpa using Machine.Runs.refl _ _
  | succ k ih =>
    cases p with
    | nil => simp at h
    | cons x p =>
      refine .head (by simp only [connStep, Micro.step]; rfl) ?_
      have := ih p { b with buf := b.buf ++ [x] } (by simpa using h)
      simpa using this

theorem Micro.tx_runs (q : Bytes) (k : Nat) (e : Option Err) (a : After) (b : BW) (h : k ≤ q.length) :
    Micro.Runs (.tx q k e a) b (.tx (q.drop k) 0 e a)
      { b with tr := { b.tr with out := b.tr.out ++ q.take k } } := by
  induction k generalizing q b with
  | zero => simpa using Machine.Runs.refl _ _
  | succ k ih =>
    cases q with
    | nil => simp at h
    | cons x q =>
      refine .head (by simp only [connStep, Micro.step]; rfl) ?_
      have := ih q { b with tr := { b.tr with out := b.tr.out ++ [x] } } (by simpa using h)
      simpa using this

/-- `Transport.write` is `Transport.begin` followed by the bytes. -/
theorem Transport.begin_write (t : Transport) (p : Bytes) :
    ∃ n e t', t.begin p = (n, e, t') ∧ n ≤ p.length ∧
      t.write p = (n, e, { t' with out := t'.out ++ p.take n }) := by
  unfold Transport.begin Transport.write
  cases hp : t.plan with
  | nil => exact ⟨_, _, _, rfl, Nat.le_refl _, by simp [hp]⟩
  | cons a rest =>
    cases a with
    | none => exact ⟨_, _, _, rfl, Nat.le_refl _, by simp⟩
    | some ke =>
      obtain ⟨k, e⟩ := ke
      refine ⟨_, _, _, rfl, Nat.min_le_right _ _, ?_⟩
      simp only [Prod.mk.injEq, true_and]
      by_cases h : k ≤ p.length
      · rw [Nat.min_eq_left h]
      · rw [Nat.min_eq_right (by omega), List.take_of_length_le (by omega), List.take_length]

/-- `Flush` by steps. -/
theorem Micro.flush_runs (back : Back) (b : BW) :
    Micro.Runs (.flush back) b (back.ret b.flush.1) b.flush.2 := by
  unfold BW.flush
  cases he : b.err with
  | some e => exact .head (by simp [connStep, Micro.step, he]) (.refl _ _)
  | none =>
    simp only
    by_cases hb : b.buf = []
    · rw [if_pos hb]
      exact .head (by simp only [connStep, Micro.step, he, hb, if_true]) (.refl _ _)
    · rw [if_neg hb]
      obtain ⟨n, e, t', h1, h2, h3⟩ := b.tr.begin_write b.buf
      rw [h3]
      simp only
      refine .head (by simp only [connStep, Micro.step, he, hb, if_false, h1]; rfl) ?_
      refine (Micro.tx_runs _ _ _ _ _ h2).trans ?_
      cases hs : (if n < b.buf.length ∧ e = none then some Err.shortWrite else e) with
      | some e' => exact .head (by simp only [connStep, Micro.step]; rw [hs]) (.refl _ _)
      | none => exact .head (by simp only [connStep, Micro.step]; rw [hs]) (.refl _ _)

/-- The loop of `Write` by steps. -/
theorem Micro.loop_runs (fuel : Nat) (p : Bytes) (fl : Bool) (b : BW) :
    Micro.Runs (.loop p fl) b (.loop (BW.loop fuel p b).2.1 fl) (BW.loop fuel p b).2.2 := by
  induction fuel generalizing p b with
  | zero => exact .refl _ _
  | succ fuel ih =>
    unfold BW.loop
    by_cases hc : b.avail < p.length ∧ b.err = none
    · rw [if_pos hc]
      by_cases hb : b.buf = []
      · rw [if_pos hb]
        obtain ⟨n, e, t', h1, h2, h3⟩ := b.tr.begin_write p
        rw [h3]
        simp only
        refine .head (by simp only [connStep, Micro.step]; rw [if_pos hc, if_pos hb, h1]) ?_
        refine (Micro.tx_runs _ _ _ _ _ h2).trans ?_
        refine .head (by simp only [connStep, Micro.step]; rfl) ?_
        exact ih _ _
      · rw [if_neg hb]
        simp only
        refine .head (by simp only [connStep, Micro.step]; rw [if_pos hc, if_neg hb]) ?_
        refine (Micro.copy_runs _ _ _ _ _ (Nat.min_le_right _ _)).trans ?_
        refine .head (by simp only [connStep, Micro.step]; rfl) ?_
        simp only [Bool.false_eq_true, if_false]
        have hm : min b.avail p.length = b.avail := Nat.min_eq_left (by omega)
        refine (Micro.flush_runs _ _).trans ?_
        simp only [Back.ret, hm]
        exact ih _ _
    · rw [if_neg hc]; exact .refl _ _

/-- A call that runs alone ends, with the result and the state of `Call.run`. -/
theorem Call.runs (c : Call) (b : BW) : Micro.Runs c.start b (.done (c.run b).1) (c.run b).2 := by
  have hw : ∀ p fl, Micro.Runs (.loop p fl) b
      (match (b.write p).2.1 with
        | some e => .done (some e)
        | none => if fl then .flush .call else .done none) (b.write p).2.2 := by
    intro p fl
    refine (Micro.loop_runs 3 p fl b).trans ?_
    have hd := BW.loop_done p b
    unfold BW.write
    revert hd
    rcases BW.loop 3 p b with ⟨nn, p', b'⟩
    intro hd
    simp only at hd ⊢
    cases he : b'.err with
    | some e => exact .head (by simp [connStep, Micro.step, he]) (.refl _ _)
    | none =>
      have hl : p'.length ≤ b'.avail := by simpa [he] using hd
      refine .head (m' := .copy (min b'.avail p'.length) p' fl true) (b' := b') ?_ ?_
      · simp only [connStep, Micro.step]
        rw [if_neg (by omega), he]
      · refine (Micro.copy_runs _ _ _ _ _ (Nat.min_le_right _ _)).trans ?_
        refine .head (by simp only [connStep, Micro.step]; rfl) ?_
        have hm : min b'.avail p'.length = p'.length := Nat.min_eq_right hl
        rw [hm, List.take_of_length_le hl, List.take_length]
        simp only [he, if_true]
        exact .refl _ _
  cases c with
  | write p =>
    have := hw p false
    simp only [Call.start, Call.run]
    cases he : (b.write p).2.1 with
    | some e => rw [he] at this; exact this
    | none => rw [he] at this; exact this
  | flush => exact Micro.flush_runs .call b
  | force p =>
    have := hw p true
    simp only [Call.start, Call.run, Conn.forceWrite]
    revert this
    rcases b.write p with ⟨n, e, b'⟩
    cases e with
    | some e => exact fun h => h
    | none => exact fun h => h.trans (Micro.flush_runs .call b')

theorem connMachine_sound : connMachine.Sound Call.run where
  last m r s h := by
    cases m <;> simp [connMachine] at h
    simp [connMachine, Micro.step]
  runs k s := ⟨_, k.runs s, rfl⟩

/-- Only a finished call makes no step. -/
theorem connMachine_live (m : Micro) (s : BW) (h : connMachine.step m s = none) :
    ∃ r, connMachine.stop m = some r := by
  have hs : m.step s = none := h
  cases m with
  | done e => exact ⟨e, rfl⟩
  | loop p fl =>
    simp only [Micro.step] at hs
    split at hs
    · split at hs <;> simp at hs
    · split at hs <;> simp at hs
  | copy k p fl last =>
    cases k with
    | zero => simp [Micro.step] at hs
    | succ k => cases p <;> simp [Micro.step] at hs
  | flush back =>
    simp only [Micro.step] at hs
    split at hs
    · simp at hs
    · split at hs <;> simp at hs
  | tx q k e a =>
    cases k with
    | succ k => cases q <;> simp [Micro.step] at hs
    | zero =>
      cases a with
      | direct p n fl => cases q <;> simp [Micro.step] at hs
      | flush n back =>
        cases q <;> simp only [Micro.step] at hs <;> split at hs <;> simp at hs

/-- The connection with all goroutines. -/
abbrev GoConn (ω : Type) := GoSys ω BW Micro (Option Err)

/-- Reachable states of a new connection (net.go:122-128) with the given programs: `Write`,
`Flush` and `forceWrite` all take the mutex. -/
abbrev GoConn.Reach {ω} (call : ω → Call ⊕ Option Err) (plan : List (Option (Nat × Err)))
    (progs : Nat → List ω) (c : GoConn ω) : Prop :=
  GoSys.Reach connMachine true call (.init (.new plan) progs) c

end Verif
