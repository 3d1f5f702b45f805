import Verif.ConnConc
import Verif.MutexLive
import Mathlib.Tactic.Convert
import Mathlib.Tactic.ByContra

/-!
# Closing a connection (net.go:189-193) while it is used

`ConnConc.lean` lets a call of the transport decide at its start what it is going to do.  Here
the transport takes bytes one at a time, when the peer is ready for them, so a call may block
for ever; and the connection may be closed at any time.
-/

namespace Verif

/-- Where a call of the transport returns to, see `After`. -/
inductive NetCtx where
  | direct (p : Bytes) (fl : Bool)
  | flush (back : Back)
  deriving DecidableEq, Repr

/-- The return, with the number of bytes the transport has taken. -/
def NetCtx.after : NetCtx → Nat → After
  | .direct p fl, n => .direct p n fl
  | .flush back, n => .flush n back

/-- See `NetCtx`. -/
def After.ctx : After → NetCtx
  | .direct p _ fl => .direct p fl
  | .flush _ back => .flush back

/-- The position of a goroutine inside a call of the connection: as in `ConnConc.lean` (with
`.tx q _ e after` for: `net.Conn.Write` has returned, without taking `q`), or inside
`net.Conn.Write`: `q` is what the transport has not taken, `n` how many bytes it has taken. -/
inductive NetPos where
  | at (m : Micro)
  | net (q : Bytes) (n : Nat) (ctx : NetCtx)
  deriving DecidableEq, Repr

/-- A call of the transport begins where `ConnConc.lean` says so. -/
def NetPos.ofMicro : Micro → NetPos
  | .tx q _ _ after => .net q 0 after.ctx
  | m => .at m

/-- What a goroutine can do without the peer: everything as in `Micro.step`; `net.Conn.Write`
returns when all bytes are taken. -/
def NetPos.step : NetPos → BW → Option (NetPos × BW)
  | .at (.tx q _ e after), b => ((Micro.tx q 0 e after).step b).map fun x => (.at x.1, x.2)
  | .at m, b => (m.step b).map fun x => (.ofMicro x.1, x.2)
  | .net [] n ctx, b => some (.at (.tx [] 0 none (ctx.after n)), b)
  | .net (_ :: _) _ _, _ => none

/-- The calls of a connection (net.go:151-175). -/
def netMachine : Machine BW NetPos Call (Option Err) where
  start := fun k => .at k.start
  step := NetPos.step
  stop := fun m => match m with
    | .at (.done e) => some e
    | _ => none

/-- A connection with all goroutines, and whether it has been closed. -/
structure NetSys (ω : Type) where
  go : GoSys ω BW NetPos (Option Err)
  closed : Bool

/-- A new connection (net.go:122-128) and the programs of the goroutines. -/
def NetSys.init {ω : Type} (progs : Nat → List ω) : NetSys ω := ⟨.init (.new []) progs, false⟩

/-- The error of a closed `net.Conn`: `net.ErrClosed`. -/
def Err.closed : Err := .io 9

variable {ω : Type}

/-- Goroutine `i` goes to the position `m` inside the call `op`. -/
def GoSys.at {ω S M R : Type} (c : GoSys ω S M R) (i : Nat) (op : ω) (m : M) : GoSys ω S M R :=
  { c with th := c.set i ⟨(c.th i).todo, some (op, m)⟩ }

/-- The steps that do not depend on the peer.  A blocked `net.Conn.Write` returns an error when
the connection has been closed. -/
inductive NetSys.Sure (call : ω → Call ⊕ Option Err) : NetSys ω → NetSys ω → Prop where
  | go (s c') (h : GoSys.Step netMachine true call s.go c') : Sure call s ⟨c', s.closed⟩
  | abort (s i op q n ctx) (ht : (s.go.th i).pc = some (op, .net q n ctx)) (hc : s.closed = true) :
    Sure call s ⟨s.go.at i op (.at (.tx q 0 (some .closed) (ctx.after n))), s.closed⟩

/-- All steps.  While the connection is open the peer may take a byte, or the transport may
fail.  `Close` (net.go:191-193) may be called by anyone at any time: it does not take the
mutex.  A second `Close` changes nothing. -/
inductive NetSys.Step (call : ω → Call ⊕ Option Err) : NetSys ω → NetSys ω → Prop where
  | sure {s s'} (h : NetSys.Sure call s s') : Step call s s'
  | take (s i op x q n ctx) (ht : (s.go.th i).pc = some (op, .net (x :: q) n ctx)) (hc : s.closed = false) :
    Step call s ⟨{ s.go.at i op (.net q (n + 1) ctx) with
      sh := { s.go.sh with tr := { s.go.sh.tr with out := s.go.sh.tr.out ++ [x] } } }, s.closed⟩
  | reset (s i op q n ctx e) (ht : (s.go.th i).pc = some (op, .net q n ctx)) (hc : s.closed = false) :
    Step call s ⟨s.go.at i op (.at (.tx q 0 (some e) (ctx.after n))), s.closed⟩
  | close (s) (hc : s.closed = false) : Step call s ⟨s.go, true⟩

/-- Zero or more steps. -/
inductive NetSys.Steps (call : ω → Call ⊕ Option Err) (s₀ : NetSys ω) : NetSys ω → Prop where
  | refl : Steps call s₀ s₀
  | tail {s s'} (h : Steps call s₀ s) (st : NetSys.Step call s s') : Steps call s₀ s'

/-! ## The transport could have decided before -/

/-- Another plan for the transport. -/
def BW.withPlan (b : BW) (r : List (Option (Nat × Err))) : BW := { b with tr := { b.tr with plan := r } }

@[simp] theorem BW.withPlan_buf (b : BW) (r) : (b.withPlan r).buf = b.buf := rfl
@[simp] theorem BW.withPlan_err (b : BW) (r) : (b.withPlan r).err = b.err := rfl
@[simp] theorem BW.withPlan_avail (b : BW) (r) : (b.withPlan r).avail = b.avail := rfl
@[simp] theorem BW.withPlan_withPlan (b : BW) (r r') : (b.withPlan r').withPlan r = b.withPlan r := rfl

/-- The position is not inside the transport. -/
def Micro.plain : Micro → Bool
  | .tx .. => false
  | _ => true

/-- The entry of a plan for the outcome `k` bytes and error `e`. -/
def planEntry (k : Nat) (e : Option Err) : Option (Nat × Err) := e.map fun e => (k, e)

theorem Transport.begin_entry (b : BW) (p : Bytes) (k : Nat) (e : Option Err) (r : List (Option (Nat × Err)))
    (hk : k ≤ p.length) (he : e = none → k = p.length) :
    (b.withPlan (planEntry k e :: r)).tr.begin p = (k, e, (b.withPlan r).tr) := by
  cases e with
  | none => simp [planEntry, Transport.begin, BW.withPlan, he rfl]
  | some e => simp [planEntry, Transport.begin, BW.withPlan, Nat.min_eq_left hk]

theorem Transport.begin_out (t : Transport) (p : Bytes) :
    (t.begin p).2.2.out = t.out := by
  unfold Transport.begin
  split <;> rfl

theorem BW.tr_withPlan (b : BW) (t : Transport) (h : t.out = b.tr.out) (r) :
    ({ b with tr := t } : BW).withPlan r = b.withPlan r := by
  simp [BW.withPlan, h]

/-- A step that does not call the transport does not look at the plan. -/
theorem Micro.step_plain {m m' : Micro} {b b' : BW} (h : m.step b = some (m', b')) (hm' : m'.plain = true) (r) :
    m.step (b.withPlan r) = some (m', b'.withPlan r) := by
  cases m with
  | done e => simp [Micro.step] at h
  | loop p fl =>
    simp only [Micro.step] at h ⊢
    split at h
    · split at h
      · simp only [Option.some.injEq, Prod.mk.injEq] at h
        obtain ⟨rfl, -⟩ := h
        simp [Micro.plain] at hm'
      · rename_i h1 h2
        rw [if_pos (show (b.withPlan r).avail < p.length ∧ (b.withPlan r).err = none from h1),
          if_neg (show ¬ (b.withPlan r).buf = [] from h2)]
        simp only [Option.some.injEq, Prod.mk.injEq] at h ⊢
        obtain ⟨rfl, rfl⟩ := h
        exact ⟨rfl, rfl⟩
    · rename_i h1
      rw [if_neg (show ¬ ((b.withPlan r).avail < p.length ∧ (b.withPlan r).err = none) from h1)]
      rw [BW.withPlan_err]
      cases he : b.err with
      | some e =>
        simp only [he, Option.some.injEq, Prod.mk.injEq] at h ⊢
        obtain ⟨rfl, rfl⟩ := h
        exact ⟨rfl, rfl⟩
      | none =>
        simp only [he, Option.some.injEq, Prod.mk.injEq] at h ⊢
        obtain ⟨rfl, rfl⟩ := h
        exact ⟨rfl, rfl⟩
  | copy k p fl last =>
    cases k with
    | zero =>
      simp only [Micro.step, Option.some.injEq, Prod.mk.injEq] at h ⊢
      obtain ⟨rfl, rfl⟩ := h
      exact ⟨rfl, rfl⟩
    | succ k =>
      cases p with
      | nil =>
        simp only [Micro.step, Option.some.injEq, Prod.mk.injEq] at h ⊢
        obtain ⟨rfl, rfl⟩ := h
        exact ⟨rfl, rfl⟩
      | cons x p =>
        simp only [Micro.step, Option.some.injEq, Prod.mk.injEq] at h ⊢
        obtain ⟨rfl, rfl⟩ := h
        exact ⟨rfl, rfl⟩
  | flush back =>
    simp only [Micro.step, BW.withPlan_err] at h ⊢
    cases he : b.err with
    | some e =>
      simp only [he, Option.some.injEq, Prod.mk.injEq] at h ⊢
      obtain ⟨rfl, rfl⟩ := h
      exact ⟨rfl, rfl⟩
    | none =>
      simp only [he] at h ⊢
      split at h
      · rename_i h1
        rw [if_pos (show (b.withPlan r).buf = [] from h1)]
        simp only [Option.some.injEq, Prod.mk.injEq] at h ⊢
        obtain ⟨rfl, rfl⟩ := h
        exact ⟨rfl, rfl⟩
      · simp only [Option.some.injEq, Prod.mk.injEq] at h
        obtain ⟨rfl, -⟩ := h
        simp [Micro.plain] at hm'
  | tx q k e after =>
    cases k with
    | succ k =>
      cases q <;>
      · simp only [Micro.step, Option.some.injEq, Prod.mk.injEq] at h
        obtain ⟨rfl, -⟩ := h
        simp [Micro.plain] at hm'
    | zero =>
      cases after with
      | direct p n fl =>
        simp only [Micro.step, Option.some.injEq, Prod.mk.injEq] at h ⊢
        obtain ⟨rfl, rfl⟩ := h
        exact ⟨rfl, rfl⟩
      | flush n back =>
        have hr : (Micro.tx q 0 e (.flush n back)).step (b.withPlan r) =
            match (if n < b.buf.length ∧ e = none then some Err.shortWrite else e) with
            | some e => some (back.ret (some e), { b with buf := b.buf.drop n, err := some e }.withPlan r)
            | none => some (back.ret none, { b with buf := [], err := none }.withPlan r) := by
          simp only [Micro.step]
          rfl
        rw [hr]
        simp only [Micro.step] at h
        generalize (if n < b.buf.length ∧ e = none then some Err.shortWrite else e) = x at h ⊢
        cases x <;>
        · simp only [Option.some.injEq, Prod.mk.injEq] at h
          obtain ⟨rfl, rfl⟩ := h
          rfl

/-- A call of the transport returns to a position outside of it. -/
theorem Micro.step_ret {q : Bytes} {e : Option Err} {after : After} {m' : Micro} {b b' : BW}
    (h : (Micro.tx q 0 e after).step b = some (m', b')) : m'.plain = true := by
  cases after with
  | direct p n fl =>
    simp only [Micro.step, Option.some.injEq, Prod.mk.injEq] at h
    obtain ⟨rfl, -⟩ := h
    rfl
  | flush n back =>
    simp only [Micro.step] at h
    split at h <;>
    · simp only [Option.some.injEq, Prod.mk.injEq] at h
      obtain ⟨rfl, -⟩ := h
      cases back <;> rfl

/-- A step that calls the transport: any outcome is possible. -/
theorem Micro.step_begin {m : Micro} {b b' : BW} {q : Bytes} {k : Nat} {e : Option Err} {after : After}
    (hm : m.plain = true) (h : m.step b = some (.tx q k e after, b')) (k' : Nat) (e' : Option Err)
    (hk : k' ≤ q.length) (he : e' = none → k' = q.length) (r) :
    m.step (b.withPlan (planEntry k' e' :: r)) = some (.tx q k' e' (after.ctx.after k'), b'.withPlan r) := by
  cases m with
  | done e => simp [Micro.step] at h
  | tx => simp [Micro.plain] at hm
  | copy k p fl last =>
    exfalso
    cases k with
    | zero =>
      simp only [Micro.step, Option.some.injEq, Prod.mk.injEq] at h
      obtain ⟨h, -⟩ := h
      cases last <;> cases fl <;> simp at h
    | succ k => cases p <;> simp [Micro.step] at h
  | loop p fl =>
    simp only [Micro.step] at h ⊢
    split at h
    · rename_i h1
      split at h
      · rename_i h2
        simp only [Option.some.injEq, Prod.mk.injEq, Micro.tx.injEq] at h
        obtain ⟨⟨rfl, rfl, rfl, rfl⟩, rfl⟩ := h
        rw [if_pos (show (b.withPlan (planEntry k' e' :: r)).avail < p.length ∧ (b.withPlan (planEntry k' e' :: r)).err = none from h1),
          if_pos (show (b.withPlan (planEntry k' e' :: r)).buf = [] from h2), Transport.begin_entry b _ k' e' r hk he]
        simp only [After.ctx, NetCtx.after, Option.some.injEq, Prod.mk.injEq, true_and]
        rw [BW.tr_withPlan _ _ (Transport.begin_out _ _)]
        rfl
      · simp at h
    · split at h <;> simp at h
  | flush back =>
    simp only [Micro.step, BW.withPlan_err] at h ⊢
    cases hb : b.err with
    | some e =>
      simp only [hb, Option.some.injEq, Prod.mk.injEq] at h
      cases back <;> simp [Back.ret] at h
    | none =>
      simp only [hb] at h ⊢
      split at h
      · simp only [Option.some.injEq, Prod.mk.injEq] at h
        cases back <;> simp [Back.ret] at h
      · rename_i h2
        simp only [Option.some.injEq, Prod.mk.injEq, Micro.tx.injEq] at h
        obtain ⟨⟨rfl, rfl, rfl, rfl⟩, rfl⟩ := h
        rw [if_neg (show ¬ (b.withPlan (planEntry k' e' :: r)).buf = [] from h2), BW.withPlan_buf, Transport.begin_entry b _ k' e' r hk he]
        simp only [After.ctx, NetCtx.after, Option.some.injEq, Prod.mk.injEq, true_and]
        simp [BW.withPlan, Transport.begin_out, hb]

/-- The position in `ConnConc.lean` if the call of the transport under way takes `o.1` more bytes
and returns `o.2`. -/
def NetPos.lower (o : Nat × Option Err) : NetPos → Micro
  | .at (.tx q _ e after) => .tx q 0 e after
  | .at m => m
  | .net q n ctx => .tx q o.1 o.2 (ctx.after (n + o.1))

theorem NetPos.lower_plain {m : Micro} (h : m.plain = true) (o) : (NetPos.at m).lower o = m := by
  cases m <;> first | rfl | simp [Micro.plain] at h

/-- The state in `ConnConc.lean`. -/
def NetSys.lower (s : NetSys ω) (o : Nat × Option Err) (r : List (Option (Nat × Err))) : GoConn ω :=
  ⟨s.go.mu, s.go.sh.withPlan r,
    fun i => ⟨(s.go.th i).todo, (s.go.th i).pc.map fun x => (x.1, x.2.lower o)⟩, s.go.log⟩

/-- The outcome is possible. -/
def NetSys.Valid (s : NetSys ω) (o : Nat × Option Err) : Prop :=
  ∀ i op q n ctx, (s.go.th i).pc = some (op, .net q n ctx) → o.1 ≤ q.length ∧ (o.2 = none → o.1 = q.length)

theorem NetSys.valid_fail (s : NetSys ω) (e : Err) : s.Valid (0, some e) := by
  intro i op q n ctx h
  simp

/-- Every state is one of `ConnConc.lean`, with some plan, whatever the transport will do. -/
theorem NetSys.refines (call : ω → Call ⊕ Option Err) (progs : Nat → List ω) (s : NetSys ω)
    (h : NetSys.Steps call (.init progs) s) (o : Nat × Option Err) (ho : s.Valid o) (r : List (Option (Nat × Err))) :
    ∃ plan, GoConn.Reach call plan progs (s.lower o r) := by
  induction h generalizing o r with
  | refl => exact ⟨r, .refl⟩
  | @tail s s' _ st ih =>
    -- only one goroutine is inside a call
    have excl : ∀ i, (s.go.th i).pc ≠ none → ∀ j, j ≠ i → (s.go.th j).pc = none := by
      intro i hi j hj
      obtain ⟨plan, hr⟩ := ih (0, some .closed) (s.valid_fail _) []
      have := ((GoSys.inv connMachine_sound call (.new plan) progs _ hr).exclusive i
        (by simpa [NetSys.lower] using hi)).2 j hj
      simpa [NetSys.lower] using this
    have lth : ∀ (s : NetSys ω) o r i, (s.lower o r).th i =
        ⟨(s.go.th i).todo, (s.go.th i).pc.map fun x => (x.1, x.2.lower o)⟩ := fun _ _ _ _ => rfl
    -- states that differ in the position of one goroutine only
    have same : ∀ (s' : NetSys ω) (o o' : Nat × Option Err) (i : Nat) (op : ω) (p p' : NetPos),
        (s.go.th i).pc = some (op, p) → s'.go = s.go.at i op p' → p.lower o = p'.lower o' →
        s'.lower o' r = s.lower o r := by
      intro s' o o' i op p p' hp hgo hl
      simp only [NetSys.lower, hgo, GoSys.at, GoSys.mk.injEq, true_and, and_true]
      funext j
      by_cases hj : j = i
      · subst hj; simp [GoSys.set, hp, hl]
      · simp [GoSys.set, hj, excl i (by rw [hp]; simp) j hj]
    cases st with
    | close hc => exact ih o ho r
    | reset i op q n ctx e ht hc =>
      obtain ⟨plan, hr⟩ := ih (0, some e) (s.valid_fail _) r
      exact ⟨plan, by rw [same _ (0, some e) o i op _ _ ht rfl (by simp [NetPos.lower])]; exact hr⟩
    | take i op x q n ctx ht hc =>
      have hv := ho i op q (n + 1) ctx (by simp [GoSys.at, GoSys.set])
      obtain ⟨plan, hr⟩ := ih (o.1 + 1, o.2) (by
        intro j op' q' n' ctx' hj
        by_cases hji : j = i
        · subst hji
          rw [ht] at hj
          simp only [Option.some.injEq, Prod.mk.injEq, NetPos.net.injEq] at hj
          obtain ⟨-, rfl, -, -⟩ := hj
          refine ⟨by simp; omega, fun h => ?_⟩
          simp [hv.2 h]
        · have := excl i (by rw [ht]; simp) j hji
          rw [this] at hj; simp at hj) r
      refine ⟨plan, ?_⟩
      have hstep : GoSys.Step connMachine true call (s.lower (o.1 + 1, o.2) r)
          { s.lower (o.1 + 1, o.2) r with
            th := (s.lower (o.1 + 1, o.2) r).set i ⟨(s.go.th i).todo, some (op, .tx q o.1 o.2 (ctx.after (n + (o.1 + 1))))⟩
            sh := { s.go.sh.withPlan r with tr := { (s.go.sh.withPlan r).tr with
              out := s.go.sh.tr.out ++ [x] } } } :=
        GoSys.Step.step _ i _ op (.tx (x :: q) (o.1 + 1) o.2 (ctx.after (n + (o.1 + 1)))) _ _
          (by rw [lth, ht]; rfl) rfl
      have := GoSys.Reach.tail hr hstep
      convert this using 1
      simp only [NetSys.lower, GoSys.at, GoSys.mk.injEq, true_and, and_true]
      refine ⟨rfl, ?_⟩
      funext j
      by_cases hj : j = i
      · subst hj
        simp only [GoSys.set, if_true, Option.map_some, NetPos.lower]
        rw [show n + 1 + o.1 = n + (o.1 + 1) by omega]
      · simp [GoSys.set, hj, excl i (by rw [ht]; simp) j hj]
    | sure st =>
      cases st with
      | abort i op q n ctx ht hc =>
        obtain ⟨plan, hr⟩ := ih (0, some .closed) (s.valid_fail _) r
        exact ⟨plan, by rw [same _ (0, some .closed) o i op _ _ ht rfl (by simp [NetPos.lower])]; exact hr⟩
      | go c' st =>
        cases st with
        | skip i op rest e ht hc =>
          obtain ⟨plan, hr⟩ := ih o (by
            intro j op' q n ctx hj
            refine ho j op' q n ctx ?_
            have : j ≠ i := by rintro rfl; rw [ht] at hj; simp at hj
            simpa [GoSys.set, this] using hj) r
          refine ⟨plan, ?_⟩
          have := GoSys.Reach.tail hr (GoSys.Step.skip (s.lower o r) i op rest e (by rw [lth, ht]; rfl) hc)
          convert this using 1
          simp only [NetSys.lower, GoSys.mk.injEq, true_and, and_true]
          funext j
          by_cases hj : j = i
          · subst hj; simp [GoSys.set]
          · simp [GoSys.set, hj]
        | lock i op rest k ht hc hm =>
          obtain ⟨plan, hr⟩ := ih o (by
            intro j op' q n ctx hj
            refine ho j op' q n ctx ?_
            have : j ≠ i := by rintro rfl; rw [ht] at hj; simp at hj
            simpa [GoSys.set, this] using hj) r
          refine ⟨plan, ?_⟩
          have := GoSys.Reach.tail hr (GoSys.Step.lock (s.lower o r) i op rest k (by rw [lth, ht]; rfl) hc hm)
          convert this using 1
          simp only [NetSys.lower, GoSys.mk.injEq, true_and, and_true]
          funext j
          by_cases hj : j = i
          · subst hj; simp only [GoSys.set, netMachine, connMachine, if_true, Option.map_some]
            rw [NetPos.lower_plain (by cases k <;> rfl)]
          · simp [GoSys.set, hj]
        | unlock i todo op m e ht he =>
          obtain ⟨plan, hr⟩ := ih o (by
            intro j op' q n ctx hj
            by_cases hji : j = i
            · subst hji
              rw [ht] at hj
              simp only [Option.some.injEq, Prod.mk.injEq] at hj
              rw [hj.2] at he
              simp [netMachine] at he
            · refine ho j op' q n ctx ?_
              simpa [GoSys.set, hji] using hj) r
          refine ⟨plan, ?_⟩
          have hm : m = .at (.done e) := by
            simp only [netMachine] at he
            split at he
            · simp only [Option.some.injEq] at he; rw [he]
            · simp at he
          subst hm
          have := GoSys.Reach.tail hr (GoSys.Step.unlock (s.lower o r) i todo op (.done e) e
            (by rw [lth, ht]; rfl) rfl)
          convert this using 1
          simp only [NetSys.lower, GoSys.mk.injEq, true_and, and_true]
          funext j
          by_cases hj : j = i
          · subst hj; simp [GoSys.set]
          · simp [GoSys.set, hj]
        | step i todo op m m' sh' ht hs =>
          have hpc : (s.go.th i).pc = some (op, m) := by rw [ht]
          -- the step in ConnConc.lean
          have fin : ∀ (o₁ : Nat × Option Err) (r₁ : List (Option (Nat × Err))) (mm : Micro), s.Valid o₁ →
              (m.lower o₁).step (s.go.sh.withPlan r₁) = some (mm, sh'.withPlan r) → mm = m'.lower o →
              ∃ plan, GoConn.Reach call plan progs
                (NetSys.lower ⟨{ s.go with th := s.go.set i ⟨todo, some (op, m')⟩, sh := sh' }, s.closed⟩ o r) := by
            intro o₁ r₁ mm hv hst hmm
            obtain ⟨plan, hr⟩ := ih o₁ hv r₁
            refine ⟨plan, ?_⟩
            have := GoSys.Reach.tail hr (GoSys.Step.step (s.lower o₁ r₁) i todo op (m.lower o₁) mm _
              (by rw [lth, ht]; rfl) hst)
            convert this using 1
            simp only [NetSys.lower, GoSys.mk.injEq, true_and, and_true]
            funext j
            by_cases hj : j = i
            · subst hj; simp [GoSys.set, hmm]
            · simp [GoSys.set, hj, excl i (by rw [hpc]; simp) j hj]
          -- nobody is inside the transport before the step
          have hany : (∀ q n ctx, m ≠ .net q n ctx) → ∀ o₁, s.Valid o₁ := by
            intro hm o₁ j op' q n ctx hj
            by_cases hji : j = i
            · subst hji
              rw [hpc] at hj
              simp only [Option.some.injEq, Prod.mk.injEq] at hj
              exact absurd hj.2 (hm q n ctx)
            · rw [excl i (by rw [hpc]; simp) j hji] at hj; simp at hj
          cases m with
          | net q n ctx =>
            cases q with
            | cons x q => simp [netMachine, NetPos.step] at hs
            | nil =>
              simp only [netMachine, NetPos.step, Option.some.injEq, Prod.mk.injEq] at hs
              obtain ⟨rfl, rfl⟩ := hs
              obtain ⟨plan, hr⟩ := ih (0, none) (by
                intro j op' q' n' ctx' hj
                by_cases hji : j = i
                · subst hji
                  rw [hpc] at hj
                  simp only [Option.some.injEq, Prod.mk.injEq, NetPos.net.injEq] at hj
                  obtain ⟨-, rfl, -, -⟩ := hj
                  simp
                · rw [excl i (by rw [hpc]; simp) j hji] at hj; simp at hj) r
              refine ⟨plan, ?_⟩
              rw [same _ (0, none) o i op (.net [] n ctx) _ hpc (by simp only [GoSys.at, ht]; rfl)
                (by simp [NetPos.lower])]
              exact hr
          | «at» m =>
            have hv := hany (by intro q n ctx h; cases h)
            by_cases hpl : m.plain = true
            · have hs' : (m.step s.go.sh).map (fun x => (NetPos.ofMicro x.1, x.2)) = some (m', sh') := by
                cases m <;> first | exact hs | simp [Micro.plain] at hpl
              simp only [Option.map_eq_some_iff, Prod.mk.injEq] at hs'
              obtain ⟨⟨m1, b1⟩, h1, h2, h3⟩ := hs'
              simp only at h2 h3
              subst h3
              by_cases hp1 : m1.plain = true
              · have : m' = .at m1 := by
                  rw [← h2]
                  cases m1 <;> first | rfl | simp [Micro.plain] at hp1
                subst this
                exact fin o r m1 (hv o) (by rw [NetPos.lower_plain hpl]; exact Micro.step_plain h1 hp1 r)
                  (NetPos.lower_plain hp1 o).symm
              · cases m1 with
                | tx q k e after =>
                  simp only [NetPos.ofMicro] at h2
                  subst h2
                  have := ho i op q 0 after.ctx (by simp [GoSys.set])
                  exact fin o (planEntry o.1 o.2 :: r) _ (hv o)
                    (by rw [NetPos.lower_plain hpl]; exact Micro.step_begin hpl h1 o.1 o.2 this.1 this.2 r) (by simp [NetPos.lower])
                | _ => simp [Micro.plain] at hp1
            · cases m with
              | tx q k e after =>
                simp only [netMachine, NetPos.step, Option.map_eq_some_iff, Prod.mk.injEq] at hs
                obtain ⟨⟨m1, b1⟩, h1, h2, h3⟩ := hs
                simp only at h2 h3
                subst h2 h3
                exact fin o r m1 (hv o) (Micro.step_plain h1 (Micro.step_ret h1) r)
                  (NetPos.lower_plain (Micro.step_ret h1) o).symm
              | _ => simp [Micro.plain] at hpl

/-- Only one goroutine is inside a call. -/
theorem NetSys.exclusive {call : ω → Call ⊕ Option Err} {progs : Nat → List ω} {s : NetSys ω}
    (h : NetSys.Steps call (.init progs) s) (i : Nat) (hi : (s.go.th i).pc ≠ none) :
    s.go.mu = some i ∧ ∀ j, j ≠ i → (s.go.th j).pc = none := by
  obtain ⟨plan, hr⟩ := NetSys.refines call progs s h (0, some .closed) (s.valid_fail _) []
  have := (GoSys.inv connMachine_sound call (.new plan) progs _ hr).exclusive i
    (by simpa [NetSys.lower] using hi)
  simpa [NetSys.lower] using this

/-- Whoever has the mutex is inside a call. -/
theorem NetSys.held {call : ω → Call ⊕ Option Err} {progs : Nat → List ω} {s : NetSys ω}
    (h : NetSys.Steps call (.init progs) s) (i : Nat) (hi : s.go.mu = some i) : (s.go.th i).pc ≠ none := by
  obtain ⟨plan, hr⟩ := NetSys.refines call progs s h (0, some .closed) (s.valid_fail _) []
  obtain ⟨-, op, k, m, h1, -⟩ := (GoSys.inv connMachine_sound call (.new plan) progs _ hr).held i hi
  intro hn
  simp [NetSys.lower, hn] at h1

/-- An operation that does not call the connection returns its own result. -/
theorem NetSys.skipped {call : ω → Call ⊕ Option Err} {progs : Nat → List ω} {s : NetSys ω}
    (h : NetSys.Steps call (.init progs) s) (i : Nat) (op : ω) (r e : Option Err) (hm : (i, op, r) ∈ s.go.log)
    (hc : call op = .inr e) : r = e := by
  induction h with
  | refl => simp [NetSys.init, GoSys.init] at hm
  | @tail s s' hs st ih =>
    cases st with
    | close => exact ih hm
    | reset => exact ih hm
    | take => exact ih hm
    | sure st =>
      cases st with
      | abort => exact ih hm
      | go c' st =>
        cases st with
        | lock => exact ih hm
        | step => exact ih hm
        | skip j op' rest e' ht hc' =>
          rcases List.mem_append.1 hm with hm | hm
          · exact ih hm
          · simp only [List.mem_singleton, Prod.mk.injEq] at hm
            obtain ⟨-, rfl, rfl⟩ := hm
            rw [hc] at hc'
            cases hc'
            rfl
        | unlock j todo op' m e' ht he =>
          rcases List.mem_append.1 hm with hm | hm
          · exact ih hm
          · simp only [List.mem_singleton, Prod.mk.injEq] at hm
            obtain ⟨-, rfl, rfl⟩ := hm
            obtain ⟨plan, hr⟩ := NetSys.refines call progs s hs (0, some .closed) (s.valid_fail _) []
            have hmu := (NetSys.exclusive hs j (by rw [ht]; simp)).1
            obtain ⟨-, op'', k, m', h1, h2, -⟩ :=
              (GoSys.inv connMachine_sound call (.new plan) progs _ hr).held j hmu
            simp only [NetSys.lower, ht, Option.map_some, Option.some.injEq, Prod.mk.injEq] at h1
            rw [← h1.1, hc] at h2
            simp at h2

/-! ## What a single step does -/

/-- The cases of a step inside a call. -/
theorem NetPos.step_out {m m' : NetPos} {b b' : BW} (h : m.step b = some (m', b')) : b'.tr.out = b.tr.out := by
  have key : ∀ (m m' : Micro) b b', m.step b = some (m', b') → (∀ q k e a, m = .tx q k e a → k = 0) →
      b'.tr.out = b.tr.out := by
    intro m m' b b' h hk
    have hb : ∀ p, (b.tr.begin p).2.2.out = b.tr.out := Transport.begin_out _
    unfold Micro.step at h
    split at h
    · simp at h
    · split at h
      · split at h
        · simp only [Option.some.injEq, Prod.mk.injEq] at h
          obtain ⟨-, rfl⟩ := h
          exact hb _
        · simp only [Option.some.injEq, Prod.mk.injEq] at h
          obtain ⟨-, rfl⟩ := h; rfl
      · split at h <;>
        · simp only [Option.some.injEq, Prod.mk.injEq] at h
          obtain ⟨-, rfl⟩ := h; rfl
    · simp only [Option.some.injEq, Prod.mk.injEq] at h
      obtain ⟨-, rfl⟩ := h; rfl
    · simp only [Option.some.injEq, Prod.mk.injEq] at h
      obtain ⟨-, rfl⟩ := h; rfl
    · simp only [Option.some.injEq, Prod.mk.injEq] at h
      obtain ⟨-, rfl⟩ := h; rfl
    · split at h
      · simp only [Option.some.injEq, Prod.mk.injEq] at h
        obtain ⟨-, rfl⟩ := h; rfl
      · split at h
        · simp only [Option.some.injEq, Prod.mk.injEq] at h
          obtain ⟨-, rfl⟩ := h; rfl
        · simp only [Option.some.injEq, Prod.mk.injEq] at h
          obtain ⟨-, rfl⟩ := h
          exact hb _
    · have := hk _ _ _ _ rfl
      omega
    · have := hk _ _ _ _ rfl
      omega
    · simp only [Option.some.injEq, Prod.mk.injEq] at h
      obtain ⟨-, rfl⟩ := h; rfl
    · split at h <;>
      · simp only [Option.some.injEq, Prod.mk.injEq] at h
        obtain ⟨-, rfl⟩ := h; rfl
  unfold NetPos.step at h
  split at h
  · simp only [Option.map_eq_some_iff, Prod.mk.injEq] at h
    obtain ⟨⟨m1, b1⟩, h1, -, h3⟩ := h
    simp only at h3
    subst h3
    exact key _ _ _ _ h1 (by intro q k e a h; simp at h; exact h.2.1.symm)
  · rename_i hno
    simp only [Option.map_eq_some_iff, Prod.mk.injEq] at h
    obtain ⟨⟨m1, b1⟩, h1, -, h3⟩ := h
    simp only at h3
    subst h3
    exact key _ _ _ _ h1 (by intro q k e a h; exact absurd h (by intro h; exact hno _ _ _ _ h))
  · simp only [Option.some.injEq, Prod.mk.injEq] at h
    rw [h.2]
  · simp at h

/-- Steps of a closed connection. -/
theorem NetSys.Step.closed {call : ω → Call ⊕ Option Err} {s s' : NetSys ω} (h : NetSys.Step call s s')
    (hc : s.closed = true) : s'.closed = true ∧ NetSys.Sure call s s' := by
  cases h with
  | sure h => exact ⟨by cases h <;> exact hc, h⟩
  | take i op x q n ctx ht h => rw [hc] at h; simp at h
  | reset i op q n ctx e ht h => rw [hc] at h; simp at h
  | close h => rw [hc] at h; simp at h

theorem NetSys.Sure.out {call : ω → Call ⊕ Option Err} {s s' : NetSys ω} (h : NetSys.Sure call s s') :
    s'.go.sh.tr.out = s.go.sh.tr.out := by
  cases h with
  | abort i op q n ctx ht hc => rfl
  | go c' h =>
    cases h with
    | skip => rfl
    | lock => rfl
    | unlock => rfl
    | step i todo op m m' sh' ht hs => exact NetPos.step_out hs

theorem NetSys.Steps.closed {call : ω → Call ⊕ Option Err} {s s' : NetSys ω} (h : NetSys.Steps call s s')
    (hc : s.closed = true) : s'.closed = true ∧ s'.go.sh.tr.out = s.go.sh.tr.out := by
  induction h with
  | refl => exact ⟨hc, rfl⟩
  | tail _ st ih =>
    have := st.closed ih.1
    exact ⟨this.1, this.2.out.trans ih.2⟩

theorem NetSys.Steps.trans {call : ω → Call ⊕ Option Err} {s s' s'' : NetSys ω} (h : NetSys.Steps call s s')
    (g : NetSys.Steps call s' s'') : NetSys.Steps call s s'' := by
  induction g with
  | refl => exact h
  | tail _ st ih => exact .tail ih st

/-- A goroutine runs inside a call. -/
theorem NetSys.Steps.run {call : ω → Call ⊕ Option Err} {s₀ s : NetSys ω} (h : NetSys.Steps call s₀ s) {i : Nat}
    {todo : List ω} {op : ω} {m m' : NetPos} {sh' : BW} (ht : s.go.th i = ⟨todo, some (op, m)⟩)
    (hr : netMachine.Runs m s.go.sh m' sh') :
    NetSys.Steps call s₀ ⟨⟨s.go.mu, sh', s.go.set i ⟨todo, some (op, m')⟩, s.go.log⟩, s.closed⟩ := by
  have hset : ∀ (c : GoSys ω BW NetPos (Option Err)) m, c.th i = ⟨todo, some (op, m)⟩ →
      c.set i ⟨todo, some (op, m)⟩ = c.th := by
    intro c m hc
    funext j
    by_cases hj : j = i
    · subst hj; simp [GoSys.set, hc]
    · simp [GoSys.set, hj]
  have htwice : ∀ (c : GoSys ω BW NetPos (Option Err)) t t' mu b l,
      GoSys.set (⟨mu, b, c.set i t, l⟩ : GoSys ω BW NetPos (Option Err)) i t' = c.set i t' := by
    intro c t t' mu b l
    funext j
    by_cases hj : j = i <;> simp [GoSys.set, hj]
  generalize hb : s.go.sh = b at hr
  induction hr generalizing s with
  | refl => rw [hset s.go _ ht, ← hb]; exact h
  | @head m b m1 b1 _ _ st _ ih =>
    subst hb
    have := ih (NetSys.Steps.tail h (.sure (.go s _ (.step s.go i todo op m m1 b1 ht st)))) (by simp [GoSys.set]) rfl
    rw [htwice] at this
    exact this

/-! ## Everybody finishes -/

/-- How much work a flush leaves. -/
def Back.work : Back → Nat
  | .call => 0
  | .loop p _ => 6 * p.length + 21

/-- How much work is left of a call. -/
def NetPos.work (b : BW) : NetPos → Nat
  | .at (.done _) => 0
  | .at (.loop p _) => if b.err = none then 6 * p.length + 6 * b.buf.length + 20 else 1
  | .at (.copy k _ _ true) => 4 * k + 2 * b.buf.length + 10
  | .at (.copy k p _ false) => 4 * k + 2 * b.buf.length + 6 * (p.length - k) + 40
  | .at (.flush back) => 2 * b.buf.length + 5 + back.work
  | .at (.tx _ _ e (.direct p n _)) => if e = none then 6 * (p.length - n) + 6 * b.buf.length + 22 else 2
  | .at (.tx _ _ _ (.flush _ back)) => 2 + back.work
  | .net q n (.direct p _) => q.length + 6 * b.buf.length + 6 * (p.length - (n + q.length)) + 24
  | .net q _ (.flush back) => q.length + 3 + back.work

theorem Back.work_ret (back : Back) (e : Option Err) (b : BW) (h : b.err = none → b.buf = []) :
    (NetPos.at (back.ret e)).work b < back.work + 2 := by
  cases back with
  | call => simp [Back.ret, NetPos.work]
  | loop p fl =>
    simp only [Back.ret, NetPos.work, Back.work]
    split
    · rename_i he
      simp [h he]
    · omega

/-- A step is progress. -/
theorem NetPos.step_work {m m' : NetPos} {b b' : BW} (h : m.step b = some (m', b')) : m'.work b' < m.work b := by
  cases m with
  | net q n ctx =>
    cases q with
    | cons x q => simp [NetPos.step] at h
    | nil =>
      simp only [NetPos.step, Option.some.injEq, Prod.mk.injEq] at h
      obtain ⟨rfl, rfl⟩ := h
      cases ctx <;> simp [NetPos.work, NetCtx.after]
      omega
  | «at» m =>
    cases m with
    | done e => simp [NetPos.step, Micro.step] at h
    | tx q k e after =>
      simp only [NetPos.step, Option.map_eq_some_iff, Prod.mk.injEq] at h
      obtain ⟨⟨m1, b1⟩, h1, rfl, rfl⟩ := h
      cases after with
      | direct p n fl =>
        simp only [Micro.step, Option.some.injEq, Prod.mk.injEq] at h1
        obtain ⟨rfl, rfl⟩ := h1
        simp only [NetPos.work, List.length_drop]
        split <;> omega
      | flush n back =>
        simp only [Micro.step] at h1
        split at h1 <;>
        · simp only [Option.some.injEq, Prod.mk.injEq] at h1
          obtain ⟨rfl, rfl⟩ := h1
          refine Nat.lt_of_lt_of_eq (back.work_ret _ _ (by simp)) ?_
          simp only [NetPos.work]
          omega
    | loop p fl =>
      simp only [NetPos.step, Micro.step, Option.map_eq_some_iff, Prod.mk.injEq] at h
      obtain ⟨⟨m1, b1⟩, h1, rfl, rfl⟩ := h
      split at h1
      · rename_i hp
        split at h1
        · rename_i hbuf
          simp only [Option.some.injEq, Prod.mk.injEq] at h1
          obtain ⟨rfl, rfl⟩ := h1
          simp only [NetPos.ofMicro, After.ctx, NetPos.work, hp.2, if_true]
          have := hp.1
          omega
        · rename_i hbuf
          simp only [Option.some.injEq, Prod.mk.injEq] at h1
          obtain ⟨rfl, rfl⟩ := h1
          simp only [NetPos.ofMicro, NetPos.work, hp.2, if_true]
          have h1 := hp.1
          have h2 : 0 < b.buf.length := by
            cases hb : b.buf with
            | nil => exact absurd hb hbuf
            | cons => simp
          simp only [BW.avail, bufSize] at h1 ⊢
          omega
      · rename_i hp
        split at h1
        · rename_i e he
          simp only [Option.some.injEq, Prod.mk.injEq] at h1
          obtain ⟨rfl, rfl⟩ := h1
          simp [NetPos.ofMicro, NetPos.work, he]
        · rename_i he
          simp only [Option.some.injEq, Prod.mk.injEq] at h1
          obtain ⟨rfl, rfl⟩ := h1
          simp only [NetPos.ofMicro, NetPos.work, he, if_true]
          omega
    | copy k p fl last =>
      simp only [NetPos.step, Option.map_eq_some_iff, Prod.mk.injEq] at h
      obtain ⟨⟨m1, b1⟩, h1, rfl, rfl⟩ := h
      cases k with
      | zero =>
        simp only [Micro.step, Option.some.injEq, Prod.mk.injEq] at h1
        obtain ⟨rfl, rfl⟩ := h1
        cases last <;> cases fl <;> simp [NetPos.ofMicro, NetPos.work, Back.work] <;> omega
      | succ k =>
        cases p with
        | nil =>
          simp only [Micro.step, Option.some.injEq, Prod.mk.injEq] at h1
          obtain ⟨rfl, rfl⟩ := h1
          cases last <;> simp [NetPos.ofMicro, NetPos.work]
        | cons x p =>
          simp only [Micro.step, Option.some.injEq, Prod.mk.injEq] at h1
          obtain ⟨rfl, rfl⟩ := h1
          cases last <;> simp [NetPos.ofMicro, NetPos.work] <;> omega
    | flush back =>
      simp only [NetPos.step, Micro.step, Option.map_eq_some_iff, Prod.mk.injEq] at h
      obtain ⟨⟨m1, b1⟩, h1, rfl, rfl⟩ := h
      have hof : ∀ e, NetPos.ofMicro (back.ret e) = .at (back.ret e) := by intro e; cases back <;> rfl
      split at h1
      · rename_i e he
        simp only [Option.some.injEq, Prod.mk.injEq] at h1
        obtain ⟨rfl, rfl⟩ := h1
        rw [hof]
        refine Nat.lt_of_lt_of_le (back.work_ret (some e) b (by rw [he]; simp)) ?_
        simp only [NetPos.work]
        omega
      · split at h1
        · rename_i hb
          simp only [Option.some.injEq, Prod.mk.injEq] at h1
          obtain ⟨rfl, rfl⟩ := h1
          rw [hof]
          refine Nat.lt_of_lt_of_le (back.work_ret none b (fun _ => hb)) ?_
          simp only [NetPos.work]
          omega
        · rename_i hb
          simp only [Option.some.injEq, Prod.mk.injEq] at h1
          obtain ⟨rfl, rfl⟩ := h1
          have h2 : 0 < b.buf.length := by
            cases hb' : b.buf with
            | nil => exact absurd hb' hb
            | cons => simp
          simp only [NetPos.ofMicro, After.ctx, NetPos.work]
          omega

/-- How much work is left of the call under way, and whether `Close` is still to come. -/
def NetSys.work (s : NetSys ω) : Nat :=
  (if s.closed then 0 else 1) +
    match s.go.mu with
    | none => 0
    | some j =>
      match (s.go.th j).pc with
      | none => 0
      | some (_, m) => m.work s.go.sh + 1

/-- Every step starts an operation or is progress. -/
theorem NetSys.decreases {call : ω → Call ⊕ Option Err} {progs : Nat → List ω} (N : Nat)
    (hN : ∀ i, N ≤ i → progs i = []) {s s' : NetSys ω} (h : NetSys.Steps call (.init progs) s)
    (st : NetSys.Step call s s') :
    s'.go.left N < s.go.left N ∨ (s'.go.left N = s.go.left N ∧ s'.work < s.work) := by
  have hlt : ∀ i op rest pc, s.go.th i = ⟨op :: rest, pc⟩ → i < N := by
    intro i op rest pc ht
    obtain ⟨plan, hr⟩ := NetSys.refines call progs s h (0, some .closed) (s.valid_fail _) []
    have := (GoSys.inv connMachine_sound call (.new plan) progs _ hr).order i
    by_cases hi : i < N
    · exact hi
    · rw [hN i (by omega)] at this
      simp [NetSys.lower, ht] at this
  have hset : ∀ (c' : GoSys ω BW NetPos (Option Err)) i op rest pc pc', s.go.th i = ⟨op :: rest, pc⟩ →
      c'.th = s.go.set i ⟨rest, pc'⟩ → c'.left N < s.go.left N := by
    intro c' i op rest pc pc' ht hth
    refine sum_range_lt (hlt i op rest pc ht) (fun j hj => ?_) ?_
    · rw [hth]; simp [GoSys.set, hj]
    · rw [hth]; simp [GoSys.set, ht]
  have hsame : ∀ (c' : GoSys ω BW NetPos (Option Err)) i pc',
      c'.th = s.go.set i ⟨(s.go.th i).todo, pc'⟩ → c'.left N = s.go.left N := by
    intro c' i pc' hth
    unfold GoSys.left
    congr 1
    refine List.map_congr_left fun j _ => ?_
    rw [hth]
    by_cases hj : j = i
    · subst hj; simp [GoSys.set]
    · simp [GoSys.set, hj]
  -- a step of the goroutine inside the call
  have hin : ∀ i op m m' (sh' : BW), (s.go.th i).pc = some (op, m) → m'.work sh' < m.work s.go.sh →
      NetSys.work ⟨{ s.go with th := s.go.set i ⟨(s.go.th i).todo, some (op, m')⟩, sh := sh' }, s.closed⟩ < s.work := by
    intro i op m m' sh' hpc hw
    have hmu := (NetSys.exclusive h i (by rw [hpc]; simp)).1
    simp only [NetSys.work, hmu, hpc, GoSys.set, if_true]
    omega
  cases st with
  | close hc =>
    refine .inr ⟨rfl, ?_⟩
    simp [NetSys.work, hc]
  | take i op x q n ctx ht hc =>
    refine .inr ⟨hsame _ i _ rfl, hin i op _ _ _ ht ?_⟩
    cases ctx <;> simp [NetPos.work] <;> omega
  | reset i op q n ctx e ht hc =>
    refine .inr ⟨hsame _ i _ rfl, hin i op _ _ s.go.sh ht ?_⟩
    cases ctx <;> simp [NetPos.work, NetCtx.after]
  | sure st =>
    cases st with
    | abort i op q n ctx ht hc =>
      refine .inr ⟨hsame _ i _ rfl, hin i op _ _ s.go.sh ht ?_⟩
      cases ctx <;> simp [NetPos.work, NetCtx.after]
    | go c' st =>
      cases st with
      | skip i op rest e ht hc => exact .inl (hset _ i op rest none _ ht rfl)
      | lock i op rest k ht hc hm => exact .inl (hset _ i op rest none _ ht rfl)
      | unlock i todo op m e ht he =>
        refine .inr ⟨hsame _ i none (by rw [ht]), ?_⟩
        have hmu := (NetSys.exclusive h i (by rw [ht]; simp)).1
        simp [NetSys.work, hmu, ht]
      | step i todo op m m' sh' ht hs =>
        have := hin i op m m' sh' (by rw [ht]) (NetPos.step_work hs)
        rw [ht] at this
        exact .inr ⟨hsame _ i (some (op, m')) (by rw [ht]), this⟩

/-- Every execution is finite. -/
theorem NetSys.acc {call : ω → Call ⊕ Option Err} {progs : Nat → List ω} (N : Nat)
    (hN : ∀ i, N ≤ i → progs i = []) : ∀ (t w : Nat) (s : NetSys ω), NetSys.Steps call (.init progs) s →
      s.go.left N = t → s.work = w → Acc (fun s' s => NetSys.Step call s s') s := by
  intro t
  induction t using Nat.strongRecOn with
  | ind t iht =>
    intro w
    induction w using Nat.strongRecOn with
    | ind w ihw =>
      intro s hs ht hw
      refine Acc.intro _ fun s' st => ?_
      rcases NetSys.decreases N hN hs st with h | ⟨h1, h2⟩
      · exact iht _ (by omega) _ s' (.tail hs st) rfl rfl
      · exact ihw _ (by omega) s' (.tail hs st) (by omega) rfl

/-- Outside the transport a goroutine can go on. -/
theorem NetPos.live {m : NetPos} {b : BW} (h : m.step b = none) :
    (∃ e, m = .at (.done e)) ∨ ∃ x q n ctx, m = .net (x :: q) n ctx := by
  cases m with
  | net q n ctx =>
    cases q with
    | nil => simp [NetPos.step] at h
    | cons x q => exact .inr ⟨x, q, n, ctx, rfl⟩
  | «at» m =>
    refine .inl ?_
    have key : ∀ m : Micro, m.step b = none → ∃ e, m = .done e := by
      intro m hm
      obtain ⟨r, hr⟩ := connMachine_live m b hm
      cases m <;> simp [connMachine] at hr
      exact ⟨_, rfl⟩
    cases m with
    | tx q k e after =>
      simp only [NetPos.step, Option.map_eq_none_iff] at h
      obtain ⟨e, h⟩ := key _ h
      simp at h
    | done e => exact ⟨e, rfl⟩
    | loop p fl =>
      simp only [NetPos.step, Option.map_eq_none_iff] at h
      obtain ⟨e, h⟩ := key _ h
      simp at h
    | copy k p fl last =>
      simp only [NetPos.step, Option.map_eq_none_iff] at h
      obtain ⟨e, h⟩ := key _ h
      simp at h
    | flush back =>
      simp only [NetPos.step, Option.map_eq_none_iff] at h
      obtain ⟨e, h⟩ := key _ h
      simp at h

/-- Somebody can go on without the peer, or the goroutine with the mutex is blocked in the
transport and the connection is open. -/
theorem NetSys.progress {call : ω → Call ⊕ Option Err} {progs : Nat → List ω} {s : NetSys ω}
    (h : NetSys.Steps call (.init progs) s) (i : Nat) (hi : (s.go.th i).pc ≠ none ∨ (s.go.th i).todo ≠ []) :
    (∃ s', NetSys.Sure call s s') ∨
      (s.closed = false ∧ ∃ j op x q n ctx, s.go.mu = some j ∧ (s.go.th j).pc = some (op, .net (x :: q) n ctx)) := by
  cases hmu : s.go.mu with
  | none =>
    have hpc : (s.go.th i).pc = none := by
      by_contra hne
      have := (NetSys.exclusive h i hne).1
      rw [hmu] at this; simp at this
    rcases hi with hi | hi
    · exact absurd hpc hi
    · cases htodo : (s.go.th i).todo with
      | nil => exact absurd htodo hi
      | cons op rest =>
        have ht : s.go.th i = ⟨op :: rest, none⟩ := by rw [← htodo, ← hpc]
        cases hc : call op with
        | inr e => exact .inl ⟨_, .go s _ (.skip _ i op rest e ht hc)⟩
        | inl k => exact .inl ⟨_, .go s _ (.lock _ i op rest k ht hc (fun _ => hmu))⟩
  | some j =>
    have hj := NetSys.held h j hmu
    cases hpc : (s.go.th j).pc with
    | none => exact absurd hpc hj
    | some x =>
      obtain ⟨op, m⟩ := x
      have ht : s.go.th j = ⟨(s.go.th j).todo, some (op, m)⟩ := by rw [← hpc]
      cases hs : m.step s.go.sh with
      | some y => exact .inl ⟨_, .go s _ (.step _ j _ op m y.1 y.2 ht hs)⟩
      | none =>
        rcases NetPos.live hs with ⟨e, rfl⟩ | ⟨x, q, n, ctx, rfl⟩
        · exact .inl ⟨_, .go s _ (.unlock _ j _ op _ e ht rfl)⟩
        · cases hc : s.closed with
          | true => exact .inl ⟨_, .abort s j op _ n ctx hpc hc⟩
          | false => exact .inr ⟨rfl, j, op, x, q, n, ctx, rfl, hpc⟩

/-! ## A closed connection reports errors -/

/-- Something is in the buffer that will never be sent, or an error is stored. -/
def BW.Dirty (b : BW) : Prop := b.err ≠ none ∨ b.buf ≠ []

/-- The flush belongs to a call that ends with a flush. -/
def Back.fl : Back → Bool
  | .call => true
  | .loop _ fl => fl

/-- See `Back.fl`. -/
def NetCtx.fl : NetCtx → Bool
  | .direct _ fl => fl
  | .flush back => back.fl

/-- See `Back.fl`. -/
def After.fl : After → Bool
  | .direct _ _ fl => fl
  | .flush _ back => back.fl

/-- A closed connection: the call will leave it dirty, and if it ends with a flush (`f`) it
will return an error. -/
def NetPos.Doomed (f : Bool) (b : BW) : NetPos → Prop
  | .at (.done e) => if f then e ≠ none else b.Dirty
  | .at (.loop p fl) => (f = true → fl = true) ∧ (b.Dirty ∨ p ≠ [])
  | .at (.copy k p fl _) => (f = true → fl = true) ∧ (b.Dirty ∨ (k ≠ 0 ∧ p ≠ []))
  | .at (.flush back) => (f = true → back.fl = true) ∧ b.Dirty
  | .at (.tx _ _ e after) => (f = true → after.fl = true) ∧ e ≠ none
  | .net q _ ctx => (f = true → ctx.fl = true) ∧ q ≠ []

theorem Back.doomed_ret {f : Bool} {b : BW} {back : Back} (e : Err) (hf : f = true → back.fl = true)
    (hb : b.err ≠ none) : (NetPos.at (back.ret (some e))).Doomed f b := by
  cases back with
  | call =>
    cases f
    · exact .inl hb
    · simp [Back.ret, NetPos.Doomed]
  | loop p fl => exact ⟨hf, .inl (.inl hb)⟩

/-- A step of a doomed call. -/
theorem NetPos.Doomed.step {f : Bool} {m m' : NetPos} {b b' : BW} (d : m.Doomed f b) (h : m.step b = some (m', b')) :
    m'.Doomed f b' := by
  cases m with
  | net q n ctx =>
    cases q with
    | cons x q => simp [NetPos.step] at h
    | nil => exact absurd rfl d.2
  | «at» m =>
    cases m with
    | done e => simp [NetPos.step, Micro.step] at h
    | tx q k e after =>
      simp only [NetPos.step, Option.map_eq_some_iff, Prod.mk.injEq] at h
      obtain ⟨⟨m1, b1⟩, h1, rfl, rfl⟩ := h
      obtain ⟨d1, d2⟩ := d
      cases after with
      | direct p n fl =>
        simp only [Micro.step, Option.some.injEq, Prod.mk.injEq] at h1
        obtain ⟨rfl, rfl⟩ := h1
        exact ⟨d1, .inl (.inl d2)⟩
      | flush n back =>
        cases e with
        | none => exact absurd rfl d2
        | some e =>
          simp only [Micro.step, reduceCtorEq, and_false, if_false, Option.some.injEq, Prod.mk.injEq] at h1
          obtain ⟨rfl, rfl⟩ := h1
          exact Back.doomed_ret e d1 (by simp)
    | loop p fl =>
      simp only [NetPos.step, Micro.step, Option.map_eq_some_iff, Prod.mk.injEq] at h
      obtain ⟨⟨m1, b1⟩, h1, rfl, rfl⟩ := h
      obtain ⟨d1, d2⟩ := d
      split at h1
      · rename_i hp
        split at h1
        · simp only [Option.some.injEq, Prod.mk.injEq] at h1
          obtain ⟨rfl, rfl⟩ := h1
          refine ⟨d1, ?_⟩
          have := hp.1
          intro h0
          rw [h0] at this
          simp at this
        · rename_i hbuf
          simp only [Option.some.injEq, Prod.mk.injEq] at h1
          obtain ⟨rfl, rfl⟩ := h1
          exact ⟨d1, .inl (.inr hbuf)⟩
      · rename_i hp
        split at h1
        · rename_i e he
          simp only [Option.some.injEq, Prod.mk.injEq] at h1
          obtain ⟨rfl, rfl⟩ := h1
          cases f
          · exact .inl (by rw [he]; simp)
          · simp [NetPos.ofMicro, NetPos.Doomed]
        · rename_i he
          simp only [Option.some.injEq, Prod.mk.injEq] at h1
          obtain ⟨rfl, rfl⟩ := h1
          refine ⟨d1, ?_⟩
          rcases d2 with d2 | d2
          · exact .inl d2
          · refine .inr ⟨?_, d2⟩
            have : 0 < p.length := by
              cases p with
              | nil => exact absurd rfl d2
              | cons => simp
            have : ¬ b.avail < p.length := fun h => hp ⟨h, he⟩
            omega
    | copy k p fl last =>
      simp only [NetPos.step, Option.map_eq_some_iff, Prod.mk.injEq] at h
      obtain ⟨⟨m1, b1⟩, h1, rfl, rfl⟩ := h
      obtain ⟨d1, d2⟩ := d
      cases k with
      | zero =>
        simp only [Micro.step, Option.some.injEq, Prod.mk.injEq] at h1
        obtain ⟨rfl, rfl⟩ := h1
        have hd : b.Dirty := d2.resolve_right (by simp)
        cases last with
        | false => exact ⟨d1, hd⟩
        | true =>
          cases fl with
          | true => exact ⟨fun _ => rfl, hd⟩
          | false =>
            cases f
            · exact hd
            · simp at d1
      | succ k =>
        cases p with
        | nil =>
          simp only [Micro.step, Option.some.injEq, Prod.mk.injEq] at h1
          obtain ⟨rfl, rfl⟩ := h1
          exact ⟨d1, .inl (d2.resolve_right (by simp))⟩
        | cons x p =>
          simp only [Micro.step, Option.some.injEq, Prod.mk.injEq] at h1
          obtain ⟨rfl, rfl⟩ := h1
          exact ⟨d1, .inl (.inr (by simp))⟩
    | flush back =>
      simp only [NetPos.step, Micro.step, Option.map_eq_some_iff, Prod.mk.injEq] at h
      obtain ⟨⟨m1, b1⟩, h1, rfl, rfl⟩ := h
      obtain ⟨d1, d2⟩ := d
      have hof : ∀ e, NetPos.ofMicro (back.ret e) = .at (back.ret e) := by intro e; cases back <;> rfl
      split at h1
      · rename_i e he
        simp only [Option.some.injEq, Prod.mk.injEq] at h1
        obtain ⟨rfl, rfl⟩ := h1
        rw [hof]
        exact Back.doomed_ret e d1 (by rw [he]; simp)
      · rename_i he
        split at h1
        · rename_i hb
          exact absurd d2 (by simp [BW.Dirty, he, hb])
        · rename_i hb
          simp only [Option.some.injEq, Prod.mk.injEq] at h1
          obtain ⟨rfl, rfl⟩ := h1
          exact ⟨d1, hb⟩

/-- The blocked call of the transport of a doomed call fails. -/
theorem NetPos.Doomed.abort {f : Bool} {q : Bytes} {n : Nat} {ctx : NetCtx} {b : BW} (e : Err)
    (d : (NetPos.net q n ctx).Doomed f b) : (NetPos.at (.tx q 0 (some e) (ctx.after n))).Doomed f b :=
  ⟨fun h => by have := d.1 h; cases ctx <;> exact this, by simp⟩

/-- The connection is dirty, or will be when the call under way returns. -/
def NetSys.Dirty (s : NetSys ω) : Prop :=
  match s.go.mu with
  | none => s.go.sh.Dirty
  | some j => ∀ op m, (s.go.th j).pc = some (op, m) → m.Doomed false s.go.sh

/-- Calls that cannot succeed: `force` of a message, and every `force` and `Flush` of a dirty
connection. -/
def Call.hopeless (dirty : Bool) : Call → Bool
  | .write _ => false
  | .flush => dirty
  | .force p => dirty || !p.isEmpty

/-- The invariant of a closed connection, seen from goroutine `i`, since `s₀`. -/
structure NetSys.Doom (call : ω → Call ⊕ Option Err) (dirty : Bool) (i : Nat) (s₀ s : NetSys ω) : Prop where
  closed : s.closed = true
  dirt : dirty = true → s.Dirty
  inside : ∀ op m k, (s.go.th i).pc = some (op, m) → call op = .inl k → k.hopeless dirty = true →
    m.Doomed true s.go.sh
  write : ∀ op m p, (s.go.th i).pc = some (op, m) → call op = .inl (.write p) → p ≠ [] → m.Doomed false s.go.sh
  log : ∃ new, s.go.log = s₀.go.log ++ new ∧
    (∀ op k e, (i, op, e) ∈ new → call op = .inl k → k.hopeless dirty = true → e ≠ none) ∧
    (∀ op p e, (i, op, e) ∈ new → call op = .inl (.write p) → p ≠ [] → s.Dirty)

theorem NetSys.doom {call : ω → Call ⊕ Option Err} {progs : Nat → List ω} {s₀ s : NetSys ω}
    (h₀ : NetSys.Steps call (.init progs) s₀) (hc : s₀.closed = true) (dirty : Bool) (hd : dirty = true → s₀.Dirty)
    (i : Nat) (hi : (s₀.go.th i).pc = none) (h : NetSys.Steps call s₀ s) : NetSys.Doom call dirty i s₀ s := by
  induction h with
  | refl =>
    refine ⟨hc, hd, ?_, ?_, [], by simp, by simp, by simp⟩
    · intro op m k h; rw [hi] at h; simp at h
    · intro op m p h; rw [hi] at h; simp at h
  | @tail s s' hs st ih =>
    have hr := h₀.trans hs
    obtain ⟨hcl, hsure⟩ := st.closed ih.closed
    obtain ⟨-, i2, i3, i4, new, i5, i6, i7⟩ := ih
    -- a step inside a call keeps the connection dirty
    have hdirt : ∀ j op m m' (sh' : BW), (s.go.th j).pc = some (op, m) →
        (∀ f, m.Doomed f s.go.sh → m'.Doomed f sh') → s.Dirty →
        NetSys.Dirty ⟨{ s.go with th := s.go.set j ⟨(s.go.th j).todo, some (op, m')⟩, sh := sh' }, s.closed⟩ := by
      intro j op m m' sh' hpc hm hD
      have hmu := (NetSys.exclusive hr j (by rw [hpc]; simp)).1
      simp only [NetSys.Dirty, hmu] at hD ⊢
      intro op' m'' h
      simp only [GoSys.set, if_true, Option.some.injEq, Prod.mk.injEq] at h
      obtain ⟨rfl, rfl⟩ := h
      exact hm _ (hD _ _ hpc)
    have inner : ∀ j op m m' (sh' : BW), (s.go.th j).pc = some (op, m) →
        (∀ f, m.Doomed f s.go.sh → m'.Doomed f sh') →
        NetSys.Doom call dirty i s₀
          ⟨{ s.go with th := s.go.set j ⟨(s.go.th j).todo, some (op, m')⟩, sh := sh' }, s.closed⟩ := by
      intro j op m m' sh' hpc hm
      have hj := NetSys.exclusive hr j (by rw [hpc]; simp)
      by_cases hji : j = i
      · subst hji
        refine ⟨by simpa using ‹NetSys.Steps call s₀ s›.closed hc |>.1,
          fun h => hdirt j op m m' sh' hpc hm (i2 h), ?_, ?_, new, i5, i6, ?_⟩
        · intro op' m'' k h h1 h2
          simp only [GoSys.set, if_true, Option.some.injEq, Prod.mk.injEq] at h
          obtain ⟨rfl, rfl⟩ := h
          exact hm _ (i3 _ _ k hpc h1 h2)
        · intro op' m'' p h h1 h2
          simp only [GoSys.set, if_true, Option.some.injEq, Prod.mk.injEq] at h
          obtain ⟨rfl, rfl⟩ := h
          exact hm _ (i4 _ _ p hpc h1 h2)
        · intro op' p e h1 h2 h3
          exact hdirt j op m m' sh' hpc hm (i7 op' p e h1 h2 h3)
      · have hin := hj.2 i (fun h => hji h.symm)
        refine ⟨by simpa using ‹NetSys.Steps call s₀ s›.closed hc |>.1,
          fun h => hdirt j op m m' sh' hpc hm (i2 h), ?_, ?_, new, i5, i6, ?_⟩
        · intro op' m'' k h
          simp [GoSys.set, show ¬ i = j from fun h => hji h.symm, hin] at h
        · intro op' m'' p h
          simp [GoSys.set, show ¬ i = j from fun h => hji h.symm, hin] at h
        · intro op' p e h1 h2 h3
          exact hdirt j op m m' sh' hpc hm (i7 op' p e h1 h2 h3)
    cases hsure with
    | abort j op q n ctx ht hc' =>
      exact inner j op _ _ s.go.sh ht (fun f d => d.abort _)
    | go c' hgo =>
      cases hgo with
      | step j todo op m m' sh' ht hst =>
        have := inner j op m m' sh' (by rw [ht]) (fun f d => d.step hst)
        rw [ht] at this
        exact this
      | skip j op rest e ht hcl' =>
        have hD : s.Dirty → NetSys.Dirty ⟨{ s.go with
            th := s.go.set j ⟨rest, none⟩
            log := s.go.log ++ [(j, op, e)] }, s.closed⟩ := by
          intro hD
          simp only [NetSys.Dirty] at hD ⊢
          cases hmu : s.go.mu with
          | none => simpa only [hmu] using hD
          | some l =>
            simp only [hmu] at hD ⊢
            intro op' m' h
            refine hD op' m' ?_
            by_cases hl : l = j
            · subst hl; simp [GoSys.set] at h
            · simpa [GoSys.set, hl] using h
        have hpc : ∀ x, (s.go.set j ⟨rest, none⟩ i).pc = some x → (s.go.th i).pc = some x := by
          intro x h
          by_cases hl : i = j
          · subst hl; simp [GoSys.set] at h
          · simpa [GoSys.set, hl] using h
        refine ⟨hcl, fun h => hD (i2 h), fun op' m k h => i3 op' m k (hpc _ h), fun op' m p h => i4 op' m p (hpc _ h),
          new ++ [(j, op, e)], by simp [i5], ?_, ?_⟩
        · intro op' k e' h h1 h2
          rcases List.mem_append.1 h with h | h
          · exact i6 op' k e' h h1 h2
          · simp only [List.mem_singleton, Prod.mk.injEq] at h
            obtain ⟨-, rfl, -⟩ := h
            rw [hcl'] at h1; simp at h1
        · intro op' p e' h h1 h2
          rcases List.mem_append.1 h with h | h
          · exact hD (i7 op' p e' h h1 h2)
          · simp only [List.mem_singleton, Prod.mk.injEq] at h
            obtain ⟨-, rfl, -⟩ := h
            rw [hcl'] at h1; simp at h1
      | lock j op rest k ht hcl' hm =>
        have hmu := hm rfl
        have hst : s.Dirty → ∀ f, (f = true → k.hopeless true = true) →
            (netMachine.start k).Doomed f s.go.sh := by
          intro hD f hf
          simp only [NetSys.Dirty, hmu] at hD
          cases k with
          | write p => exact ⟨fun h => by simpa [Call.hopeless] using hf h, .inl hD⟩
          | flush => exact ⟨fun _ => rfl, hD⟩
          | force p => exact ⟨fun _ => rfl, .inl hD⟩
        have hD : s.Dirty → NetSys.Dirty ⟨{ s.go with
            th := s.go.set j ⟨rest, some (op, netMachine.start k)⟩
            mu := some j }, s.closed⟩ := by
          intro hD op' m' h
          simp only [GoSys.set, if_true, Option.some.injEq, Prod.mk.injEq] at h
          obtain ⟨rfl, rfl⟩ := h
          exact hst hD false (by simp)
        refine ⟨hcl, fun h => hD (i2 h), ?_, ?_, new, i5, i6, fun op' p e h h1 h2 => hD (i7 op' p e h h1 h2)⟩
        · intro op' m k' h h1 h2
          by_cases hl : i = j
          · subst hl
            simp only [GoSys.set, if_true, Option.some.injEq, Prod.mk.injEq] at h
            obtain ⟨rfl, rfl⟩ := h
            rw [hcl'] at h1
            cases h1
            cases dirty with
            | true => exact hst (i2 rfl) true (fun _ => h2)
            | false =>
              cases k with
              | write p => simp [Call.hopeless] at h2
              | flush => simp [Call.hopeless] at h2
              | force p => exact ⟨fun _ => rfl, .inr (by simpa [Call.hopeless] using h2)⟩
          · exact i3 op' m k' (by simpa [GoSys.set, hl] using h) h1 h2
        · intro op' m p h h1 h2
          by_cases hl : i = j
          · subst hl
            simp only [GoSys.set, if_true, Option.some.injEq, Prod.mk.injEq] at h
            obtain ⟨rfl, rfl⟩ := h
            rw [hcl'] at h1
            cases h1
            exact ⟨by simp, .inr h2⟩
          · exact i4 op' m p (by simpa [GoSys.set, hl] using h) h1 h2
      | unlock j todo op m e ht he =>
        have hj := NetSys.exclusive hr j (by rw [ht]; simp)
        have hm : m = .at (.done e) := by
          simp only [netMachine] at he
          split at he
          · simp only [Option.some.injEq] at he; rw [he]
          · simp at he
        subst hm
        have hD : s.Dirty → NetSys.Dirty ⟨{ s.go with
            th := s.go.set j ⟨todo, none⟩
            mu := none
            log := s.go.log ++ [(j, op, e)] }, s.closed⟩ := by
          intro hD
          simp only [NetSys.Dirty, hj.1] at hD
          exact hD op _ (by rw [ht])
        have hpc : ∀ x, (s.go.set j ⟨todo, none⟩ i).pc = some x → (s.go.th i).pc = some x := by
          intro x h
          by_cases hl : i = j
          · subst hl; simp [GoSys.set] at h
          · simpa [GoSys.set, hl] using h
        refine ⟨hcl, fun h => hD (i2 h), fun op' m k h => i3 op' m k (hpc _ h), fun op' m p h => i4 op' m p (hpc _ h),
          new ++ [(j, op, e)], by simp [i5], ?_, ?_⟩
        · intro op' k e' h h1 h2
          rcases List.mem_append.1 h with h | h
          · exact i6 op' k e' h h1 h2
          · simp only [List.mem_singleton, Prod.mk.injEq] at h
            obtain ⟨rfl, rfl, rfl⟩ := h
            exact i3 _ _ k (by rw [ht]) h1 h2
        · intro op' p e' h h1 h2
          rcases List.mem_append.1 h with h | h
          · exact hD (i7 op' p e' h h1 h2)
          · simp only [List.mem_singleton, Prod.mk.injEq] at h
            obtain ⟨rfl, rfl, rfl⟩ := h
            exact i4 _ _ p (by rw [ht]) h1 h2

/-- A call that will return an error. -/
def NetPos.Failing (b : BW) : NetPos → Prop
  | .at (.done e) => e ≠ none
  | .at (.loop _ _) => b.err ≠ none
  | .at (.tx _ _ e _) => e ≠ none
  | .at _ => False
  | .net q _ _ => q ≠ []

theorem NetPos.Failing.step {m m' : NetPos} {b b' : BW} (d : m.Failing b) (h : m.step b = some (m', b')) :
    m'.Failing b' := by
  cases m with
  | net q n ctx =>
    cases q with
    | cons x q => simp [NetPos.step] at h
    | nil => exact absurd rfl d
  | «at» m =>
    cases m with
    | done e => simp [NetPos.step, Micro.step] at h
    | copy => exact absurd d id
    | flush => exact absurd d id
    | loop p fl =>
      simp only [NetPos.step, Micro.step, Option.map_eq_some_iff, Prod.mk.injEq] at h
      obtain ⟨⟨m1, b1⟩, h1, rfl, rfl⟩ := h
      split at h1
      · rename_i hp
        exact absurd hp.2 d
      · split at h1
        · simp only [Option.some.injEq, Prod.mk.injEq] at h1
          obtain ⟨rfl, rfl⟩ := h1
          simp [NetPos.ofMicro, NetPos.Failing]
        · rename_i he
          exact absurd he d
    | tx q k e after =>
      simp only [NetPos.step, Option.map_eq_some_iff, Prod.mk.injEq] at h
      obtain ⟨⟨m1, b1⟩, h1, rfl, rfl⟩ := h
      cases e with
      | none => exact absurd rfl d
      | some e =>
        cases after with
        | direct p n fl =>
          simp only [Micro.step, Option.some.injEq, Prod.mk.injEq] at h1
          obtain ⟨rfl, rfl⟩ := h1
          simp [NetPos.Failing]
        | flush n back =>
          simp only [Micro.step, reduceCtorEq, and_false, if_false, Option.some.injEq, Prod.mk.injEq] at h1
          obtain ⟨rfl, rfl⟩ := h1
          cases back <;> simp [NetPos.Failing, Back.ret]

/-- A call that waits in the transport when the connection is closed returns an error. -/
theorem NetSys.blocked {call : ω → Call ⊕ Option Err} {progs : Nat → List ω} {s₀ s : NetSys ω}
    (h₀ : NetSys.Steps call (.init progs) s₀) (hc : s₀.closed = true) (i : Nat) (op : ω) (m₀ : NetPos)
    (hi : (s₀.go.th i).pc = some (op, m₀)) (hf : m₀.Failing s₀.go.sh) (h : NetSys.Steps call s₀ s) :
    ∃ new, s.go.log = s₀.go.log ++ new ∧
      ((new.filter (·.1 = i) = [] ∧ ∃ m, (s.go.th i).pc = some (op, m) ∧ m.Failing s.go.sh) ∨
        ∃ e rest, new.filter (·.1 = i) = (i, op, e) :: rest ∧ e ≠ none) := by
  induction h with
  | refl => exact ⟨[], by simp, .inl ⟨rfl, m₀, hi, hf⟩⟩
  | @tail s s' hs st ih =>
    have hr := h₀.trans hs
    obtain ⟨-, hsure⟩ := st.closed (hs.closed hc).1
    obtain ⟨new, hlog, ih⟩ := ih
    rcases ih with ⟨hnew, m, hpc, hm⟩ | ⟨e, rest, hnew, he⟩
    · have hex := NetSys.exclusive hr i (by rw [hpc]; simp)
      have only : ∀ j, (s.go.th j).pc ≠ none → j = i := by
        intro j hj
        by_contra hne
        exact hj (hex.2 j hne)
      cases hsure with
      | abort j op' q n ctx ht hcl =>
        have := only j (by rw [ht]; simp)
        subst this
        rw [ht] at hpc
        simp only [Option.some.injEq, Prod.mk.injEq] at hpc
        obtain ⟨rfl, rfl⟩ := hpc
        exact ⟨new, hlog, .inl ⟨hnew, _, by simp [GoSys.at, GoSys.set]; rfl, by simp [NetPos.Failing]⟩⟩
      | go c' hgo =>
        cases hgo with
        | lock j op' rest k ht hcl hmu => rw [hmu rfl] at hex; simp at hex
        | skip j op' rest e ht hcl =>
          have hj : j ≠ i := by rintro rfl; rw [ht] at hpc; simp at hpc
          exact ⟨new ++ [(j, op', e)], by simp [hlog], .inl ⟨by simp [hnew, hj], m,
            by simpa [GoSys.set, show ¬ i = j from fun h => hj h.symm] using hpc, hm⟩⟩
        | step j todo op' m1 m' sh' ht hst =>
          have := only j (by rw [ht]; simp)
          subst this
          rw [ht] at hpc
          simp only [Option.some.injEq, Prod.mk.injEq] at hpc
          obtain ⟨rfl, rfl⟩ := hpc
          exact ⟨new, hlog, .inl ⟨hnew, m', by simp [GoSys.set], hm.step hst⟩⟩
        | unlock j todo op' m1 e ht he =>
          have := only j (by rw [ht]; simp)
          subst this
          rw [ht] at hpc
          simp only [Option.some.injEq, Prod.mk.injEq] at hpc
          obtain ⟨rfl, rfl⟩ := hpc
          have hd : m1 = .at (.done e) := by
            simp only [netMachine] at he
            split at he
            · simp only [Option.some.injEq] at he; rw [he]
            · simp at he
          subst hd
          exact ⟨new ++ [(j, op', e)], by simp [hlog], .inr ⟨e, [], by simp [hnew], hm⟩⟩
    · have hmore : ∃ more, s'.go.log = s.go.log ++ more := by
        cases hsure with
        | abort => exact ⟨[], by simp [GoSys.at]⟩
        | go c' hgo =>
          cases hgo with
          | lock => exact ⟨[], by simp⟩
          | step => exact ⟨[], by simp⟩
          | skip => exact ⟨_, rfl⟩
          | unlock => exact ⟨_, rfl⟩
      obtain ⟨more, hmore⟩ := hmore
      exact ⟨new ++ more, by rw [hmore, hlog]; simp,
        .inr ⟨e, rest ++ more.filter (·.1 = i), by simp [hnew], he⟩⟩

end Verif
