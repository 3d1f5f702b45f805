import Verif.Listen
import Verif.Props.Serve
import Verif.Props.Request
import Verif.Props.Conn

/-!
# C99: listening and dialling
-/

namespace Verif.Props

private theorem listen_inv {cseq seq : Bool} {m : Int} {x : ListenCall} (h : ListenCall.Reach cseq seq m x) :
    (∀ y, x.opened = some y → ServeCall.Reach cseq seq m y ∧ ∀ e, x.result = some e → y.result = some e) := by
  induction h with
  | init => intro y hy; simp [ListenCall.init] at hy
  | tail _ st ih =>
    cases st with
    | listenErr e ho hr => intro y hy; simp only at hy; rw [ho] at hy; simp at hy
    | listen ho hr =>
      intro y hy
      simp only [Option.some.injEq] at hy
      subst hy
      refine ⟨.init, fun e he => ?_⟩
      simp only at he; rw [hr] at he; simp at he
    | serve y0 y' ho st =>
      intro y hy
      simp only [Option.some.injEq] at hy
      subst hy
      obtain ⟨h1, h2⟩ := ih y0 ho
      refine ⟨.tail h1 st, fun e he => ?_⟩
      have := h2 e he
      cases st <;> simp_all
    | ret y0 e ho hy hr =>
      intro y hy'
      simp only at hy'
      rw [ho] at hy'
      simp only [Option.some.injEq] at hy'
      subst hy'
      obtain ⟨h1, _⟩ := ih y0 ho
      refine ⟨h1, fun e' he => ?_⟩
      simp only [Option.some.injEq] at he
      subst he
      exact hy

/-- C99.  `ListenAndServe` returns in two ways: `net.Listen` failed, and there is no listener and no
connection; or `Accept` failed, its error is the result, and the listener has been closed, once. -/
theorem listen_result (cseq seq : Bool) (m : Int) (x : ListenCall) (h : ListenCall.Reach cseq seq m x) (e : Err)
    (he : x.result = some e) :
    x.opened = none ∨ ∃ y, x.opened = some y ∧
      y.accepts = List.replicate y.srv.cs.length .conn ++ [.err e] ∧ y.closes = 1 := by
  cases ho : x.opened with
  | none => exact .inl rfl
  | some y =>
    obtain ⟨h1, h2⟩ := listen_inv h y ho
    exact .inr ⟨y, rfl, serve_result cseq seq m y h1 e (h2 e he)⟩

/-- C99.  As long as `Accept` does not fail, it does not return and the listener stays open. -/
theorem listen_runs (cseq seq : Bool) (m : Int) (x : ListenCall) (h : ListenCall.Reach cseq seq m x)
    (y : ServeCall) (ho : x.opened = some y) (ha : ∀ e, Accepted.err e ∉ y.accepts) :
    x.result = none ∧ y.closes = 0 := by
  obtain ⟨h1, h2⟩ := listen_inv h y ho
  obtain ⟨h3, h4, _⟩ := serve_runs cseq seq m y h1 ha
  refine ⟨?_, h4⟩
  cases hr : x.result with
  | none => rfl
  | some e => rw [h2 e hr] at h3; simp at h3

private theorem steps_lift {cseq seq : Bool} {m : Int} {y z : ServeCall}
    (hs : ServeCall.Steps cseq seq m y z) (r : Option Err) :
    ListenCall.Steps cseq seq m ⟨some y, r⟩ ⟨some z, r⟩ := by
  induction hs with
  | refl => exact .refl _
  | tail _ st ih => exact .tail ih (.serve _ _ _ rfl st)

/-- C99.  When `Accept` has failed, the call can return, with that error, whatever state the connections are
in, and it returns nothing else. -/
theorem listen_returns (cseq seq : Bool) (m : Int) (x : ListenCall) (h : ListenCall.Reach cseq seq m x)
    (y : ServeCall) (ho : x.opened = some y) (e : Err) (he : Accepted.err e ∈ y.accepts) :
    (∃ x', ListenCall.Steps cseq seq m x x' ∧ x'.result = some e) ∧
      ∀ r, x.result = some r → r = e := by
  obtain ⟨h1, h2⟩ := listen_inv h y ho
  have h3 : ∀ r, x.result = some r → r = e := fun r hr =>
    (serve_error_final cseq seq m y y h1 e he (.refl _)).2.2 r (h2 r hr)
  refine ⟨?_, h3⟩
  cases hr : x.result with
  | some r => exact ⟨x, .refl _, by rw [hr, h3 r hr]⟩
  | none =>
    obtain ⟨z, hs, hz, _⟩ := serve_error_returns cseq seq m y h1 e he
    obtain ⟨o, r⟩ := x
    simp only at ho hr
    subst ho hr
    exact ⟨⟨some z, some e⟩, .tail (steps_lift hs none) (.ret _ z e rfl hz rfl), rfl⟩

/-- A call that has returned opens nothing any more. -/
theorem listen_failed_final (cseq seq : Bool) (m : Int) (x x' : ListenCall) (e : Err)
    (ho : x.opened = none) (hr : x.result = some e) (hs : ListenCall.Steps cseq seq m x x') : x' = x := by
  induction hs with
  | refl => rfl
  | tail _ st ih =>
    have := ih
    subst this
    cases st with
    | listenErr _ _ h => rw [hr] at h; simp at h
    | listen _ h => rw [hr] at h; simp at h
    | serve _ _ h _ => rw [ho] at h; simp at h
    | ret _ _ h _ _ => rw [ho] at h; simp at h

/-- C99.  What a server uses: what its fields say, `DefaultMux` and `OnDemandRoutineRunner` for those that are
nil; the function `ListenAndServe` sets the handler only. -/
theorem serve_defaults (mux demand : Nat) (c : ServeConf) :
    ((c.resolve mux demand).handler = c.handler.getD mux) ∧
    ((c.resolve mux demand).handlerRunner = c.handlerRunner.getD demand) ∧
    ((c.resolve mux demand).connRunner = c.connRunner.getD demand) := by
  obtain ⟨h, hr, cr⟩ := c
  cases h <;> cases hr <;> cases cr <;> simp [ServeConf.resolve]

theorem listenAndServe_defaults (mux demand : Nat) (h : Nat) :
    (listenAndServeConf (some h)).resolve mux demand = ⟨h, demand, demand⟩ ∧
    (listenAndServeConf none).resolve mux demand = ⟨mux, demand, demand⟩ := ⟨rfl, rfl⟩

/-- C99.  Dialling and accepting fail exactly when package net does, with its error. -/
theorem dial_error (r : Except Err NetConn) (e : Err) : dial r = .error e ↔ r = .error e := by
  cases r <;> simp [dial]

/-- C99.  A connection that was dialled or accepted delivers what its peer sends from the first byte on, in
order, however it is fragmented. -/
theorem dial_receives (c : NetConn) (k : FullConn) (hk : dial (.ok c) = .ok k) (F : Err)
    (qs : List (Request × Bytes)) (h : ∀ p ∈ qs, p.1.body.Yields p.2 ∧ 8 + p.2.length ≤ 65535)
    (hr : c.rd.Ok F) (hs : c.rd.Sep) (hc : c.rd.content = serialise (qs.map (·.1))) :
    (receiveN qs.length k.rd).1 = qs.map (fun p => (some ⟨
      { p.1.header with length := UInt16.ofNat (8 + p.2.length) }, .buffer p.2, 1,
      (p.1.header.version - 1).toNat, p.2.length⟩, none)) ∧
    ∃ r', Conn.receive (receiveN qs.length k.rd).2 = (none, some F, r') := by
  simp only [dial, newConn, Except.ok.injEq] at hk
  subst hk
  have := stream_framing F qs h (.buf [] none c.rd) [] (by simpa [Rd.Ok] using hr)
    (by simpa [Rd.Sep] using hs) (by simpa [Rd.content] using hc)
  exact ⟨this.1, this.2.2 rfl⟩

/-- C99.  Its peer gets nothing but a prefix of what is sent on it, and after a successful flush all of it. -/
theorem dial_sends (c : NetConn) (k : FullConn) (hk : dial (.ok c) = .ok k) (ops : List ConnOp) :
    k.bw.tr.out = [] ∧ (runOps k.bw ops).2.tr.out <+: ops.flatMap ConnOp.message ∧
    (((ConnOp.flush).run (runOps k.bw ops).2).1 = none →
      ((ConnOp.flush).run (runOps k.bw ops).2).2.tr.out = ops.flatMap ConnOp.message) := by
  simp only [dial, newConn, Except.ok.injEq] at hk
  subst hk
  exact ⟨rfl, conn_prefix c.plan ops, conn_flushed c.plan ops⟩

/-- `Listen` returns exactly one of a listener and an error: the first error there is. -/
theorem listen_error {α : Type} (resolve : Option Err) (ln : Except Err α) (e : Err) :
    listen resolve ln = .error e ↔ resolve = some e ∨ (resolve = none ∧ ln = .error e) := by
  cases resolve <;> cases ln <;> simp [listen]

/-- C99.  The listener of a test server: the first address that can be listened on. -/
theorem newLocalListener_first {α : Type} (a b : List (Except Err α)) (l : α)
    (ha : ∀ r ∈ a, ∃ e, r = .error e) : newLocalListener (a ++ .ok l :: b) = some (.ok l) := by
  induction a with
  | nil => rfl
  | cons r t ih =>
    obtain ⟨e, rfl⟩ := ha r (by simp)
    have := ih (fun r hr => ha r (by simp [hr]))
    cases t with
    | nil => simp [newLocalListener]
    | cons s t => simpa [newLocalListener] using this

/-- C99.  If there is none, `newLocalListener` panics with the last error; it never returns nil. -/
theorem newLocalListener_panics {α : Type} (a : List (Except Err α)) (e : Err)
    (ha : ∀ r ∈ a, ∃ e, r = .error e) : newLocalListener (a ++ [.error e]) = some (.error e) := by
  induction a with
  | nil => rfl
  | cons r t ih =>
    obtain ⟨e', rfl⟩ := ha r (by simp)
    have := ih (fun r hr => ha r (by simp [hr]))
    cases t with
    | nil => simp [newLocalListener]
    | cons s t => simpa [newLocalListener] using this

theorem newLocalListener_not_nil {α : Type} (a : List (Except Err α)) (h : a ≠ []) :
    newLocalListener a ≠ none := by
  induction a with
  | nil => exact absurd rfl h
  | cons r t ih =>
    cases r with
    | ok l => simp [newLocalListener]
    | error e =>
      cases t with
      | nil => simp [newLocalListener]
      | cons s t => simpa [newLocalListener] using ih (by simp)

/-! ## Cases -/

/-- The port is in use. -/
example : ∃ x, ListenCall.Reach false false 0 x ∧ x.result = some (.io 98) ∧ x.opened = none :=
  ⟨_, .tail .init (.listenErr _ (.io 98) rfl rfl), rfl, rfl⟩

/-- `Accept` fails; the result is its error. -/
example : ∃ x y, ListenCall.Reach false false 0 x ∧ x.opened = some y ∧ x.result = some (.io 24) ∧
    y.accepts = [.err (.io 24)] ∧ y.closes = 1 :=
  ⟨_, _, .tail (.tail (.tail (.tail (.tail .init (.listen _ rfl rfl))
    (.serve _ _ _ rfl (.acceptErr _ (.io 24) (by decide) rfl))) (.serve _ _ _ rfl (.close _ (.io 24) rfl rfl)))
    (.serve _ _ _ rfl (.ret _ (.io 24) rfl rfl rfl))) (.ret _ _ (.io 24) rfl rfl rfl), rfl, rfl, rfl, rfl⟩

/-- A dialled connection on which the peer sends two messages, in pieces. -/
example : (dial (.ok ⟨.src (serialise [newRequest 2 none, newRequest 3 none]) [3, 7] .eof false, []⟩)).toOption.map
    (fun k => (receiveN 3 k.rd).1.map (fun p => (p.1.isSome, p.2))) =
    some [(true, none), (true, none), (false, some .eof)] := by decide +kernel

/-- IPv4 is not available. -/
example : newLocalListener [.error (.io 97), .ok 6] = some (.ok 6) :=
  newLocalListener_first [.error (.io 97)] [] 6 (by simp)

end Verif.Props
