import Verif.CloseConc
import Verif.Props.ConnConc
import Verif.Props.Request

/-!
# Property C67: closing a connection
-/

namespace Verif.Props

open Verif

/-- `ResponseWriter.Write` fails or calls the connection with a message. -/
theorem call_respond (rv : UInt8) (h : Header) (w : Option Wr) :
    (∃ e, ConnOp.call (.respond rv h w) = .inr (some e)) ∨
    ∃ p, p ≠ [] ∧ ConnOp.call (.respond rv h w) = .inl (.force p) := by
  by_cases hw : ∃ w' e, w = some w' ∧ w'.err = some e
  · obtain ⟨w', e, rfl, he⟩ := hw
    exact .inl ⟨e, by simp [ConnOp.call, response_fails _ _ _ _ _ he]⟩
  · have hk : ∃ b, (w = none ∧ b = []) ∨ ∃ n, w = some ⟨b, n, none⟩ := by
      cases w with
      | none => exact ⟨[], .inl ⟨rfl, rfl⟩⟩
      | some w =>
        obtain ⟨o, n, e⟩ := w
        cases e with
        | none => exact ⟨o, .inr ⟨n, rfl⟩⟩
        | some e => exact absurd ⟨_, e, rfl, rfl⟩ hw
    obtain ⟨body, hk⟩ := hk
    refine .inr ?_
    simp only [ConnOp.call, response_eq (.new []) rv h w body hk]
    have hne : Header.bytes ⟨if h.version = 0 then rv else h.version, h.type,
        UInt16.ofNat (8 + body.length), h.transaction⟩ ++ body ≠ [] := by
      intro hc
      have := congrArg List.length hc
      simp [Header.bytes_length] at this
    revert hne
    generalize Header.bytes ⟨if h.version = 0 then rv else h.version, h.type,
      UInt16.ofNat (8 + body.length), h.transaction⟩ ++ body = msg
    intro hne
    obtain ⟨f1, f2, f3⟩ := Conn.forceWrite_took (.new []) msg
    have fe := (force_plan_nil (.new []) msg rfl rfl).1
    have hn : (Conn.forceWrite (.new []) msg).1 = none := by rw [f2]; exact fe
    have hout : (Conn.forceWrite (.new []) msg).2.tr.out = msg := by
      have := (f1.ok fe).2
      rw [f3 hn] at this
      simpa [BW.new] using this
    exact ⟨msg, hne, by simp [hn, hout]⟩

/-- `Send` fails or calls the connection with a message. -/
theorem call_send (q : Request) :
    (∃ e, ConnOp.call (.send q) = .inr (some e)) ∨ ∃ p, p ≠ [] ∧ ConnOp.call (.send q) = .inl (.write p) := by
  simp only [ConnOp.call]
  rcases q.writeTo_any with ⟨n, e, q', h⟩ | ⟨msg, q', hne, h⟩
  · exact .inl ⟨e, by simp [h]⟩
  · refine .inr ⟨msg, hne, ?_⟩
    have : bufWriteTo recorder msg [] = (msg.length, none, [msg]) := by
      simp [bufWriteTo, recorder, hne]
    simp [h, this]

/-- C67.  Whatever is closed when, and however the peer takes the bytes: the completed
operations (`s.go.log`) have one order in which every goroutine's operations are in program
order, each returned what it returns when they run one after another over some transport, and
what the peer got is a prefix of the messages in that order. -/
theorem close_sequential (progs : Nat → List ConnOp) (s : NetSys ConnOp)
    (h : NetSys.Steps ConnOp.call (.init progs) s) :
    ∃ plan, (∀ i, (s.go.log.filter (·.1 = i)).map (·.2.1) ++ (s.go.th i).current ++ (s.go.th i).todo = progs i) ∧
      s.go.log.map (·.2.2) = (runOps (.new plan) (s.go.log.map (·.2.1))).1 ∧
      s.go.sh.tr.out <+: (s.go.log.map (·.2.1)).flatMap ConnOp.message ++
        (match s.go.mu with
          | none => []
          | some i => (s.go.th i).current.flatMap ConnOp.message) := by
  obtain ⟨plan, hr⟩ := NetSys.refines ConnOp.call progs s h (0, some .closed) (s.valid_fail _) []
  obtain ⟨h1, h2, -, h4⟩ := concurrent_writers plan progs _ hr
  have hcur : ∀ i, ((s.lower (0, some .closed) []).th i).current = (s.go.th i).current := by
    intro i
    simp only [NetSys.lower, GoThread.current]
    cases (s.go.th i).pc <;> rfl
  refine ⟨plan, fun i => ?_, h2, ?_⟩
  · have := h1 i
    rw [hcur] at this
    exact this
  · simp only [GoConn.pending, hcur] at h4
    exact h4

/-- C67.  When a `Flush` of any goroutine has returned nil, everything that all goroutines had
written before has been transmitted, also when the connection has been closed since. -/
theorem close_flushed (progs : Nat → List ConnOp) (s : NetSys ConnOp) (h : NetSys.Steps ConnOp.call (.init progs) s)
    (a b : List (Nat × ConnOp × Option Err)) (i : Nat) (hl : s.go.log = a ++ (i, .flush, none) :: b) :
    (a.map (·.2.1)).flatMap ConnOp.message <+: s.go.sh.tr.out := by
  obtain ⟨plan, hr⟩ := NetSys.refines ConnOp.call progs s h (0, some .closed) (s.valid_fail _) []
  exact concurrent_flushed plan progs _ hr a b i hl

/-- C67.  Also on a connection that may be closed at any time, at most one goroutine is inside
a call. -/
theorem close_exclusive (progs : Nat → List ConnOp) (s : NetSys ConnOp)
    (h : NetSys.Steps ConnOp.call (.init progs) s) (i : Nat) (hi : (s.go.th i).pc ≠ none) :
    s.go.mu = some i ∧ ∀ j, j ≠ i → (s.go.th j).pc = none :=
  NetSys.exclusive h i hi

/-- C67.  Once the connection is closed the peer gets nothing more, whatever is in the buffer
and whatever is called. -/
theorem close_silent (s s' : NetSys ConnOp) (hc : s.closed = true) (h : NetSys.Steps ConnOp.call s s') :
    s'.closed = true ∧ s'.go.sh.tr.out = s.go.sh.tr.out :=
  h.closed hc

/-- C67.  `Close` unblocks: in a closed connection, as long as some goroutine has something to
do, some goroutine can make a step that does not depend on the peer. -/
theorem close_unblocks (progs : Nat → List ConnOp) (s : NetSys ConnOp)
    (h : NetSys.Steps ConnOp.call (.init progs) s) (hc : s.closed = true) (i : Nat)
    (hi : (s.go.th i).pc ≠ none ∨ (s.go.th i).todo ≠ []) : ∃ s', NetSys.Sure ConnOp.call s s' := by
  rcases NetSys.progress h i hi with h | ⟨h, -⟩
  · exact h
  · rw [hc] at h; simp at h

/-- C67.  Finitely many goroutines with finite programs cannot go on for ever, with or without
a `Close`. -/
theorem close_terminates (progs : Nat → List ConnOp) (N : Nat) (hN : ∀ i, N ≤ i → progs i = [])
    (ex : Nat → NetSys ConnOp) (h0 : ex 0 = .init progs) :
    ¬ ∀ n, NetSys.Step ConnOp.call (ex n) (ex (n + 1)) := by
  intro h
  have key : ∀ s, Acc (fun s' s => NetSys.Step ConnOp.call s s') s → ∀ n, ex n ≠ s := by
    intro s hs
    induction hs with
    | intro s _ ih =>
      intro n hn
      exact ih (ex (n + 1)) (by rw [← hn]; exact h n) (n + 1) rfl
  exact key _ (NetSys.acc N hN _ _ (ex 0) (by rw [h0]; exact .refl) rfl rfl) 0 rfl

/-- C67.  When, on a closed connection, nothing more can happen, every call of every goroutine
has returned and the mutex is free. -/
theorem close_final (progs : Nat → List ConnOp) (s : NetSys ConnOp)
    (h : NetSys.Steps ConnOp.call (.init progs) s) (hc : s.closed = true)
    (hf : ∀ s', ¬ NetSys.Sure ConnOp.call s s') :
    s.go.mu = none ∧ ∀ i, (s.go.log.filter (·.1 = i)).map (·.2.1) = progs i := by
  have hdone : ∀ i, (s.go.th i).pc = none ∧ (s.go.th i).todo = [] := by
    intro i
    refine ⟨?_, ?_⟩
    · by_contra hne
      obtain ⟨s', hs⟩ := close_unblocks progs s h hc i (.inl hne)
      exact hf s' hs
    · by_contra hne
      obtain ⟨s', hs⟩ := close_unblocks progs s h hc i (.inr hne)
      exact hf s' hs
  refine ⟨?_, fun i => ?_⟩
  · cases hm : s.go.mu with
    | none => rfl
    | some j => exact absurd (hdone j).1 (NetSys.held h j hm)
  · obtain ⟨plan, h1, -⟩ := close_sequential progs s h
    have := h1 i
    rw [(hdone i).2] at this
    simpa [GoThread.current, (hdone i).1] using this

/-- Zero or more steps that do not depend on the peer, none of them a `Close`. -/
inductive SureSteps (s₀ : NetSys ConnOp) : NetSys ConnOp → Prop where
  | refl : SureSteps s₀ s₀
  | tail {s s'} (h : SureSteps s₀ s) (st : NetSys.Sure ConnOp.call s s') : SureSteps s₀ s'

/-- C67.  `Close` does not wait for anybody: in every state of an open connection it can be
called, whoever holds the mutex, and it touches neither the goroutines nor the buffer. -/
theorem close_any_time (s : NetSys ConnOp) (hc : s.closed = false) :
    ∃ s', NetSys.Step ConnOp.call s s' ∧ s'.closed = true ∧ s'.go = s.go :=
  ⟨_, .close s hc, rfl, rfl⟩

/-- C67.  From every reachable state, a `Close` and steps that do not depend on the peer lead
to a state in which every call has returned. -/
theorem close_ends (progs : Nat → List ConnOp) (N : Nat) (hN : ∀ i, N ≤ i → progs i = []) (s : NetSys ConnOp)
    (h : NetSys.Steps ConnOp.call (.init progs) s) :
    ∃ s₁ s₂, (s₁ = s ∨ NetSys.Step ConnOp.call s s₁) ∧ s₁.closed = true ∧ s₁.go = s.go ∧ SureSteps s₁ s₂ ∧
      s₂.go.mu = none ∧ ∀ i, (s₂.go.log.filter (·.1 = i)).map (·.2.1) = progs i := by
  have key : ∀ s, Acc (fun s' s => NetSys.Step ConnOp.call s s') s → NetSys.Steps ConnOp.call (.init progs) s →
      s.closed = true → ∀ s₁, SureSteps s₁ s → ∃ s₂, SureSteps s₁ s₂ ∧ s₂.go.mu = none ∧
        ∀ i, (s₂.go.log.filter (·.1 = i)).map (·.2.1) = progs i := by
    intro s hs
    induction hs with
    | intro s _ ih =>
      intro hr hc s₁ h₁
      by_cases hf : ∃ s', NetSys.Sure ConnOp.call s s'
      · obtain ⟨s', hs'⟩ := hf
        have st := NetSys.Step.sure hs'
        exact ih s' st (.tail hr st) (st.closed hc).1 s₁ (.tail h₁ hs')
      · exact ⟨s, h₁, close_final progs s hr hc (fun s' hs' => hf ⟨s', hs'⟩)⟩
  have done : ∀ s, NetSys.Steps ConnOp.call (.init progs) s → s.closed = true → ∃ s₂, SureSteps s s₂ ∧
      s₂.go.mu = none ∧ ∀ i, (s₂.go.log.filter (·.1 = i)).map (·.2.1) = progs i :=
    fun s hr hc => key s (NetSys.acc N hN _ _ s hr rfl rfl) hr hc s .refl
  cases hc : s.closed with
  | true =>
    obtain ⟨s₂, h2, h3⟩ := done s h hc
    exact ⟨s, s₂, .inl rfl, hc, rfl, h2, h3⟩
  | false =>
    obtain ⟨s₁, g1, g2, g3⟩ := close_any_time s hc
    obtain ⟨s₂, h2, h3⟩ := done s₁ (.tail h g1) g2
    exact ⟨s₁, s₂, .inr g1, g2, g3, h2, h3⟩

/-- C67.  A call that waits in the transport when `Close` is called returns an error: the next
operation of the goroutine to return is that one, with an error. -/
theorem close_blocked_fails (progs : Nat → List ConnOp) (s₀ s : NetSys ConnOp)
    (h₀ : NetSys.Steps ConnOp.call (.init progs) s₀) (hc : s₀.closed = true) (i : Nat) (op : ConnOp) (x : UInt8)
    (q : Bytes) (n : Nat) (ctx : NetCtx) (hi : (s₀.go.th i).pc = some (op, .net (x :: q) n ctx))
    (h : NetSys.Steps ConnOp.call s₀ s) (r : Nat × ConnOp × Option Err) (rest : List (Nat × ConnOp × Option Err))
    (hr : (s.go.log.drop s₀.go.log.length).filter (·.1 = i) = r :: rest) : r.2.1 = op ∧ r.2.2 ≠ none := by
  obtain ⟨new, h1, h2⟩ := NetSys.blocked h₀ hc i op _ hi (by simp [NetPos.Failing]) h
  rw [h1, List.drop_left] at hr
  rcases h2 with ⟨h2, -⟩ | ⟨e, rest', h2, he⟩
  · rw [h2] at hr; simp at hr
  · rw [h2] at hr
    simp only [List.cons.injEq] at hr
    rw [← hr.1]
    exact ⟨rfl, he⟩

/-- C67.  A call that was made after `Close` reports an error: `ResponseWriter.Write`. -/
theorem close_respond_fails (progs : Nat → List ConnOp) (s₀ s : NetSys ConnOp)
    (h₀ : NetSys.Steps ConnOp.call (.init progs) s₀) (hc : s₀.closed = true) (i : Nat)
    (hi : (s₀.go.th i).pc = none) (h : NetSys.Steps ConnOp.call s₀ s) (rv : UInt8) (hd : Header) (w : Option Wr)
    (e : Option Err) (hm : (i, .respond rv hd w, e) ∈ s.go.log.drop s₀.go.log.length) : e ≠ none := by
  obtain ⟨-, -, -, -, new, h5, h6, -⟩ := NetSys.doom h₀ hc false (by simp) i hi h
  rcases call_respond rv hd w with ⟨e', he⟩ | ⟨p, hp, he⟩
  · rw [NetSys.skipped (h₀.trans h) i _ e _ (List.mem_of_mem_drop hm) he]
    simp
  · rw [h5, List.drop_left] at hm
    refine h6 _ _ _ hm he ?_
    cases p with
    | nil => exact absurd rfl hp
    | cons => simp [Call.hopeless]

/-- C67.  A message given to `Send` after `Close` is not lost without an error: `Send` reports
one, or every later `Flush` and every later response, of any goroutine, does. -/
theorem close_send_reported (progs : Nat → List ConnOp) (s₀ s₁ s₂ : NetSys ConnOp)
    (h₀ : NetSys.Steps ConnOp.call (.init progs) s₀) (hc : s₀.closed = true) (i : Nat)
    (hi : (s₀.go.th i).pc = none) (h₁ : NetSys.Steps ConnOp.call s₀ s₁) (q : Request)
    (hm : (i, .send q, none) ∈ s₁.go.log.drop s₀.go.log.length) (j : Nat) (hj : (s₁.go.th j).pc = none)
    (h₂ : NetSys.Steps ConnOp.call s₁ s₂) (op : ConnOp) (e : Option Err)
    (hop : op = .flush ∨ ∃ rv hd w, op = .respond rv hd w)
    (hm' : (j, op, e) ∈ s₂.go.log.drop s₁.go.log.length) : e ≠ none := by
  have hr := h₀.trans h₁
  have hD : s₁.Dirty := by
    obtain ⟨-, -, -, -, new, h5, -, h7⟩ := NetSys.doom h₀ hc false (by simp) i hi h₁
    rcases call_send q with ⟨e', he⟩ | ⟨p, hp, he⟩
    · have := NetSys.skipped hr i _ none _ (List.mem_of_mem_drop hm) he
      simp at this
    · rw [h5, List.drop_left] at hm
      exact h7 _ _ _ hm he hp
  rcases hop with rfl | ⟨rv, hd, w, rfl⟩
  · obtain ⟨-, -, -, -, new, h5, h6, -⟩ := NetSys.doom hr (h₁.closed hc).1 true (fun _ => hD) j hj h₂
    rw [h5, List.drop_left] at hm'
    exact h6 _ .flush _ hm' rfl rfl
  · exact close_respond_fails progs s₁ s₂ hr (h₁.closed hc).1 j hj h₂ rv hd w e hm'

/-- C67.  Without `Close` a peer that does not read blocks everybody: if a goroutine waits in
the transport, then as long as the peer takes nothing, it stays there, and no operation of any
goroutine that uses the connection begins. -/
theorem stalled_blocks (progs : Nat → List ConnOp) (s s' : NetSys ConnOp)
    (h : NetSys.Steps ConnOp.call (.init progs) s) (hc : s.closed = false) (i : Nat) (op : ConnOp) (x : UInt8)
    (q : Bytes) (n : Nat) (ctx : NetCtx) (hi : (s.go.th i).pc = some (op, .net (x :: q) n ctx))
    (hs : SureSteps s s') :
    (s'.go.th i).pc = some (op, .net (x :: q) n ctx) ∧ s'.go.sh = s.go.sh ∧
    (∀ j op' rest k, (s.go.th j).todo = op' :: rest → ConnOp.call op' = .inl k → s'.go.th j = s.go.th j) := by
  suffices hsuf : NetSys.Steps ConnOp.call (.init progs) s' ∧ s'.closed = false ∧
      (s'.go.th i).pc = some (op, .net (x :: q) n ctx) ∧ s'.go.sh = s.go.sh ∧
      (∀ j op' rest k, (s.go.th j).todo = op' :: rest → ConnOp.call op' = .inl k → s'.go.th j = s.go.th j) from
    hsuf.2.2
  induction hs with
  | refl => exact ⟨h, hc, hi, rfl, fun _ _ _ _ _ _ => rfl⟩
  | @tail s1 s2 _ st ih =>
    obtain ⟨g1, g2, g3, g4, g5⟩ := ih
    have hex := NetSys.exclusive g1 i (by rw [g3]; simp)
    refine ⟨.tail g1 (.sure st), ?_⟩
    cases st with
    | abort j op' q' n' ctx' ht hcl => rw [g2] at hcl; simp at hcl
    | go c' st =>
      cases st with
      | lock j op' rest k ht hcl hm => rw [hm rfl] at hex; simp at hex
      | step j todo op' m m' sh' ht hst =>
        by_cases hj : j = i
        · subst hj
          rw [ht] at g3
          simp only [Option.some.injEq, Prod.mk.injEq] at g3
          rw [g3.2] at hst
          simp [netMachine, NetPos.step] at hst
        · have := hex.2 j hj
          rw [ht] at this; simp at this
      | unlock j todo op' m e ht he =>
        by_cases hj : j = i
        · subst hj
          rw [ht] at g3
          simp only [Option.some.injEq, Prod.mk.injEq] at g3
          rw [g3.2] at he
          simp [netMachine] at he
        · have := hex.2 j hj
          rw [ht] at this; simp at this
      | skip j op' rest e ht hcl =>
        have hj : i ≠ j := by rintro rfl; rw [ht] at g3; simp at g3
        refine ⟨g2, by simpa [GoSys.set, hj] using g3, g4, fun l op'' rest' k h1 h2 => ?_⟩
        have h3 := g5 l op'' rest' k h1 h2
        by_cases hl : l = j
        · subst hl
          rw [ht] at h3
          rw [← h3] at h1
          simp only [List.cons.injEq] at h1
          rw [h1.1, h2] at hcl
          simp at hcl
        · simpa [GoSys.set, hl] using h3

/-- C67.  After `Close` the transport gives nothing more: `Receive` delivers a message only out
of what the connection had already read (`b`), and otherwise returns an error, which is not
`io.EOF`: to close a connection does not look like a peer that has closed its side.  If nothing
was left, it is the error of the transport about the closed connection. -/
theorem close_receive (b : Bytes) (e : Option Err) (sched : List Nat) (tog : Bool)
    (hr : (Rd.buf b e (.src [] sched .closed tog)).Ok .closed) :
    ((∃ q r' msg, Conn.receive (.buf b e (.src [] sched .closed tog)) = (some q, none, r') ∧
      8 ≤ msg.length ∧ b = msg ++ r'.content) ∨
    ∃ err r', Conn.receive (.buf b e (.src [] sched .closed tog)) = (none, some err, r') ∧ err ≠ .eof) ∧
    (b = [] → ∃ r', Conn.receive (.buf b e (.src [] sched .closed tog)) = (none, some .closed, r')) := by
  have hx := receive_exclusive (.buf b e (.src [] sched .closed tog))
  have hcont : (Rd.buf b e (.src [] sched .closed tog)).content = b := by simp [Rd.content]
  rcases hrec : Conn.receive (.buf b e (.src [] sched .closed tog)) with ⟨q, err, r'⟩
  rw [hrec] at hx
  have hsp := Conn.receive_spec .closed _ hr
  rw [hrec, hcont] at hsp
  have hh : headerErr .closed b = .closed := by simp [headerErr, Err.closed]
  constructor
  · cases q with
    | none =>
      cases err with
      | none => simp at hx
      | some err =>
        refine .inr ⟨err, r', rfl, ?_⟩
        rcases hsp with ⟨_, _, g, _⟩ | ⟨_, _, _, g, _⟩ | ⟨_, _, _, _, g, _⟩ | ⟨_, _, _, g, _⟩
        · cases g; rw [hh]; simp [Err.closed]
        · cases g; simp
        · cases g; simp [Err.closed]
        · cases g
    | some q =>
      obtain ⟨rfl, msg, body, h1, -, h3, -⟩ := receive_delivered .closed _ r' q err hr hrec
      refine .inl ⟨q, r', msg, rfl, ?_, ?_⟩
      · simp only [Layout, List.length_drop] at h3
        omega
      · simpa [Rd.content] using h1
  · rintro rfl
    rcases hsp with ⟨_, r'', g, _⟩ | ⟨g, _⟩ | ⟨g, _⟩ | ⟨g1, g2, _⟩
    · cases g; exact ⟨_, by rw [hh]⟩
    · simp at g
    · simp at g
    · simp at g2; omega

/-- The echo reply of the examples. -/
def closeReply : ConnOp := .respond 4 ⟨0, 3, 0, 1⟩ none

/-- The echo request of the examples. -/
def closeRequest : Request := { newRequest 2 none with header := ⟨4, 2, 0, 1⟩ }

/-- Non-vacuity: goroutine 0 answers and waits in the transport; the peer has taken one byte;
goroutine 1 wants to answer as well.  `Close` comes, and the call returns an error. -/
example : ∃ s₁ s₂ s₃, NetSys.Steps ConnOp.call (.init fun i => if i < 2 then [closeReply] else []) s₁ ∧
    s₁.closed = false ∧ s₁.go.sh.tr.out = [4] ∧
    (s₁.go.th 0).pc = some (closeReply, .net [3, 0, 8, 0, 0, 0, 1] 1 (.flush .call)) ∧
    (s₁.go.th 1).todo = [closeReply] ∧ ConnOp.call closeReply = .inl (.force [4, 3, 0, 8, 0, 0, 0, 1]) ∧
    NetSys.Steps ConnOp.call s₁ s₂ ∧ s₂.closed = true ∧ (s₂.go.th 1).pc = none ∧ s₂.go.log = [] ∧
    NetSys.Steps ConnOp.call s₂ s₃ ∧
    s₃.go.log = [(0, closeReply, some .closed), (1, closeReply, some .closed)] ∧ s₃.go.sh.tr.out = [4] := by
  have hcall : ConnOp.call closeReply = .inl (.force [4, 3, 0, 8, 0, 0, 0, 1]) := by rfl
  have r1 : netMachine.Runs (.at (.loop [4, 3, 0, 8, 0, 0, 0, 1] true)) ⟨[], none, ⟨[], []⟩⟩
      (.net [4, 3, 0, 8, 0, 0, 0, 1] 0 (.flush .call)) ⟨[4, 3, 0, 8, 0, 0, 0, 1], none, ⟨[], []⟩⟩ := by
    repeat (first | exact .refl _ _ | refine .head rfl ?_)
  have r2 : netMachine.Runs (.at (.tx [3, 0, 8, 0, 0, 0, 1] 0 (some .closed) (.flush 1 .call)))
      ⟨[4, 3, 0, 8, 0, 0, 0, 1], none, ⟨[4], []⟩⟩
      (.at (.done (some .closed))) ⟨[3, 0, 8, 0, 0, 0, 1], some .closed, ⟨[4], []⟩⟩ := by
    repeat (first | exact .refl _ _ | refine .head rfl ?_)
  have r3 : netMachine.Runs (.at (.loop [4, 3, 0, 8, 0, 0, 0, 1] true)) ⟨[3, 0, 8, 0, 0, 0, 1], some .closed, ⟨[4], []⟩⟩
      (.at (.done (some .closed))) ⟨[3, 0, 8, 0, 0, 0, 1], some .closed, ⟨[4], []⟩⟩ := by
    repeat (first | exact .refl _ _ | refine .head rfl ?_)
  exact ⟨_, _, _, .tail (.run (.tail .refl (.sure (.go _ _ (.lock _ 0 closeReply [] _ rfl hcall (fun _ => rfl)))))
      (i := 0) rfl r1) (.take _ 0 closeReply 4 _ _ _ rfl rfl), rfl, rfl, rfl, rfl, hcall,
    .tail .refl (.close _ rfl), rfl, rfl, rfl,
    .tail (.run (.tail (.tail (.run (.tail .refl (.sure (.abort _ 0 closeReply _ _ _ rfl rfl))) (i := 0) rfl r2)
      (.sure (.go _ _ (.unlock _ 0 [] closeReply _ _ rfl rfl))))
      (.sure (.go _ _ (.lock _ 1 closeReply [] _ rfl hcall (fun _ => rfl))))) (i := 1) rfl r3)
      (.sure (.go _ _ (.unlock _ 1 [] closeReply _ _ rfl rfl))), rfl, rfl⟩

/-- Non-vacuity: on a closed connection `Send` succeeds (the message is in the buffer) and
`Flush` fails; the peer got nothing. -/
example : ∃ s₀ s₁ s₂, NetSys.Steps ConnOp.call (.init fun i => if i = 0 then [.send closeRequest, .flush] else []) s₀ ∧
    s₀.closed = true ∧ (s₀.go.th 0).pc = none ∧ s₀.go.log = [] ∧
    NetSys.Steps ConnOp.call s₀ s₁ ∧ s₁.go.log = [(0, .send closeRequest, none)] ∧ (s₁.go.th 0).pc = none ∧
    NetSys.Steps ConnOp.call s₁ s₂ ∧
    s₂.go.log = [(0, .send closeRequest, none), (0, .flush, some .closed)] ∧ s₂.go.sh.tr.out = [] := by
  have hcall : ConnOp.call (.send closeRequest) = .inl (.write [4, 2, 0, 8, 0, 0, 0, 1]) := by rfl
  have r1 : netMachine.Runs (.at (.loop [4, 2, 0, 8, 0, 0, 0, 1] false)) ⟨[], none, ⟨[], []⟩⟩
      (.at (.done none)) ⟨[4, 2, 0, 8, 0, 0, 0, 1], none, ⟨[], []⟩⟩ := by
    repeat (first | exact .refl _ _ | refine .head rfl ?_)
  have r2 : netMachine.Runs (.at (.flush .call)) ⟨[4, 2, 0, 8, 0, 0, 0, 1], none, ⟨[], []⟩⟩
      (.net [4, 2, 0, 8, 0, 0, 0, 1] 0 (.flush .call)) ⟨[4, 2, 0, 8, 0, 0, 0, 1], none, ⟨[], []⟩⟩ := by
    repeat (first | exact .refl _ _ | refine .head rfl ?_)
  have r3 : netMachine.Runs (.at (.tx [4, 2, 0, 8, 0, 0, 0, 1] 0 (some .closed) (.flush 0 .call)))
      ⟨[4, 2, 0, 8, 0, 0, 0, 1], none, ⟨[], []⟩⟩
      (.at (.done (some .closed))) ⟨[4, 2, 0, 8, 0, 0, 0, 1], some .closed, ⟨[], []⟩⟩ := by
    repeat (first | exact .refl _ _ | refine .head rfl ?_)
  have last : ∀ s : NetSys ConnOp, s.go.mu = none → s.go.sh = ⟨[4, 2, 0, 8, 0, 0, 0, 1], none, ⟨[], []⟩⟩ →
      s.go.th 0 = ⟨[.flush], none⟩ → s.closed = true → ∃ s', NetSys.Steps ConnOp.call s s' ∧
        s'.go.log = s.go.log ++ [(0, .flush, some .closed)] ∧ s'.go.sh.tr.out = [] := by
    intro s hm hsh ht hc
    obtain ⟨⟨mu, sh, th, log⟩, cl⟩ := s
    simp only at hm hsh ht hc
    subst hm hsh hc
    have k1 := NetSys.Steps.tail (NetSys.Steps.refl (call := ConnOp.call)) (.sure (.go ⟨⟨none, ⟨[4, 2, 0, 8, 0, 0, 0, 1], none, ⟨[], []⟩⟩, th, log⟩, true⟩ _
      (.lock _ 0 ConnOp.flush [] Call.flush ht rfl (fun _ => rfl))))
    have k2 := NetSys.Steps.tail (k1.run (i := 0) rfl r2) (.sure (.abort _ 0 ConnOp.flush _ _ _ rfl rfl))
    exact ⟨_, (k2.run (i := 0) rfl r3).tail (.sure (.go _ _ (.unlock _ 0 _ _ _ _ rfl rfl))), rfl, rfl⟩
  have first : ∃ s₀ s₁, NetSys.Steps ConnOp.call (.init fun i => if i = 0 then [.send closeRequest, .flush] else []) s₀ ∧
      s₀.closed = true ∧ (s₀.go.th 0).pc = none ∧ s₀.go.log = [] ∧
      NetSys.Steps ConnOp.call s₀ s₁ ∧ s₁.go.log = [(0, .send closeRequest, none)] ∧ s₁.go.mu = none ∧
      s₁.go.sh = ⟨[4, 2, 0, 8, 0, 0, 0, 1], none, ⟨[], []⟩⟩ ∧ s₁.go.th 0 = ⟨[.flush], none⟩ ∧ s₁.closed = true :=
    ⟨_, _, .tail .refl (.close _ rfl), rfl, rfl, rfl,
      .tail (.run (.tail .refl (.sure (.go _ _ (.lock _ 0 (ConnOp.send closeRequest) [ConnOp.flush]
        (Call.write [4, 2, 0, 8, 0, 0, 0, 1]) rfl hcall (fun _ => rfl)))))
        (i := 0) rfl r1) (.sure (.go _ _ (.unlock _ 0 _ _ _ _ rfl rfl))), rfl, rfl, rfl, rfl, rfl⟩
  obtain ⟨s₀, s₁, f1, f2, f3, f4, f5, f6, f7, f8, f9, f10⟩ := first
  obtain ⟨s₂, l1, l2, l3⟩ := last s₁ f7 f8 f9 f10
  exact ⟨s₀, s₁, s₂, f1, f2, f3, f4, f5, f6, by rw [f9], l1, by rw [l2, f6]; rfl, l3⟩

/-- Non-vacuity of `close_receive`: a message and a piece were read before `Close`. -/
example : (Rd.buf [4, 2, 0, 8, 0, 0, 0, 1, 4, 3] none (.src [] [] .closed false)).Ok .closed := ⟨rfl, .inl rfl⟩

/-- C67.  `Close` does not flush: there is an execution in which `Send` returned without an
error before `Close`, and whatever happens afterwards the peer never gets the message. -/
theorem close_flushes_false : ∃ s, NetSys.Steps ConnOp.call (.init fun i => if i = 0 then [.send closeRequest] else []) s ∧
    s.closed = true ∧ s.go.log = [(0, .send closeRequest, none)] ∧
    ∀ s', NetSys.Steps ConnOp.call s s' → s'.go.sh.tr.out = [] := by
  have hcall : ConnOp.call (.send closeRequest) = .inl (.write [4, 2, 0, 8, 0, 0, 0, 1]) := by rfl
  have r1 : netMachine.Runs (.at (.loop [4, 2, 0, 8, 0, 0, 0, 1] false)) ⟨[], none, ⟨[], []⟩⟩
      (.at (.done none)) ⟨[4, 2, 0, 8, 0, 0, 0, 1], none, ⟨[], []⟩⟩ := by
    repeat (first | exact .refl _ _ | refine .head rfl ?_)
  exact ⟨_, .tail (.tail (.run (.tail .refl (.sure (.go _ _ (.lock _ 0 (ConnOp.send closeRequest) [] (Call.write [4, 2, 0, 8, 0, 0, 0, 1]) rfl hcall (fun _ => rfl)))))
      (i := 0) rfl r1) (.sure (.go _ _ (.unlock _ 0 _ _ _ _ rfl rfl)))) (.close _ rfl), rfl, rfl,
    fun s' h => (h.closed rfl).2⟩

end Verif.Props
