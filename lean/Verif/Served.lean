import Verif.Server
import Verif.CloseConc

/-!
# A served connection: bytes in, bytes out (server.go:112-142, 284-343)

`Server.lean` says when requests are received, handed to the runner and handled, but not what
is received and not what the handlers write.  Here the receiver calls `Receive` on the stream
of the peer, the handlers write to the connection, concurrently if the runner lets them, and
the deferred `Close` of the serve loop closes the connection they write to.
-/

namespace Verif

variable {ω : Type}

/-- The stream that is being read, the server's view of the connection (`Server.lean`), and the
connection that is written to (`CloseConc.lean`), where goroutine `k` executes the `k`-th
request that was handed to the runner. -/
structure Live (ω : Type) where
  rd : Rd
  srv : ConnSt
  net : NetSys ω

/-- A connection that has just been accepted, server.go:256-263. -/
def Live.init (r : Rd) : Live ω := ⟨r, .fresh, .init fun _ => []⟩

/-- Goroutine `i` starts with the operations `p`. -/
def NetSys.spawn (n : NetSys ω) (i : Nat) (p : List ω) : NetSys ω :=
  { n with go := { n.go with th := n.go.set i ⟨p, none⟩ } }

/-- A step of the server that neither reads from the connection, nor starts or ends a handler,
nor closes the connection. -/
def ConnSt.Quiet (s s' : ConnSt) : Prop :=
  s'.arrived = s.arrived ∧ (s'.rcv = .offerErr → s.rcv = .offerErr) ∧
  ∃ t, s'.trace = s.trace ++ t ∧ ∀ e ∈ t, e = .state .new ∨ e = .state .idle ∨ e = .state .closed

/-- One step.  `prog k q` is what `serveReq` does with the connection for the `k`-th request, `q`
(server.go:315-343): the operations of the handler, then `Flush`.  Simplification: these are
known when the handler starts; `Adaptive.lean` is about handlers that decide later. -/
inductive Live.Step (seq : Bool) (call : ω → Call ⊕ Option Err) (prog : Nat → Request → List ω) :
    Live ω → Live ω → Prop where
  /-- `Receive` returns a request, server.go:114 -/
  | receive (s q r') (h : s.srv.rcv = .reading) (hr : Conn.receive s.rd = (some q, none, r')) :
    Step seq call prog s
      { s with rd := r', srv := { s.srv with rcv := .offer q, arrived := s.srv.arrived ++ [q] } }
  /-- `Receive` returns an error, server.go:114 -/
  | receiveErr (s o e r') (h : s.srv.rcv = .reading) (hr : Conn.receive s.rd = (o, some e, r')) :
    Step seq call prog s { s with rd := r', srv := { s.srv with rcv := .offerErr } }
  /-- `serveReq` starts: the callback, then the handler, server.go:316-333 -/
  | begin (s a q b) (h : s.srv.tasks = a ++ (q, .pending) :: b) :
    Step seq call prog s
      { s with srv := { s.srv with tasks := a ++ (q, .active) :: b,
                                   trace := s.srv.trace ++ [.state (requestState q)] },
               net := s.net.spawn a.length (prog a.length q) }
  /-- the handler and the `Flush` after it have returned, server.go:333-337 -/
  | handled (s a q b) (h : s.srv.tasks = a ++ (q, .active) :: b)
    (hd : s.net.go.th a.length = ⟨[], none⟩) :
    Step seq call prog s
      { s with srv := { s.srv with tasks := a ++ (q, .handled) :: b,
                                   trace := s.srv.trace ++ [.handle q] } }
  /-- deferred `c.Close()` of a refused connection, server.go:273 -/
  | refuseClose (s) (h : s.srv.phase = .refused) :
    Step seq call prog s
      { s with srv := { s.srv with phase := .gone, trace := s.srv.trace ++ [.close] },
               net := { s.net with closed := true } }
  /-- deferred `c.Close()` of the serve loop, server.go:286; it does not wait for handlers -/
  | close (s) (h : s.srv.phase = .closingNet) :
    Step seq call prog s
      { s with srv := { s.srv with phase := .gone, trace := s.srv.trace ++ [.close] },
               net := { s.net with closed := true } }
  /-- a handler writes, the peer takes a byte, or the transport fails -/
  | net (s n') (st : NetSys.Step call s.net n') (hc : n'.closed = s.net.closed) :
    Step seq call prog s { s with net := n' }
  /-- everything else -/
  | other (s eff srv') (room stopped : Bool) (st : ConnSt.Step seq room stopped s.srv eff srv')
    (hq : s.srv.Quiet srv') :
    Step seq call prog s { s with srv := srv' }

/-- Zero or more steps. -/
inductive Live.Steps (seq : Bool) (call : ω → Call ⊕ Option Err) (prog : Nat → Request → List ω) (s₀ : Live ω) :
    Live ω → Prop where
  | refl : Steps seq call prog s₀ s₀
  | tail {s s'} (h : Steps seq call prog s₀ s) (st : Live.Step seq call prog s s') : Steps seq call prog s₀ s'

/-- What the goroutine of a task has been told to do. -/
def taskProg (prog : Request → List ω) : Option (Request × TaskPc) → List ω
  | none => []
  | some (_, .pending) => []
  | some (q, _) => prog q

/-- What the goroutines have been told to do. -/
def progsOf (prog : Nat → Request → List ω) (tasks : List (Request × TaskPc)) (k : Nat) : List ω :=
  taskProg (prog k) tasks[k]?

/-! ## Goroutines that start later -/

/-- Every goroutine's operations are in the log in program order. -/
theorem NetSys.order {call : ω → Call ⊕ Option Err} {progs : Nat → List ω} {s : NetSys ω}
    (h : NetSys.Steps call (.init progs) s) (i : Nat) :
    (s.go.log.filter (·.1 = i)).map (·.2.1) ++ (s.go.th i).current ++ (s.go.th i).todo = progs i := by
  obtain ⟨plan, hr⟩ := NetSys.refines call progs s h (0, some .closed) (s.valid_fail _) []
  have := (GoSys.inv connMachine_sound call (.new plan) progs _ hr).order i
  have hcur : ((s.lower (0, some .closed) []).th i).current = (s.go.th i).current := by
    simp only [NetSys.lower, GoThread.current]
    cases (s.go.th i).pc <;> rfl
  rw [hcur] at this
  exact this

theorem NetSys.idle {call : ω → Call ⊕ Option Err} {progs : Nat → List ω} {s : NetSys ω}
    (h : NetSys.Steps call (.init progs) s) (i : Nat) (hi : progs i = []) : s.go.th i = ⟨[], none⟩ := by
  have := NetSys.order h i
  rw [hi] at this
  simp only [List.append_eq_nil_iff, List.map_eq_nil_iff] at this
  obtain ⟨⟨-, h1⟩, h2⟩ := this
  cases ht : s.go.th i with
  | mk todo pc =>
    rw [ht] at h1 h2
    cases pc with
    | none => simp_all
    | some x => simp [GoThread.current] at h1

/-- A goroutine with nothing to do does nothing. -/
theorem NetSys.Step.idle {call : ω → Call ⊕ Option Err} {n n' : NetSys ω} (h : NetSys.Step call n n') {i : Nat}
    (hi : n.go.th i = ⟨[], none⟩) : n'.go.th i = ⟨[], none⟩ := by
  have key : ∀ (j : Nat) (t t' : GoThread ω NetPos), n.go.th j = t' → t' ≠ ⟨[], none⟩ → n.go.set j t i = ⟨[], none⟩ := by
    intro j t t' hj ht
    have hne : ¬ i = j := by intro he; subst he; rw [hj] at hi; exact ht hi
    simp [GoSys.set, hne, hi]
  have pc : ∀ (j : Nat) (t : GoThread ω NetPos) x, (n.go.th j).pc = some x → n.go.set j t i = ⟨[], none⟩ := by
    intro j t x hj
    exact key j t _ rfl (by intro he; rw [he] at hj; simp at hj)
  cases h with
  | close => exact hi
  | reset j op q m ctx e ht => exact pc j _ _ ht
  | take j op x q m ctx ht => exact pc j _ _ ht
  | sure h =>
    cases h with
    | abort j op q m ctx ht => exact pc j _ _ ht
    | go c' h =>
      cases h with
      | skip j op rest e ht => exact key j _ _ ht (by simp)
      | lock j op rest k ht => exact key j _ _ ht (by simp)
      | step j todo op m m' sh' ht => exact key j _ _ ht (by simp)
      | unlock j todo op m e ht => exact key j _ _ ht (by simp)

theorem GoSys.set_comm {S M R : Type} (c : GoSys ω S M R) (i j : Nat) (t u : GoThread ω M) (h : j ≠ i) (k : Nat) :
    (if k = i then u else c.set j t k) = if k = j then t else if k = i then u else c.th k := by
  simp only [GoSys.set]
  by_cases h1 : k = i
  · subst h1; rw [if_pos rfl, if_neg (Ne.symm h), if_pos rfl]
  · rw [if_neg h1, if_neg h1]

/-- The others do not notice a goroutine that is going to start. -/
theorem NetSys.Step.spawn {call : ω → Call ⊕ Option Err} {n n' : NetSys ω} (h : NetSys.Step call n n') {i : Nat}
    (hi : n.go.th i = ⟨[], none⟩) (p : List ω) : NetSys.Step call (n.spawn i p) (n'.spawn i p) := by
  have ne : ∀ (j : Nat) (t' : GoThread ω NetPos), n.go.th j = t' → t' ≠ ⟨[], none⟩ → j ≠ i := by
    intro j t' hj ht he
    subst he
    rw [hj] at hi
    exact ht hi
  have nepc : ∀ (j : Nat) x, (n.go.th j).pc = some x → j ≠ i := by
    intro j x hj
    exact ne j _ rfl (by intro he; rw [he] at hj; simp at hj)
  have th : ∀ j, j ≠ i → (n.spawn i p).go.th j = n.go.th j := fun j hj => by simp [NetSys.spawn, GoSys.set, hj]
  have at' : ∀ (j : Nat) (op : ω) (m : NetPos), j ≠ i → (n.spawn i p).go.at j op m = (NetSys.spawn ⟨n.go.at j op m, n.closed⟩ i p).go := by
    intro j op m hj
    simp only [GoSys.at, th j hj]
    simp only [NetSys.spawn, GoSys.mk.injEq, true_and, and_true]
    funext k
    simp only [GoSys.set]
    by_cases h1 : k = j
    · subst h1; simp [hj]
    · simp [h1]
  cases h with
  | close hc => exact .close (n.spawn i p) hc
  | reset j op q m ctx e ht hc =>
    have hj := nepc j _ ht
    have := NetSys.Step.reset (call := call) (n.spawn i p) j op q m ctx e (by rw [th j hj]; exact ht) hc
    rw [at' j _ _ hj] at this
    exact this
  | take j op x q m ctx ht hc =>
    have hj := nepc j _ ht
    have := NetSys.Step.take (call := call) (n.spawn i p) j op x q m ctx (by rw [th j hj]; exact ht) hc
    rw [at' j _ _ hj] at this
    exact this
  | sure h =>
    cases h with
    | abort j op q m ctx ht hc =>
      have hj := nepc j _ ht
      have := NetSys.Sure.abort (call := call) (n.spawn i p) j op q m ctx (by rw [th j hj]; exact ht) hc
      rw [at' j _ _ hj] at this
      exact .sure this
    | go c' h =>
      have set' : ∀ (j : Nat) (t : GoThread ω NetPos), j ≠ i →
          (n.spawn i p).go.set j t = fun k => if k = i then ⟨p, none⟩ else n.go.set j t k := by
        intro j t hj
        funext k
        rw [GoSys.set_comm n.go i j t ⟨p, none⟩ hj k]
        rfl
      refine .sure ?_
      cases h with
      | skip j op rest e ht hc =>
        have hj := ne j _ ht (by simp)
        have := NetSys.Sure.go (n.spawn i p) _ (.skip (n.spawn i p).go j op rest e (by rw [th j hj]; exact ht) hc)
        rw [set' j _ hj] at this
        exact this
      | lock j op rest k ht hc hm =>
        have hj := ne j _ ht (by simp)
        have := NetSys.Sure.go (n.spawn i p) _ (.lock (n.spawn i p).go j op rest k (by rw [th j hj]; exact ht) hc hm)
        rw [set' j _ hj] at this
        exact this
      | step j todo op m m' sh' ht hs =>
        have hj := ne j _ ht (by simp)
        have := NetSys.Sure.go (call := call) (n.spawn i p) _
          (.step (n.spawn i p).go j todo op m m' sh' (by rw [th j hj]; exact ht) hs)
        rw [set' j _ hj] at this
        exact this
      | unlock j todo op m e ht he =>
        have hj := ne j _ ht (by simp)
        have := NetSys.Sure.go (call := call) (n.spawn i p) _
          (.unlock (n.spawn i p).go j todo op m e (by rw [th j hj]; exact ht) he)
        rw [set' j _ hj] at this
        exact this

theorem NetSys.Steps.spawn {call : ω → Call ⊕ Option Err} {progs progs' : Nat → List ω} {n : NetSys ω}
    (h : NetSys.Steps call (.init progs) n) {i : Nat} (hi : progs i = []) (hp : ∀ j, j ≠ i → progs' j = progs j) :
    NetSys.Steps call (.init progs') (n.spawn i (progs' i)) := by
  induction h with
  | refl =>
    have : (NetSys.init progs : NetSys ω).spawn i (progs' i) = .init progs' := by
      simp only [NetSys.spawn, NetSys.init, GoSys.init, NetSys.mk.injEq, GoSys.mk.injEq, true_and, and_true]
      funext j
      simp only [GoSys.set]
      by_cases hj : j = i
      · subst hj; simp
      · simp [hj, hp j hj]
    rw [this]
    exact .refl
  | tail h st ih => exact .tail ih (st.spawn (NetSys.idle h i hi) _)

/-! ## The parts of a served connection -/

theorem progsOf_begin (prog : Nat → Request → List ω) (a b : List (Request × TaskPc)) (q : Request) :
    progsOf prog (a ++ (q, .pending) :: b) a.length = [] ∧ progsOf prog (a ++ (q, .active) :: b) a.length = prog a.length q ∧
    ∀ j, j ≠ a.length → progsOf prog (a ++ (q, .active) :: b) j = progsOf prog (a ++ (q, .pending) :: b) j := by
  refine ⟨by simp [progsOf, taskProg], by simp [progsOf, taskProg], fun j hj => ?_⟩
  simp only [progsOf]
  congr 1
  by_cases h1 : j < a.length
  · rw [List.getElem?_append_left h1, List.getElem?_append_left h1]
  · obtain ⟨d, rfl⟩ : ∃ d, j = a.length + (d + 1) := ⟨j - a.length - 1, by omega⟩
    rw [List.getElem?_append_right (by omega), List.getElem?_append_right (by omega)]
    simp

theorem progsOf_same (prog : Nat → Request → List ω) (a b : List (Request × TaskPc)) (q : Request) (x y : TaskPc)
    (hx : x ≠ .pending) (hy : y ≠ .pending) :
    progsOf prog (a ++ (q, x) :: b) = progsOf prog (a ++ (q, y) :: b) := by
  funext j
  simp only [progsOf]
  by_cases h1 : j < a.length
  · rw [List.getElem?_append_left h1, List.getElem?_append_left h1]
  · rw [List.getElem?_append_right (by omega), List.getElem?_append_right (by omega)]
    cases j - a.length with
    | zero => cases x <;> cases y <;> simp_all [taskProg]
    | succ d => simp

theorem progsOf_deliver (prog : Nat → Request → List ω) (a : List (Request × TaskPc)) (q : Request) :
    progsOf prog (a ++ [(q, .pending)]) = progsOf prog a := by
  funext j
  simp only [progsOf]
  by_cases h1 : j < a.length
  · rw [List.getElem?_append_left h1]
  · rw [List.getElem?_append_right (by omega), List.getElem?_eq_none (by omega : a.length ≤ j)]
    cases j - a.length with
    | zero => simp [taskProg]
    | succ d => simp [taskProg]

/-- The server's part is a connection of `Server.lean`. -/
theorem Live.srv_reach {seq : Bool} {call : ω → Call ⊕ Option Err} {prog : Nat → Request → List ω} {r : Rd} {s : Live ω}
    (h : Live.Steps seq call prog (.init r) s) : ConnSt.Reach seq s.srv := by
  induction h with
  | refl => exact .init
  | @tail s s' _ st ih =>
    cases st with
    | receive q r' h hr => exact .tail true true ih (.receive _ q h)
    | receiveErr o e r' h hr => exact .tail true true ih (.receiveErr _ h)
    | begin a q b h => exact .tail true true ih (.taskActive _ a q b h)
    | handled a q b h hd => exact .tail true true ih (.taskHandle _ a q b h)
    | refuseClose h => exact .tail true true ih (.refuseClose _ h)
    | close h => exact .tail true true ih (.closeNet _ h)
    | net n' st hc => exact ih
    | other eff srv' room stopped st hq => exact .tail room stopped ih st

end Verif
