import Verif.Served

/-!
# Handlers that look at the results of their writes (server.go:315-343)

In `Served.lean` the operations of a handler are a list that is known when it starts.  Here a
handler decides on its next operation when the last one has returned: it may look at the error
of that operation, as the handlers of examples/ and of the package do, at what the other
handlers of the connection have done, or at something the model does not contain.
-/

namespace Verif

variable {ω : Type}

/-- A handler (server.go:24-26) that looks at the errors that its own calls of
`ResponseWriter.Write` (server.go:14-17) and of the connection return, and at nothing else. -/
inductive Prog (ω : Type) where
  | done
  | op (o : ω) (k : Option Err → Prog ω)

/-- What a handler is about to do inside `h.Serve`, server.go:333. -/
def Prog.next : Prog ω → Option ω
  | .done => none
  | .op o _ => some o

/-- The rest of a handler (server.go:333), when its operations have returned `es`. -/
def Prog.after : Prog ω → List (Option Err) → Prog ω
  | p, [] => p
  | .done, _ => .done
  | .op _ k, e :: es => (k e).after es

/-- A handler that performs some operations and ignores what they return, as
ofputil/handler.go:14-64 do. -/
def Prog.ofList : List ω → Prog ω
  | [] => .done
  | o :: l => .op o fun _ => ofList l

/-- The operations of a handler none of whose operations fails on the connection; those that do
not get as far as the connection (`call o = .inr e`) return what they return. -/
def Prog.path (call : ω → Call ⊕ Option Err) : Prog ω → List ω
  | .done => []
  | .op o k => o :: (k (match call o with | .inl _ => none | .inr e => e)).path call

/-- What handlers may do inside `h.Serve` (server.go:333): `may k q log x` says that the handler of the `k`-th request, `q`, may
perform the operation `x` next, or return if `x` is `none`, when the operations on the
connection so far are `log`. -/
abbrev May (ω : Type) := Nat → Request → List (Nat × ω × Option Err) → Option ω → Prop

/-- What the operations of the `k`-th handler have returned, server.go:333. -/
def ownResults (k : Nat) (log : List (Nat × ω × Option Err)) : List (Option Err) :=
  (log.filter (·.1 = k)).map (·.2.2)

/-- Handlers (server.go:24-26) that look at the results of their own operations only. -/
def mayOf (T : Request → Prog ω) : May ω := fun k q log x => ((T q).after (ownResults k log)).next = x

/-- A served connection, and the handlers that have returned (server.go:333). -/
structure Act (ω : Type) where
  live : Live ω
  ret : Nat → Bool

/-- A connection that has just been accepted, server.go:256-263. -/
def Act.init (r : Rd) : Act ω := ⟨.init r, fun _ => false⟩

/-- One step.  `fin` is the operation of `serveReq` after the handler: `c.Flush()`. -/
inductive Act.Step (seq : Bool) (call : ω → Call ⊕ Option Err) (may : May ω) (fin : ω) : Act ω → Act ω → Prop where
  /-- a handler starts an operation, server.go:333 -/
  | issue (s a q b o) (h : s.live.srv.tasks = a ++ (q, .active) :: b) (hd : s.live.net.go.th a.length = ⟨[], none⟩)
    (hr : s.ret a.length = false) (hm : may a.length q s.live.net.go.log (some o)) :
    Step seq call may fin s { s with live := { s.live with net := s.live.net.spawn a.length [o] } }
  /-- a handler returns and `serveReq` starts `c.Flush()`, server.go:333-337 -/
  | ret (s a q b) (h : s.live.srv.tasks = a ++ (q, .active) :: b) (hd : s.live.net.go.th a.length = ⟨[], none⟩)
    (hr : s.ret a.length = false) (hm : may a.length q s.live.net.go.log none) :
    Step seq call may fin s
      ⟨{ s.live with net := s.live.net.spawn a.length [fin] }, fun k => if k = a.length then true else s.ret k⟩
  /-- everything else, as in `Served.lean`; `serveReq` gets to server.go:342 when the handler and
  `c.Flush()` have returned -/
  | live (s l') (st : Live.Step seq call (fun _ _ => []) s.live l')
    (hr : ∀ (k : Nat) (q : Request), s.live.srv.tasks[k]? = some (q, .active) → l'.srv.tasks[k]? = some (q, .handled) →
      s.ret k = true) :
    Step seq call may fin s { s with live := l' }

/-- Zero or more steps. -/
inductive Act.Steps (seq : Bool) (call : ω → Call ⊕ Option Err) (may : May ω) (fin : ω) (s₀ : Act ω) : Act ω → Prop where
  | refl : Steps seq call may fin s₀ s₀
  | tail {s s'} (h : Steps seq call may fin s₀ s) (st : Act.Step seq call may fin s s') : Steps seq call may fin s₀ s'

/-! ## More operations for a goroutine that has not ended -/

/-- The goroutines have `f` to do after what they have to do. -/
def NetSys.push (n : NetSys ω) (f : Nat → List ω) : NetSys ω :=
  { n with go := { n.go with th := fun k => ⟨(n.go.th k).todo ++ f k, (n.go.th k).pc⟩ } }

theorem NetSys.push_nil (n : NetSys ω) : n.push (fun _ => []) = n := by
  simp [NetSys.push]

theorem NetSys.Step.push {call : ω → Call ⊕ Option Err} {n n' : NetSys ω} (h : NetSys.Step call n n')
    (f : Nat → List ω) : NetSys.Step call (n.push f) (n'.push f) := by
  have th : ∀ (j : Nat) (todo : List ω) (pc : Option (ω × NetPos)), n.go.th j = ⟨todo, pc⟩ →
      (n.push f).go.th j = ⟨todo ++ f j, pc⟩ := fun j todo pc hj => by simp [NetSys.push, hj]
  have hpc : ∀ j, ((n.push f).go.th j).pc = (n.go.th j).pc := fun j => rfl
  have set' : ∀ (j : Nat) (t : GoThread ω NetPos), (n.push f).go.set j ⟨t.todo ++ f j, t.pc⟩ =
      fun k => ⟨(n.go.set j t k).todo ++ f k, (n.go.set j t k).pc⟩ := by
    intro j t
    funext k
    simp only [GoSys.set]
    by_cases hk : k = j
    · subst hk; simp
    · simp [hk, NetSys.push]
  have at' : ∀ (j : Nat) (op : ω) (m : NetPos),
      (n.push f).go.at j op m = (NetSys.push ⟨n.go.at j op m, n.closed⟩ f).go := by
    intro j op m
    have := set' j ⟨(n.go.th j).todo, some (op, m)⟩
    simp only [GoSys.at]
    simp only [NetSys.push] at this ⊢
    rw [this]
  cases h with
  | close hc => exact .close (n.push f) hc
  | reset j op q m ctx e ht hc =>
    have := NetSys.Step.reset (call := call) (n.push f) j op q m ctx e ht hc
    rw [at' j] at this
    exact this
  | take j op x q m ctx ht hc =>
    have := NetSys.Step.take (call := call) (n.push f) j op x q m ctx ht hc
    rw [at' j] at this
    exact this
  | sure h =>
    refine .sure ?_
    cases h with
    | abort j op q m ctx ht hc =>
      have := NetSys.Sure.abort (call := call) (n.push f) j op q m ctx ht hc
      rw [at' j] at this
      exact this
    | go c' h =>
      cases h with
      | skip j op rest e ht hc =>
        have := NetSys.Sure.go (n.push f) _ (.skip (n.push f).go j op (rest ++ f j) e (th j _ _ ht) hc)
        rw [set' j ⟨rest, none⟩] at this
        exact this
      | lock j op rest k ht hc hm =>
        have := NetSys.Sure.go (n.push f) _ (.lock (n.push f).go j op (rest ++ f j) k (th j _ _ ht) hc hm)
        rw [set' j ⟨rest, _⟩] at this
        exact this
      | step j todo op m m' sh' ht hs =>
        have := NetSys.Sure.go (call := call) (n.push f) _ (.step (n.push f).go j (todo ++ f j) op m m' sh' (th j _ _ ht) hs)
        rw [set' j ⟨todo, _⟩] at this
        exact this
      | unlock j todo op m e ht he =>
        have := NetSys.Sure.go (call := call) (n.push f) _ (.unlock (n.push f).go j (todo ++ f j) op m e (th j _ _ ht) he)
        rw [set' j ⟨todo, _⟩] at this
        exact this

/-- The goroutines that have started have `f` to do after what they have to do. -/
def Live.push (s : Live ω) (f : Nat → List ω) : Live ω :=
  { s with net := s.net.push (progsOf (fun k _ => f k) s.srv.tasks) }

/-- How far a request is. -/
def TaskPc.rank : TaskPc → Nat
  | .pending => 0
  | .active => 1
  | .handled => 2
  | .done => 3

private theorem tasks_at (a b : List (Request × TaskPc)) (q q' : Request) (x y pc : TaskPc) (hxy : x.rank ≤ y.rank) (k : Nat)
    (h : (a ++ (q, x) :: b)[k]? = some (q', pc)) :
    ∃ pc', (a ++ (q, y) :: b)[k]? = some (q', pc') ∧ pc.rank ≤ pc'.rank := by
  by_cases h1 : k < a.length
  · rw [List.getElem?_append_left h1] at h ⊢
    exact ⟨pc, h, Nat.le_refl _⟩
  · rw [List.getElem?_append_right (by omega)] at h ⊢
    cases hd : k - a.length with
    | zero =>
      rw [hd] at h
      simp only [List.getElem?_cons_zero, Option.some.injEq, Prod.mk.injEq] at h ⊢
      obtain ⟨rfl, rfl⟩ := h
      exact ⟨y, ⟨rfl, rfl⟩, hxy⟩
    | succ d =>
      rw [hd] at h
      simp only [List.getElem?_cons_succ] at h ⊢
      exact ⟨pc, h, Nat.le_refl _⟩

/-- Requests do not change and do not go back. -/
theorem ConnSt.Step.rank {seq room stopped : Bool} {s s' : ConnSt} {eff : Effect} (st : ConnSt.Step seq room stopped s eff s')
    (k : Nat) (q : Request) (pc : TaskPc) (h : s.tasks[k]? = some (q, pc)) :
    ∃ pc', s'.tasks[k]? = some (q, pc') ∧ pc.rank ≤ pc'.rank := by
  cases st with
  | deliver q' hp hq =>
    refine ⟨pc, ?_, Nat.le_refl _⟩
    have : k < s.tasks.length := by
      have := List.getElem?_eq_some_iff.mp h
      exact this.1
    show (s.tasks ++ _)[k]? = _
    rw [List.getElem?_append_left this]
    exact h
  | taskActive a q' b ht => rw [ht] at h; exact tasks_at a b q' q .pending .active pc (by decide) k h
  | taskHandle a q' b ht => rw [ht] at h; exact tasks_at a b q' q .active .handled pc (by decide) k h
  | taskDone a q' b ht => rw [ht] at h; exact tasks_at a b q' q .handled .done pc (by decide) k h
  | _ => exact ⟨pc, h, Nat.le_refl _⟩

theorem Live.Step.rank {seq : Bool} {call : ω → Call ⊕ Option Err} {prog : Nat → Request → List ω} {s s' : Live ω}
    (st : Live.Step seq call prog s s') (k : Nat) (q : Request) (pc : TaskPc) (h : s.srv.tasks[k]? = some (q, pc)) :
    ∃ pc', s'.srv.tasks[k]? = some (q, pc') ∧ pc.rank ≤ pc'.rank := by
  cases st with
  | begin a q' b ht => rw [ht] at h; exact tasks_at a b q' q .pending .active pc (by decide) k h
  | handled a q' b ht hd => rw [ht] at h; exact tasks_at a b q' q .active .handled pc (by decide) k h
  | other eff srv' room stopped st hq => exact st.rank k q pc h
  | _ => exact ⟨pc, h, Nat.le_refl _⟩

/-- A step of the server that does not start a handler: who has started does not change. -/
theorem ConnSt.Step.progsOf {seq room stopped : Bool} {s s' : ConnSt} {eff : Effect}
    (st : ConnSt.Step seq room stopped s eff s') (hq : s.Quiet s') (prog : Nat → Request → List ω) :
    progsOf prog s'.tasks = progsOf prog s.tasks := by
  obtain ⟨hq1, hq2, t, hq3, hq4⟩ := hq
  cases st with
  | taskActive a q b h =>
    have := hq4 (.state (requestState q)) (by
      have := List.append_cancel_left hq3; rw [← this]; simp)
    simp [requestState] at this
    split at this <;> simp at this
  | taskHandle a q b h =>
    have := hq4 (.handle q) (by have := List.append_cancel_left hq3; rw [← this]; simp)
    simp at this
  | deliver q h hr => exact progsOf_deliver prog s.tasks q
  | taskDone a q b h =>
    rw [h]
    exact progsOf_same prog a b q .done .handled (by simp) (by simp)
  | _ => rfl

/-- Handlers that have not returned may have had more to do from the beginning. -/
theorem Live.Step.push {seq : Bool} {call : ω → Call ⊕ Option Err} {prog : Nat → Request → List ω} {s s' : Live ω}
    (st : Live.Step seq call prog s s') (f : Nat → List ω)
    (hf : ∀ (k : Nat) (q : Request) (pc : TaskPc), s'.srv.tasks[k]? = some (q, pc) → 2 ≤ pc.rank → f k = []) :
    Live.Step seq call (fun k q => prog k q ++ f k) (s.push f) (s'.push f) := by
  cases st with
  | receive q r' h hr => exact .receive (s.push f) q r' h hr
  | receiveErr o e r' h hr => exact .receiveErr (s.push f) o e r' h hr
  | refuseClose h => exact .refuseClose (s.push f) h
  | close h => exact .close (s.push f) h
  | net n' st hc => exact .net (s.push f) _ (st.push _) hc
  | other eff srv' room stopped st hq =>
    have := Live.Step.other (seq := seq) (call := call) (prog := fun k q => prog k q ++ f k) (s.push f) eff srv' room stopped st hq
    simp only [Live.push] at this ⊢
    rw [st.progsOf hq]
    exact this
  | handled a q b h hd =>
    have h0 : f a.length = [] := hf a.length q .handled (by simp) (by decide)
    have := Live.Step.handled (seq := seq) (call := call) (prog := fun k q => prog k q ++ f k) (s.push f) a q b h (by
      simp [Live.push, NetSys.push, hd, h, progsOf, taskProg, h0])
    simp only [Live.push] at this ⊢
    rw [progsOf_same _ a b q .handled .active (by simp) (by simp), ← h]
    exact this
  | begin a q b h =>
    have := Live.Step.begin (seq := seq) (call := call) (prog := fun k q => prog k q ++ f k) (s.push f) a q b h
    simp only [Live.push] at this ⊢
    have he : (s.net.spawn a.length (prog a.length q)).push (progsOf (fun k _ => f k) (a ++ (q, .active) :: b)) =
        (s.net.push (progsOf (fun k _ => f k) s.srv.tasks)).spawn a.length (prog a.length q ++ f a.length) := by
      obtain ⟨_, p2, p3⟩ := progsOf_begin (fun k _ => f k) a b q
      simp only [NetSys.push, NetSys.spawn, NetSys.mk.injEq, GoSys.mk.injEq, true_and, and_true]
      funext k
      simp only [GoSys.set]
      by_cases hk : k = a.length
      · subst hk; simp [p2]
      · simp [hk, p3 k hk, h]
    rw [he]
    exact this

/-- Only handlers that start look at their programs. -/
theorem Live.Step.congr {seq : Bool} {call : ω → Call ⊕ Option Err} {prog prog' : Nat → Request → List ω} {s s' : Live ω}
    (st : Live.Step seq call prog s s')
    (hf : ∀ (k : Nat) (q : Request), s'.srv.tasks[k]? = some (q, .active) → s.srv.tasks[k]? = some (q, .pending) → prog' k q = prog k q) :
    Live.Step seq call prog' s s' := by
  cases st with
  | receive q r' h hr => exact .receive s q r' h hr
  | receiveErr o e r' h hr => exact .receiveErr s o e r' h hr
  | refuseClose h => exact .refuseClose s h
  | close h => exact .close s h
  | net n' st hc => exact .net s _ st hc
  | other eff srv' room stopped st hq => exact .other s eff srv' room stopped st hq
  | handled a q b h hd => exact .handled s a q b h hd
  | begin a q b h =>
    have := Live.Step.begin (seq := seq) (call := call) (prog := prog') s a q b h
    rw [hf a.length q (by simp) (by simp [h])] at this
    exact this

end Verif
