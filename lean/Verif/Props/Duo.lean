import Verif.Props.ControllerAny

/-!
# C75: two programs that talk to each other

Both ends of a connection use this library: each end receives (`Conn.receive`), dispatches and
answers.  Model: two byte streams, and at each end the requests whose handlers have not run.
-/

namespace Verif.Props

open Verif

/-- Two ends, `true` and `false`.  `wire x`: the bytes under way to `x`; `tasks x`: the requests
received by `x` (server.go:296-302) whose handlers have not run; `got x`: all requests that `x`
has received (history). -/
structure Duo where
  wire : Bool → Bytes
  tasks : Bool → List Request
  got : Bool → List Request

/-- `f` with another value at `x`. -/
def upd {α : Type} (f : Bool → α) (x : Bool) (a : α) : Bool → α := fun y => if y = x then a else f y

/-- One step of two connected ends with the handlers `ops true` and `ops false`.  Simplifications:
the connection stays open and does not fail (C68 for what happens otherwise), and what a handler
writes reaches the wire at once, when it has run and `serveReq` has flushed (server.go:332-337;
the messages of concurrent handlers do not mix, C09). -/
inductive Duo.Step (ops : Bool → Request → List ConnOp) : Duo → Duo → Prop where
  /-- `Receive` returns a request, server.go:112-122, from a transport with any fragmentation -/
  | receive (s) (x : Bool) (F : Err) (r r' : Rd) (q : Request) (hr : r.Ok F) (hs : r.Sep)
    (hc : r.content = s.wire x) (h : Conn.receive r = (some q, none, r')) :
    Step ops s ⟨upd s.wire x r'.content, upd s.tasks x (s.tasks x ++ [q]), upd s.got x (s.got x ++ [q])⟩
  /-- the handler of any of the requests runs, server.go:315-343 -/
  | handle (s) (x : Bool) (a b : List Request) (q : Request) (h : s.tasks x = a ++ q :: b) :
    Step ops s ⟨upd s.wire (!x) (s.wire (!x) ++ (ops x q).flatMap ConnOp.message), upd s.tasks x (a ++ b), s.got⟩

/-- Executions of `n` steps. -/
inductive Duo.Run (ops : Bool → Request → List ConnOp) (s : Duo) : Nat → Duo → Prop where
  | zero : Run ops s 0 s
  | succ {n s' s''} (h : Run ops s n s') (st : Duo.Step ops s' s'') : Run ops s (n + 1) s''

/-- The program of each end has sent the messages `qs (!x)` to the other one. -/
def Duo.start (qs : Bool → List (Request × Bytes)) : Duo := ⟨fun x => serialise ((qs x).map (·.1)), fun _ => [], fun _ => []⟩

/-- Messages that can be sent. -/
def Sendable (p : Request × Bytes) : Prop := p.1.body.Yields p.2 ∧ 8 + p.2.length ≤ 65535

/-- Handlers that answer a request with at most one message. -/
def Answering (ops : Request → List ConnOp) (ans : Request × Bytes → Option (Request × Bytes)) : Prop :=
  ∀ p, Sendable p → (∀ op ∈ ops (asReceived p), GoodReply op) ∧
    (ops (asReceived p)).filterMap opAnswer = (ans p).toList

section

variable {ops : Bool → Request → List ConnOp} {ans : Bool → Request × Bytes → Option (Request × Bytes)}

/-- The messages behind a state. -/
private structure Msgs where
  wire : Bool → List (Request × Bytes)
  tasks : Bool → List (Request × Bytes)
  got : Bool → List (Request × Bytes)
  handled : Bool → List (Request × Bytes)

private structure Msgs.Of (m : Msgs) (s : Duo) : Prop where
  wire : ∀ x, s.wire x = serialise ((m.wire x).map (·.1))
  tasks : ∀ x, s.tasks x = (m.tasks x).map asReceived
  got : ∀ x, s.got x = (m.got x).map asReceived
  okw : ∀ x, ∀ p ∈ m.wire x, Sendable p
  okt : ∀ x, ∀ p ∈ m.tasks x, Sendable p

private inductive Msgs.Step (ans : Bool → Request × Bytes → Option (Request × Bytes)) : Msgs → Msgs → Prop where
  | receive (m : Msgs) (x p l) (h : m.wire x = p :: l) :
    Step ans m ⟨upd m.wire x l, upd m.tasks x (m.tasks x ++ [p]), upd m.got x (m.got x ++ [p]), m.handled⟩
  | handle (m : Msgs) (x p a b) (h : m.tasks x = a ++ p :: b) :
    Step ans m ⟨upd m.wire (!x) (m.wire (!x) ++ (ans x p).toList), upd m.tasks x (a ++ b), m.got,
      upd m.handled x (m.handled x ++ [p])⟩

private theorem receive_one {p : Request × Bytes} {l : List (Request × Bytes)} (h : ∀ a ∈ p :: l, Sendable a)
    {F : Err} {r : Rd} (hr : r.Ok F) (hs : r.Sep) (hc : r.content = serialise ((p :: l).map (·.1))) :
    ∃ r', Conn.receive r = (some (asReceived p), none, r') ∧ r'.content = serialise (l.map (·.1)) := by
  have e : p :: l = [p] ++ l := rfl
  rw [e, serialise_append [p] l (fun a ha => h a (by simp at ha; simp [ha])) fun a ha => h a (by simp [ha])] at hc
  obtain ⟨g1, g2, _⟩ := stream_framing F [p] (fun a ha => h a (by simp at ha; simp [ha])) r _ hr hs hc
  simp only [List.length_singleton, receiveN, List.map_cons, List.map_nil, List.cons.injEq, and_true] at g1 g2
  refine ⟨(Conn.receive r).2.2, ?_, g2⟩
  rw [Prod.mk.injEq] at g1
  exact Prod.ext g1.1 (Prod.ext g1.2 rfl)

private theorem receive_none {F : Err} {r r' : Rd} {q : Request} (hr : r.Ok F) (hs : r.Sep) (hc : r.content = [])
    (h : Conn.receive r = (some q, none, r')) : False := by
  obtain ⟨_, _, g⟩ := stream_framing F [] (by simp) r [] hr hs (by rw [hc]; rfl)
  obtain ⟨r'', g⟩ := g rfl
  simp only [List.length_nil, receiveN] at g
  rw [h] at g
  simp at g

private theorem msgs_step (ha : ∀ x, Answering (ops x) (ans x)) {s s' : Duo} {m : Msgs} (hm : m.Of s)
    (st : Duo.Step ops s s') : ∃ m', Msgs.Step ans m m' ∧ m'.Of s' := by
  cases st with
  | receive x F r r' q hr hs hc h =>
    cases hw : m.wire x with
    | nil =>
      exfalso
      refine receive_none hr hs ?_ h
      rw [hc, hm.wire, hw]; rfl
    | cons p l =>
      have ok : ∀ a ∈ p :: l, Sendable a := by rw [← hw]; exact hm.okw x
      obtain ⟨r'', g1, g2⟩ := receive_one ok hr hs (by rw [hc, hm.wire, hw])
      rw [h] at g1
      simp only [Prod.mk.injEq, Option.some.injEq, true_and] at g1
      obtain ⟨rfl, rfl⟩ := g1
      refine ⟨_, .receive m x p l hw, ⟨?_, ?_, ?_, ?_, ?_⟩⟩ <;> intro y <;> simp only [upd] <;> split
      · exact g2
      · exact hm.wire y
      · rw [hm.tasks]; simp
      · exact hm.tasks y
      · rw [hm.got]; simp
      · exact hm.got y
      · exact fun a ha => ok a (by simp [ha])
      · exact hm.okw y
      · intro a ha
        rcases List.mem_append.mp ha with ha | ha
        · exact hm.okt x a ha
        · exact ok a (by simp at ha; simp [ha])
      · exact hm.okt y
  | handle x a b q h =>
    rw [hm.tasks] at h
    obtain ⟨ta, tb, h1, h2, h3⟩ := List.map_eq_append_iff.mp h
    obtain ⟨p, tb', rfl, rfl, h5⟩ := List.map_eq_cons_iff.mp h3
    have okp : Sendable p := hm.okt x p (by rw [h1]; simp)
    obtain ⟨g1, g2⟩ := ha x p okp
    obtain ⟨g3, g4⟩ := good_replies _ g1
    rw [g2] at g3 g4
    refine ⟨_, .handle m x p ta tb' h1, ⟨?_, ?_, ?_, ?_, ?_⟩⟩
    · intro y; simp only [upd]; split
      · rw [g3, hm.wire, serialise_append _ _ (hm.okw _) g4]
      · exact hm.wire y
    · intro y; simp only [upd]; split
      · rw [← h2, ← h5]; simp
      · exact hm.tasks y
    · exact hm.got
    · intro y; simp only [upd]; split
      · intro a ha
        rcases List.mem_append.mp ha with ha | ha
        · exact hm.okw _ a ha
        · exact g4 a ha
      · exact hm.okw y
    · intro y; simp only [upd]; split
      · intro a ha
        refine hm.okt x a ?_
        rw [h1]
        rcases List.mem_append.mp ha with ha | ha
        · simp [ha]
        · simp [ha]
      · exact hm.okt y

private theorem duo_step (F : Err) {s : Duo} {m m' : Msgs} (hm : m.Of s)
    (st : Msgs.Step ans m m') : ∃ s', Duo.Step ops s s' := by
  cases st with
  | receive x p l h =>
    let r : Rd := .src (s.wire x) [] F false
    obtain ⟨r', g1, g2⟩ := receive_one (F := F) (r := r) (by rw [← h]; exact hm.okw x) (by simp [r, Rd.Ok])
      (by simp [r, Rd.Sep]) (by show s.wire x = _; rw [hm.wire, h])
    exact ⟨_, .receive s x F r r' _ (by simp [r, Rd.Ok]) (by simp [r, Rd.Sep]) rfl g1⟩
  | handle x p a b h =>
    exact ⟨_, .handle s x (a.map asReceived) (b.map asReceived) (asReceived p) (by rw [hm.tasks, h]; simp)⟩

private inductive Msgs.Run (ans : Bool → Request × Bytes → Option (Request × Bytes)) (m : Msgs) : Nat → Msgs → Prop where
  | zero : Run ans m 0 m
  | succ {n m' m''} (h : Run ans m n m') (st : Msgs.Step ans m' m'') : Run ans m (n + 1) m''

private def Msgs.start (qs : Bool → List (Request × Bytes)) : Msgs := ⟨qs, fun _ => [], fun _ => [], fun _ => []⟩

private theorem run_msgs (ha : ∀ x, Answering (ops x) (ans x)) {qs : Bool → List (Request × Bytes)}
    (hq : ∀ x, ∀ p ∈ qs x, Sendable p) {n : Nat} {s : Duo} (h : Duo.Run ops (.start qs) n s) :
    ∃ m, Msgs.Run ans (.start qs) n m ∧ m.Of s := by
  induction h with
  | zero => exact ⟨_, .zero, ⟨fun _ => rfl, fun _ => rfl, fun _ => rfl, hq, by simp [Msgs.start]⟩⟩
  | succ _ st ih =>
    obtain ⟨m, h1, h2⟩ := ih
    obtain ⟨m', h3, h4⟩ := msgs_step ha h2 st
    exact ⟨m', .succ h1 h3, h4⟩

private theorem msgs_kept {qs : Bool → List (Request × Bytes)} {n : Nat} {m : Msgs} (h : Msgs.Run ans (.start qs) n m) :
    (∀ x, m.got x ++ m.wire x = qs x ++ (m.handled (!x)).filterMap (ans (!x))) ∧
      ∀ x, (m.handled x ++ m.tasks x).Perm (m.got x) := by
  induction h with
  | zero => exact ⟨fun x => by simp [Msgs.start], fun x => .refl _⟩
  | succ _ st ih =>
    obtain ⟨i1, i2⟩ := ih
    cases st with
    | receive x p l h =>
      refine ⟨fun y => ?_, fun y => ?_⟩ <;> simp only [upd] <;> split
      · next e => subst e; rw [← i1, h]; simp
      · exact i1 y
      · next e => subst e; rw [← List.append_assoc]; exact (i2 y).append_right _
      · exact i2 y
    | handle x p a b h =>
      refine ⟨fun y => ?_, fun y => ?_⟩ <;> simp only [upd]
      · by_cases e : y = !x
        · subst e
          rw [if_pos rfl, if_pos (by simp), ← List.append_assoc, i1, Bool.not_not, List.filterMap_append, List.append_assoc]
          cases hp : ans x p <;> simp [hp]
        · rw [if_neg e, if_neg (fun h' => e (by rw [← h', Bool.not_not]))]
          exact i1 y
      · split
        · next e =>
          subst e
          refine .trans ?_ (i2 y)
          rw [h, List.append_assoc]
          refine .append_left _ ?_
          simpa using List.perm_middle.symm
        · exact i2 y

private def weights (W : Bool → Request × Bytes → Nat) (m : Msgs) (x : Bool) : Nat :=
  ((m.wire x).map fun p => W x p + 1).sum + ((m.tasks x).map (W x)).sum

private theorem weights_run {W : Bool → Request × Bytes → Nat}
    (hW : ∀ x p, 1 + ((ans x p).toList.map fun a => W (!x) a + 1).sum ≤ W x p)
    {qs : Bool → List (Request × Bytes)} {n : Nat} {m : Msgs} (h : Msgs.Run ans (.start qs) n m) :
    n + (weights W m true + weights W m false) ≤ weights W (.start qs) true + weights W (.start qs) false := by
  induction h with
  | zero => omega
  | succ _ st ih =>
    refine Nat.le_trans ?_ ih
    cases st with
    | receive x p l h => cases x <;> simp [weights, upd, h] <;> omega
    | handle x p a b h =>
      have := hW x p
      cases x <;> simp [weights, upd, h] at this ⊢ <;> omega

/-- C75.  Two ends whose answers are not answered: every execution is finite, with at most four
steps for each message that the two programs have sent; and when nothing can happen any more, each
end has received what the other one has sent and the answers to what it has sent itself, each
once, and nothing else. -/
theorem exchange_ends (ha : ∀ x, Answering (ops x) (ans x)) (hne : ∀ x p a, ans x p = some a → ans (!x) a = none)
    (qs : Bool → List (Request × Bytes)) (hq : ∀ x, ∀ p ∈ qs x, Sendable p) (n : Nat) (s : Duo)
    (h : Duo.Run ops (.start qs) n s) :
    n ≤ 4 * ((qs true).length + (qs false).length) ∧
      ((∀ s', ¬ Duo.Step ops s s') → ∀ x, s.wire x = [] ∧ s.tasks x = [] ∧
        ∃ G : List (Request × Bytes), s.got x = G.map asReceived ∧
          G.Perm (qs x ++ (qs (!x)).filterMap (ans (!x)))) := by
  obtain ⟨m, h1, h2⟩ := run_msgs ha hq h
  refine ⟨?_, fun hf => ?_⟩
  · have hw := weights_run (W := fun x p => if (ans x p).isSome then 3 else 1) (by
      intro x p
      cases hp : ans x p with
      | none => simp
      | some a => simp [hne x p a hp]) h1
    have hb : ∀ x, ∀ l : List (Request × Bytes), (l.map fun p => (if (ans x p).isSome then 3 else 1) + 1).sum ≤ 4 * l.length := by
      intro x l
      induction l with
      | nil => simp
      | cons p l ih => simp only [List.map_cons, List.sum_cons, List.length_cons]; split <;> omega
    have b1 := hb true (qs true)
    have b2 := hb false (qs false)
    simp only [weights, Msgs.start, List.map_nil, List.sum_nil] at hw
    omega
  · have hw : ∀ x, m.wire x = [] := by
      intro x
      cases hx : m.wire x with
      | nil => rfl
      | cons p l =>
        obtain ⟨s', st⟩ := duo_step (ops := ops) .eof h2 (.receive (ans := ans) m x p l hx)
        exact absurd st (hf s')
    have ht : ∀ x, m.tasks x = [] := by
      intro x
      cases hx : m.tasks x with
      | nil => rfl
      | cons p l =>
        obtain ⟨s', st⟩ := duo_step (ops := ops) .eof h2 (.handle (ans := ans) m x p [] l hx)
        exact absurd st (hf s')
    obtain ⟨k1, k2⟩ := msgs_kept h1
    intro x
    refine ⟨by rw [h2.wire, hw]; rfl, by rw [h2.tasks, ht]; rfl, m.got x, h2.got x, ?_⟩
    have e := k1 x
    rw [hw, List.append_nil] at e
    rw [e]
    refine .append_left _ ?_
    have p1 := k2 (!x)
    rw [ht, List.append_nil] at p1
    refine (p1.filterMap _).trans ?_
    have e2 := k1 (!x)
    rw [hw, List.append_nil, Bool.not_not] at e2
    rw [e2, List.filterMap_append]
    have : (((m.handled x).filterMap (ans x)).filterMap (ans (!x))) = [] := by
      rw [List.filterMap_eq_nil_iff]
      intro a h'
      obtain ⟨p, _, hp⟩ := List.mem_filterMap.mp h'
      exact hne x p a hp
    rw [this, List.append_nil]

/-! ## Hellos -/

private def isHello (p : Request × Bytes) : Bool := p.1.header.type = 0

private def hellos (m : Msgs) (x : Bool) : Nat := (m.wire x).countP isHello + (m.tasks x).countP isHello

private def W0 (p : Request × Bytes) : Nat := if p.1.header.type = 0 then 0 else if p.1.header.type = 2 then 3 else 1

private def W1 (p : Request × Bytes) : Nat := if p.1.header.type = 0 then 0 else if p.1.header.type = 2 then 4 else 2

private def rest (m : Msgs) (x : Bool) : Nat := ((m.wire x).map W1).sum + ((m.tasks x).map W0).sum

private theorem storm_run (v : Bool → UInt8) {qs : Bool → List (Request × Bytes)} {n : Nat} {m : Msgs}
    (h : Msgs.Run (fun x => expected (v x)) (.start qs) n m) :
    hellos m true + hellos m false = (qs true).countP isHello + (qs false).countP isHello ∧
    n + (rest m true + rest m false) + ((m.tasks true).countP isHello + (m.tasks false).countP isHello) ≤
      ((qs true).map W1).sum + ((qs false).map W1).sum + 2 * ((m.got true).countP isHello + (m.got false).countP isHello) := by
  induction h with
  | zero => simp [hellos, rest, Msgs.start]
  | succ _ st ih =>
    cases st with
    | receive x p l h =>
      by_cases t0 : p.1.header.type = 0
      · cases x <;> simp [hellos, rest, upd, h, isHello, W0, W1, t0] at ih ⊢ <;> omega
      · by_cases t2 : p.1.header.type = 2
        · cases x <;> simp [hellos, rest, upd, h, isHello, W0, W1, t2] at ih ⊢ <;> omega
        · cases x <;> simp [hellos, rest, upd, h, isHello, W0, W1, t0, t2] at ih ⊢ <;> omega
    | handle x p a b h =>
      by_cases t0 : p.1.header.type = 0
      · cases x <;> simp [hellos, rest, upd, h, isHello, W0, W1, t0, expected] at ih ⊢ <;> omega
      · by_cases t2 : p.1.header.type = 2
        · cases x <;> simp [hellos, rest, upd, h, isHello, W0, W1, t2, expected] at ih ⊢ <;> omega
        · cases x <;> simp [hellos, rest, upd, h, isHello, W0, t0, t2, expected] at ih ⊢ <;> omega

private theorem storm (v : Bool → UInt8) (ha : ∀ x, Answering (ops x) (expected (v x)))
    (qs : Bool → List (Request × Bytes)) (hq : ∀ x, ∀ p ∈ qs x, Sendable p)
    (hh : ∃ x, ∃ p ∈ qs x, p.1.header.type = 0) (n : Nat) (s : Duo) (h : Duo.Run ops (.start qs) n s) :
    (∃ s', Duo.Step ops s s') ∧
      n ≤ 2 * ((s.got true).countP (·.header.type = 0) + (s.got false).countP (·.header.type = 0)) +
        4 * ((qs true).countP (·.1.header.type ≠ 0) + (qs false).countP (·.1.header.type ≠ 0)) := by
  obtain ⟨m, h1, h2⟩ := run_msgs (ans := fun x => expected (v x)) ha hq h
  obtain ⟨k1, k2⟩ := storm_run v h1
  refine ⟨?_, ?_⟩
  · have hpos : 0 < hellos m true + hellos m false := by
      rw [k1]
      obtain ⟨x, p, hp, ht⟩ := hh
      have : 0 < (qs x).countP isHello := List.countP_pos_iff.mpr ⟨p, hp, by simp [isHello, ht]⟩
      cases x <;> omega
    have hx : ∃ x, 0 < hellos m x := by
      by_cases h' : 0 < hellos m true
      · exact ⟨_, h'⟩
      · exact ⟨false, by omega⟩
    obtain ⟨x, hx⟩ := hx
    cases hw : m.wire x with
    | cons p l => exact duo_step (ops := ops) .eof h2 (.receive (ans := fun x => expected (v x)) m x p l hw)
    | nil =>
      cases ht : m.tasks x with
      | cons p l => exact duo_step (ops := ops) .eof h2 (.handle (ans := fun x => expected (v x)) m x p [] l ht)
      | nil => simp [hellos, hw, ht] at hx
  · have hg : ∀ x, (s.got x).countP (·.header.type = 0) = (m.got x).countP isHello := by
      intro x; rw [h2.got, List.countP_map]; rfl
    have hb : ∀ l : List (Request × Bytes), (l.map W1).sum ≤ 4 * l.countP (·.1.header.type ≠ 0) := by
      intro l
      induction l with
      | nil => simp
      | cons p l ih =>
        by_cases t0 : p.1.header.type = 0
        · simpa [W1, t0] using ih
        · by_cases t2 : p.1.header.type = 2 <;> simp [W1, t0, t2] at ih ⊢ <;> omega
    have b1 := hb (qs true)
    have b2 := hb (qs false)
    rw [hg, hg]
    omega

end

/-- The multiplexer of a program that has an `EchoHandler` and does not answer hellos. -/
structure EchoMux (env : Nat → MatchFn) (dflt : Handler) (hs : MuxMap) (order : Request → MuxMap) : Prop where
  reach : TypeMuxReach env dflt hs
  order : ∀ q, (order q).Perm hs
  echo : ∃ e, (.typ 2, e) ∈ hs ∧ e.handler = .user 1
  other : ∀ t e, (.typ t, e) ∈ hs → t ≠ 2 → e.handler = .discard
  dflt : dflt = .discard

/-- What it answers. -/
def echoExpected (p : Request × Bytes) : Option (Request × Bytes) :=
  if p.1.header.type = 2 then some (⟨⟨p.1.header.version, 3, 0, p.1.header.transaction⟩, .buffer p.2, 0, 0, 0⟩, p.2) else none

private theorem echo_replies (v : UInt8) (env : Nat → MatchFn) (dflt : Handler) (hs : MuxMap)
    (order : Request → MuxMap) (hm : EchoMux env dflt hs order) :
    Answering (muxOps (controllerOps v) env dflt hs order) echoExpected := by
  intro p hp
  obtain ⟨h1, h2⟩ := typeMux_route env dflt hs (order (asReceived p)) hm.reach (hm.order _) (asReceived p)
  by_cases t2 : p.1.header.type = 2
  · obtain ⟨e, he, hh⟩ := hm.echo
    have h3 := h1 e (by rw [show (asReceived p).header.type = 2 from t2]; exact he)
    rw [muxOps, h3, hh]
    have hw : EchoReply.writeTo ⟨p.2⟩ = ⟨p.2, p.2.length, none⟩ := by
      simp [EchoReply.writeTo, Enc.writeTo, Enc.gather]
    simp only [controllerOps, echoOps, asReceived, hw]
    refine ⟨by simpa [GoodReply] using hp.2, ?_⟩
    simp [opAnswer, echoExpected, t2, Header.copy]
  · have h3 : (hs.handler env dflt (order (asReceived p)) (asReceived p)).1 = .discard := by
      by_cases hx : ∃ e, (.typ p.1.header.type, e) ∈ hs
      · obtain ⟨e, he⟩ := hx
        rw [h1 e he, hm.other _ e he t2]
      · rw [h2 fun e he => hx ⟨e, he⟩, hm.dflt]
    rw [muxOps, h3]
    simp [controllerOps, echoExpected, t2]

/-- C75 is false.  Two programs that both have a `HelloHandler` (and an `EchoHandler`) and are
connected, one of which sends a hello, as OpenFlow asks of both: no state is the last one, and in
every execution all but a fixed number of the steps are spent on hellos: the two programs send
hellos to each other for ever, as fast as they can. -/
theorem handshake_ends_false (v : Bool → UInt8) (env : Bool → Nat → MatchFn) (dflt : Bool → Handler)
    (hs : Bool → MuxMap) (order : Bool → Request → MuxMap) (hm : ∀ x, Registered (env x) (dflt x) (hs x) (order x))
    (qs : Bool → List (Request × Bytes)) (hq : ∀ x, ∀ p ∈ qs x, Sendable p)
    (hh : ∃ x, ∃ p ∈ qs x, p.1.header.type = 0) :
    (∀ n s, Duo.Run (fun x => muxOps (controllerOps (v x)) (env x) (dflt x) (hs x) (order x)) (.start qs) n s →
      (∃ s', Duo.Step (fun x => muxOps (controllerOps (v x)) (env x) (dflt x) (hs x) (order x)) s s') ∧
      n ≤ 2 * ((s.got true).countP (·.header.type = 0) + (s.got false).countP (·.header.type = 0)) +
        4 * ((qs true).countP (·.1.header.type ≠ 0) + (qs false).countP (·.1.header.type ≠ 0))) ∧
    ∀ n, ∃ s, Duo.Run (fun x => muxOps (controllerOps (v x)) (env x) (dflt x) (hs x) (order x)) (.start qs) n s := by
  have key := storm v (fun x p hp => controller_replies (v x) (env x) (dflt x) (hs x) (order x) (hm x) p hp.2) qs hq hh
  refine ⟨key, fun n => ?_⟩
  induction n with
  | zero => exact ⟨_, .zero⟩
  | succ n ih =>
    obtain ⟨s, h⟩ := ih
    obtain ⟨⟨s', st⟩, _⟩ := key n s h
    exact ⟨s', .succ h st⟩

/-- C75, partial: if one of the two programs has a `HelloHandler` and the other one has none, the
exchange ends; and then each has received what the other one sent, one answer to each of its own
echo requests, and the program without a `HelloHandler` also one answer to each of its hellos. -/
theorem handshake_ends_partial (v w : UInt8) (env env' : Nat → MatchFn) (dflt dflt' : Handler) (hs hs' : MuxMap)
    (order order' : Request → MuxMap) (hm : Registered env dflt hs order) (hm' : EchoMux env' dflt' hs' order')
    (qs : Bool → List (Request × Bytes)) (hq : ∀ x, ∀ p ∈ qs x, Sendable p) (n : Nat) (s : Duo)
    (h : Duo.Run (fun x => if x then muxOps (controllerOps v) env dflt hs order else
      muxOps (controllerOps w) env' dflt' hs' order') (.start qs) n s) :
    n ≤ 4 * ((qs true).length + (qs false).length) ∧
      ((∀ s', ¬ Duo.Step (fun x => if x then muxOps (controllerOps v) env dflt hs order else
          muxOps (controllerOps w) env' dflt' hs' order') s s') →
        s.wire true = [] ∧ s.wire false = [] ∧ s.tasks true = [] ∧ s.tasks false = [] ∧
        ∃ G G' : List (Request × Bytes), s.got true = G.map asReceived ∧ s.got false = G'.map asReceived ∧
          G.Perm (qs true ++ (qs false).filterMap echoExpected) ∧
          G'.Perm (qs false ++ (qs true).filterMap (expected v))) := by
  obtain ⟨h1, h2⟩ := exchange_ends (ans := fun x => if x then expected v else echoExpected) (by
      intro x
      cases x
      · exact echo_replies w env' dflt' hs' order' hm'
      · exact fun p hp => controller_replies v env dflt hs order hm p hp.2) (by
      intro x p a hp
      cases x
      · simp only [Bool.false_eq_true, if_false, echoExpected] at hp
        split at hp <;> simp at hp
        subst hp
        rfl
      · simp only [if_true, expected] at hp
        split at hp
        · simp at hp; subst hp; rfl
        · split at hp <;> simp at hp
          subst hp
          rfl) qs hq n s h
  refine ⟨h1, fun hf => ?_⟩
  obtain ⟨a1, a2, G, a3, a4⟩ := h2 hf true
  obtain ⟨b1, b2, G', b3, b4⟩ := h2 hf false
  exact ⟨a1, b1, a2, b2, G, G', a3, b3, a4, b4⟩

/-- C75, partial: if neither of the two programs has a `HelloHandler` and both have an
`EchoHandler`, the exchange ends, and then each has received what the other one sent and one
answer to each of its echo requests. -/
theorem echo_exchange_ends (v w : UInt8) (env env' : Nat → MatchFn) (dflt dflt' : Handler) (hs hs' : MuxMap)
    (order order' : Request → MuxMap) (hm : EchoMux env dflt hs order) (hm' : EchoMux env' dflt' hs' order')
    (qs : Bool → List (Request × Bytes)) (hq : ∀ x, ∀ p ∈ qs x, Sendable p) (n : Nat) (s : Duo)
    (h : Duo.Run (fun x => if x then muxOps (controllerOps v) env dflt hs order else
      muxOps (controllerOps w) env' dflt' hs' order') (.start qs) n s) :
    n ≤ 4 * ((qs true).length + (qs false).length) ∧
      ((∀ s', ¬ Duo.Step (fun x => if x then muxOps (controllerOps v) env dflt hs order else
          muxOps (controllerOps w) env' dflt' hs' order') s s') →
        ∀ x, s.wire x = [] ∧ s.tasks x = [] ∧ ∃ G : List (Request × Bytes), s.got x = G.map asReceived ∧
          G.Perm (qs x ++ (qs (!x)).filterMap echoExpected)) := by
  exact exchange_ends (ans := fun _ => echoExpected) (by
      intro x
      cases x
      · exact echo_replies w env' dflt' hs' order' hm'
      · exact echo_replies v env dflt hs order hm) (by
      intro x p a hp
      simp only [echoExpected] at hp
      split at hp <;> simp at hp
      subst hp
      rfl) qs hq n s h

/-- Non-vacuity: a program with both handlers and one with an `EchoHandler` only. -/
example : Registered (fun _ r => (false, r)) .discard [(.typ 2, ⟨.user 1, false, 1⟩), (.typ 0, ⟨.user 0, false, 0⟩)]
    (fun _ => [(.typ 2, ⟨.user 1, false, 1⟩), (.typ 0, ⟨.user 0, false, 0⟩)]) ∧
    EchoMux (fun _ r => (false, r)) .discard [(.typ 2, ⟨.user 1, false, 0⟩)]
      (fun _ => [(.typ 2, ⟨.user 1, false, 0⟩)]) :=
  ⟨⟨.handle 2 (some (.user 1)) false 1 (.handle 0 (some (.user 0)) false 0 .new), fun _ => .refl _,
    ⟨⟨.user 0, false, 0⟩, by simp, rfl⟩, ⟨⟨.user 1, false, 1⟩, by simp, rfl⟩, by
      intro t e h h0 h2
      simp at h
      rcases h with ⟨rfl, _⟩ | ⟨rfl, _⟩ <;> contradiction, rfl, by simp⟩,
   ⟨.handle 2 (some (.user 1)) false 0 .new, fun _ => .refl _, ⟨⟨.user 1, false, 0⟩, by simp, rfl⟩, by
      intro t e h h2
      simp at h
      exact absurd h.1 h2, rfl⟩⟩

/-- Non-vacuity: each of the programs sends a hello, as they should. -/
example : (∀ x : Bool, ∀ p ∈ (fun _ => [(⟨⟨4, 0, 0, 1⟩, .buffer [], 0, 0, 0⟩, [])] : Bool → List (Request × Bytes)) x,
      Sendable p) ∧
    ∃ x : Bool, ∃ p ∈ (fun _ => [(⟨⟨4, 0, 0, 1⟩, .buffer [], 0, 0, 0⟩, [])] : Bool → List (Request × Bytes)) x,
      p.1.header.type = 0 := by
  refine ⟨fun x p hp => ?_, true, _, List.mem_cons_self, rfl⟩
  simp at hp
  subst hp
  exact ⟨rfl, by decide⟩

end Verif.Props
