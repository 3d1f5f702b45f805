import Verif.Props.Controller

/-!
# C69, C70, C74: controllers with the default runner

`ListenAndServe` and a `Server` without `HandlerRunner` start a goroutine for each request
(server.go:231-234), so that replies may overtake each other.  What the peer gets then.
-/

namespace Verif.Props

open Verif

/-- The reply that one `ResponseWriter.Write` makes, server.go:58-90, as the peer sees it. -/
def opAnswer : ConnOp → Option (Request × Bytes)
  | .respond rv h none =>
    some (⟨⟨if h.version = 0 then rv else h.version, h.type, 0, h.transaction⟩, .buffer [], 0, 0, 0⟩, [])
  | .respond rv h (some w) =>
    some (⟨⟨if h.version = 0 then rv else h.version, h.type, 0, h.transaction⟩, .buffer w.out, 0, 0, 0⟩, w.out)
  | _ => none

/-- A call of `ResponseWriter.Write` that can be serialised and is not too long. -/
def GoodReply : ConnOp → Prop
  | .respond _ _ none => True
  | .respond _ _ (some w) => w.err = none ∧ 8 + w.out.length ≤ 65535
  | _ => False

/-- The bytes of a reply. -/
private def replyBytes (p : Request × Bytes) : Bytes :=
  Header.bytes { p.1.header with length := UInt16.ofNat (8 + p.2.length) } ++ p.2

private theorem good_message (op : ConnOp) (h : GoodReply op ∨ op = .flush) :
    op.message = (opAnswer op).toList.flatMap replyBytes := by
  rcases h with h | rfl
  · match op with
    | .respond rv hd none =>
      rw [respond_message rv hd none [] (.inl ⟨rfl, rfl⟩)]
      simp [opAnswer, replyBytes]
    | .respond rv hd (some w) =>
      obtain ⟨out, n, e⟩ := w
      obtain ⟨he, _⟩ := h
      simp only at he
      subst he
      rw [respond_message rv hd (some ⟨out, n, none⟩) out (.inr ⟨n, rfl⟩)]
      simp [opAnswer, replyBytes]
  · simp [ConnOp.message, ConnOp.run, Conn.flush, BW.flush, BW.new, opAnswer]

private theorem good_answer (op : ConnOp) (h : GoodReply op ∨ op = .flush) :
    ∀ a ∈ opAnswer op, a.1.body.Yields a.2 ∧ 8 + a.2.length ≤ 65535 := by
  rcases h with h | rfl
  · match op with
    | .respond rv hd none => intro a ha; simp [opAnswer] at ha; subst ha; exact ⟨rfl, by simp⟩
    | .respond rv hd (some w) => intro a ha; simp [opAnswer] at ha; subst ha; exact ⟨rfl, h.2⟩
  · intro a ha; simp [opAnswer] at ha

private theorem messages_answers (l : List ConnOp) (h : ∀ op ∈ l, GoodReply op ∨ op = .flush) :
    l.flatMap ConnOp.message = (l.filterMap opAnswer).flatMap replyBytes := by
  induction l with
  | nil => rfl
  | cons op l ih =>
    rw [List.flatMap_cons, good_message op (h op (by simp)), ih fun x hx => h x (by simp [hx])]
    cases ha : opAnswer op <;> simp [ha]

private theorem serialise_replies (ps : List (Request × Bytes))
    (h : ∀ p ∈ ps, p.1.body.Yields p.2 ∧ 8 + p.2.length ≤ 65535) :
    serialise (ps.map (·.1)) = ps.flatMap replyBytes := by
  rw [serialise, foldl_recorder ps h, List.nil_append]
  rfl

/-- The bytes that handlers write are the serialised answers, and the answers can be sent. -/
theorem good_replies (l : List ConnOp) (h : ∀ op ∈ l, GoodReply op) :
    l.flatMap ConnOp.message = serialise ((l.filterMap opAnswer).map (·.1)) ∧
      ∀ a ∈ l.filterMap opAnswer, a.1.body.Yields a.2 ∧ 8 + a.2.length ≤ 65535 := by
  have hg : ∀ a ∈ l.filterMap opAnswer, a.1.body.Yields a.2 ∧ 8 + a.2.length ≤ 65535 := by
    intro a ha
    obtain ⟨op, h1, h2⟩ := List.mem_filterMap.mp ha
    exact good_answer op (.inl (h op h1)) a h2
  exact ⟨by rw [messages_answers l fun op ho => .inl (h op ho), serialise_replies _ hg], hg⟩

/-- Serialising two lists of requests, one after the other. -/
theorem serialise_append (p q : List (Request × Bytes))
    (hp : ∀ a ∈ p, a.1.body.Yields a.2 ∧ 8 + a.2.length ≤ 65535)
    (hq : ∀ a ∈ q, a.1.body.Yields a.2 ∧ 8 + a.2.length ≤ 65535) :
    serialise ((p ++ q).map (·.1)) = serialise (p.map (·.1)) ++ serialise (q.map (·.1)) := by
  rw [serialise_replies p hp, serialise_replies q hq, serialise_replies (p ++ q) (by
    intro a ha
    rcases List.mem_append.mp ha with h | h
    · exact hp a h
    · exact hq a h), List.flatMap_append]

/-- What the peer of a server with any runner and the handler `ops` gets, when it sends the
requests of `qs`, in this order, on the stream `r`, and is to get `ans m` for the request `m`.
At any moment, also after a failure and after `Close`: a beginning of some of the answers, each
whole (but the last) and at most once, in some order.  When the handlers of the first `n`
requests, all that have been received, have returned, the connection is open and the transport
has not failed: exactly the answers to these, in some order, and its `Receive` returns them, in
any fragmentation. -/
def AnswersAny {α : Type} (seq : Bool) (ops : Request → List ConnOp) (r : Rd) (qs : List α)
    (ans : α → Option (Request × Bytes)) : Prop :=
  (∀ s, Live.Steps seq ConnOp.call (serveOps fun _ => ops) (.init r) s →
    ∃ as rest : List (Request × Bytes), (as ++ rest).Perm ((qs.take s.srv.dispatched.length).filterMap ans) ∧
      s.net.go.sh.tr.out <+: serialise (as.map (·.1))) ∧
  ∀ s, Live.Calm seq ConnOp.call (serveOps fun _ => ops) (.init r) s → s.net.closed = false →
    (∀ t ∈ s.srv.tasks, t.2 = .done) →
    ∃ as : List (Request × Bytes), as.Perm ((qs.take s.srv.dispatched.length).filterMap ans) ∧
      s.net.go.sh.tr.out = serialise (as.map (·.1)) ∧
      ∀ (F' : Err) (back : Rd), back.Ok F' → back.Sep → back.content = s.net.go.sh.tr.out →
        (receiveN as.length back).1 = as.map (fun p => (some (asReceived p), none)) ∧
        ∃ r', Conn.receive (receiveN as.length back).2 = (none, some F', r')

/-- C68, for replies.  A handler that answers each request with some calls of
`ResponseWriter.Write`, none of which fails: with any runner the peer gets these answers. -/
theorem served_answers_any {α : Type} (seq : Bool) (ops : Request → List ConnOp) (req : α → Request × Bytes)
    (ans : α → Option (Request × Bytes)) (F : Err)
    (qs : List α) (h : ∀ m ∈ qs, (req m).1.body.Yields (req m).2 ∧ 8 + (req m).2.length ≤ 65535) (r : Rd)
    (hr : r.Ok F) (hsep : r.Sep) (hc : r.content = serialise (qs.map fun m => (req m).1))
    (hg : ∀ m ∈ qs, ∀ op ∈ ops (asReceived (req m)), GoodReply op)
    (ha : ∀ m ∈ qs, (ops (asReceived (req m))).filterMap opAnswer = (ans m).toList) :
    AnswersAny seq ops r qs ans := by
  have hc' : r.content = serialise ((qs.map req).map (·.1)) := by rw [List.map_map]; exact hc
  have h' : ∀ p ∈ qs.map req, p.1.body.Yields p.2 ∧ 8 + p.2.length ≤ 65535 := by
    intro p hp
    obtain ⟨m, hm, rfl⟩ := List.mem_map.mp hp
    exact h m hm
  have hdis : ∀ s, Live.Steps seq ConnOp.call (serveOps fun _ => ops) (.init r) s →
      s.srv.dispatched = (qs.take s.srv.dispatched.length).map fun m => asReceived (req m) := by
    intro s hs
    obtain ⟨⟨t, ht⟩, _⟩ := served_stream seq _ _ F _ h' r hr hsep hc' s hs
    rw [List.map_map] at ht
    have := congrArg (List.take s.srv.dispatched.length) ht
    rw [List.take_left, ← List.map_take] at this
    exact this
  have hops : ∀ l : List α, (∀ m ∈ l, m ∈ qs) →
      (∀ op ∈ (l.map fun m => asReceived (req m)).flatMap (fun q => ops q ++ [.flush]), GoodReply op ∨ op = .flush) ∧
      ((l.map fun m => asReceived (req m)).flatMap fun q => ops q ++ [.flush]).filterMap opAnswer = l.filterMap ans := by
    intro l
    induction l with
    | nil => intro _; simp
    | cons m l ih =>
      intro hl
      obtain ⟨i1, i2⟩ := ih fun x hx => hl x (by simp [hx])
      refine ⟨fun op hop => ?_, ?_⟩
      · rw [List.map_cons, List.flatMap_cons, List.mem_append] at hop
        rcases hop with hop | hop
        · simp only [List.mem_append, List.mem_singleton] at hop
          rcases hop with hop | hop
          · exact .inl (hg m (hl m (by simp)) op hop)
          · exact .inr hop
        · exact i1 op hop
      · rw [List.map_cons, List.flatMap_cons, List.filterMap_append, i2]
        simp only [List.filterMap_append, ha m (hl m (by simp))]
        cases he : ans m <;> simp [he, opAnswer]
  have key : ∀ (s : Live ConnOp), Live.Steps seq ConnOp.call (serveOps fun _ => ops) (.init r) s → ∀ calls rest : List ConnOp,
      (calls ++ rest).Perm (s.srv.dispatched.flatMap fun q => ops q ++ [.flush]) →
      (calls.filterMap opAnswer ++ rest.filterMap opAnswer).Perm ((qs.take s.srv.dispatched.length).filterMap ans) ∧
      (∀ p ∈ calls.filterMap opAnswer, p.1.body.Yields p.2 ∧ 8 + p.2.length ≤ 65535) ∧
      calls.flatMap ConnOp.message = serialise ((calls.filterMap opAnswer).map (·.1)) := by
    intro s hs calls rest hp
    obtain ⟨g1, g2⟩ := hops (qs.take s.srv.dispatched.length) fun m hm => List.mem_of_mem_take hm
    rw [← hdis s hs] at g1 g2
    have hgood : ∀ op ∈ calls, GoodReply op ∨ op = .flush := fun op hop =>
      g1 op (hp.mem_iff.mp (List.mem_append.mpr (.inl hop)))
    have hyl : ∀ p ∈ calls.filterMap opAnswer, p.1.body.Yields p.2 ∧ 8 + p.2.length ≤ 65535 := by
      intro p hpm
      obtain ⟨op, h1, h2⟩ := List.mem_filterMap.mp hpm
      exact good_answer op (hgood op h1) p h2
    refine ⟨?_, hyl, ?_⟩
    · rw [← List.filterMap_append, ← g2]
      exact hp.filterMap _
    · rw [messages_answers calls hgood, serialise_replies _ hyl]
  refine ⟨fun s hs => ?_, fun s hs hcl hd => ?_⟩
  · obtain ⟨calls, rest, hp, hout⟩ := served_some seq (fun _ => ops) r s hs
    rw [show serveOps (fun _ => ops) = fun _ q => ops q ++ [.flush] from rfl, mapIdx_flatten] at hp
    obtain ⟨k1, _, k3⟩ := key s hs calls rest hp
    exact ⟨_, _, k1, by rw [← k3]; exact hout⟩
  · obtain ⟨hout, hp⟩ := served_all_open seq (fun _ => ops) r s hs hcl hd
    rw [show serveOps (fun _ => ops) = fun _ q => ops q ++ [.flush] from rfl, mapIdx_flatten] at hp
    obtain ⟨k1, k2, k3⟩ := key s hs.steps (s.net.go.log.map (·.2.1)) [] (by rw [List.append_nil]; exact hp)
    simp only [List.filterMap_nil, List.append_nil] at k1
    rw [k3] at hout
    refine ⟨_, k1, hout, fun F' back b1 b2 b3 => ?_⟩
    obtain ⟨g1, _, g2⟩ := stream_framing F' _ k2 back [] b1 b2 (by rw [b3, hout, List.append_nil])
    exact ⟨g1, g2 rfl⟩

/-- C68.  It never is too late for that while the connection is open: the handlers can finish, and
then the peer has an answer to everything that has been received. -/
theorem served_answers_any_drains {α : Type} (seq : Bool) (ops : Request → List ConnOp) (F : Err) (r : Rd) (hr : r.Ok F)
    (qs : List α) (ans : α → Option (Request × Bytes)) (ha : AnswersAny seq ops r qs ans) (s : Live ConnOp)
    (hs : Live.Calm seq ConnOp.call (serveOps fun _ => ops) (.init r) s) (hc : s.net.closed = false) :
    ∃ (s' : Live ConnOp) (as : List (Request × Bytes)), Live.Calm seq ConnOp.call (serveOps fun _ => ops) s s' ∧
      as.Perm ((qs.take s.srv.dispatched.length).filterMap ans) ∧
      s'.net.go.sh.tr.out = serialise (as.map (·.1)) := by
  obtain ⟨s', h1, h2, _, h4, h5⟩ := served_drains seq _ _ F r hr s hs
  obtain ⟨as, g1, g2, _⟩ := ha.2 s' (hs.trans h1) (by rw [h5, hc]) h2
  exact ⟨s', as, h1, by rw [← h4]; exact g1, g2⟩

/-! ## C69 and C70 with any runner -/

/-- C69.  What the multiplexer of that controller does with one request: at most one call of
`ResponseWriter.Write`, which makes the expected reply. -/
theorem controller_replies (v : UInt8) (env : Nat → MatchFn) (dflt : Handler) (hs : MuxMap)
    (order : Request → MuxMap) (hm : Registered env dflt hs order) (p : Request × Bytes) (hp : 8 + p.2.length ≤ 65535) :
    (∀ op ∈ muxOps (controllerOps v) env dflt hs order (asReceived p), GoodReply op) ∧
      (muxOps (controllerOps v) env dflt hs order (asReceived p)).filterMap opAnswer = (expected v p).toList := by
  obtain ⟨h1, h2⟩ := typeMux_route env dflt hs (order (asReceived p)) hm.reach (hm.order _) (asReceived p)
  by_cases t0 : p.1.header.type = 0
  · obtain ⟨e, he, hh⟩ := hm.hello
    have h3 := h1 e (by rw [show (asReceived p).header.type = 0 from t0]; exact he)
    rw [muxOps, h3, hh]
    simp only [controllerOps, helloOps]
    refine ⟨by simp [GoodReply], ?_⟩
    simp [opAnswer, expected, t0, Header.copy, asReceived]
  · by_cases t2 : p.1.header.type = 2
    · obtain ⟨e, he, hh⟩ := hm.echo
      have h3 := h1 e (by rw [show (asReceived p).header.type = 2 from t2]; exact he)
      rw [muxOps, h3, hh]
      have hw : EchoReply.writeTo ⟨p.2⟩ = ⟨p.2, p.2.length, none⟩ := by
        simp [EchoReply.writeTo, Enc.writeTo, Enc.gather]
      simp only [controllerOps, echoOps, asReceived, hw]
      refine ⟨by simpa [GoodReply] using hp, ?_⟩
      simp [opAnswer, expected, t2, Header.copy]
    · have h3 : (hs.handler env dflt (order (asReceived p)) (asReceived p)).1 = .discard := by
        by_cases hx : ∃ e, (.typ p.1.header.type, e) ∈ hs
        · obtain ⟨e, he⟩ := hx
          rw [h1 e he, hm.other _ e he t0 t2]
        · rw [h2 fun e he => hx ⟨e, he⟩, hm.dflt]
      rw [muxOps, h3]
      simp [controllerOps, expected, t0, t2]

/-- C69, any runner, also the default one.  A controller with a `HelloHandler` and an
`EchoHandler` answers hellos and echo requests; the replies may overtake each other. -/
theorem controller_answers_any (seq : Bool) (v : UInt8) (env : Nat → MatchFn) (dflt : Handler) (hs : MuxMap)
    (order : Request → MuxMap) (hm : Registered env dflt hs order) (F : Err) (qs : List (Request × Bytes))
    (h : ∀ p ∈ qs, p.1.body.Yields p.2 ∧ 8 + p.2.length ≤ 65535) (r : Rd)
    (hr : r.Ok F) (hsep : r.Sep) (hc : r.content = serialise (qs.map (·.1))) :
    AnswersAny seq (muxOps (controllerOps v) env dflt hs order) r qs (expected v) := by
  have key := fun p hp => controller_replies v env dflt hs order hm p (h p hp).2
  exact served_answers_any seq _ id (expected v) F qs h r hr hsep hc (fun p hp => (key p hp).1) fun p hp => (key p hp).2

/-- C70, any runner, also the default one, which the README uses. -/
theorem readme_answers_any (seq : Bool) (rd : Bytes → Rd) (env : Nat → MatchFn) (dflt : Handler) (hs : MuxMap)
    (order : Request → MuxMap) (hrd : ∀ b, (rd b).Ok .eof ∧ (rd b).content = b) (hm : ReadmeMux env dflt hs order)
    (F : Err) (ms : List (Header × (PacketIn ⊕ Bytes))) (h : ∀ m ∈ ms, SwitchSends m) (r : Rd)
    (hr : r.Ok F) (hsep : r.Sep) (hc : r.content = serialise (ms.map fun m => (switchRequest m).1)) :
    AnswersAny seq (muxOps (readmeOps rd) env dflt hs order) r ms floodReply := by
  have key : ∀ m ∈ ms, (∀ op ∈ muxOps (readmeOps rd) env dflt hs order (asReceived (switchRequest m)), GoodReply op) ∧
      (muxOps (readmeOps rd) env dflt hs order (asReceived (switchRequest m))).filterMap opAnswer =
        (floodReply m).toList := by
    rintro ⟨hd, x⟩ h1
    have h2 := (h _ h1).2
    obtain ⟨g1, g2⟩ := typeMux_route env dflt hs (order (asReceived (switchRequest (hd, x)))) hm.reach (hm.order _)
      (asReceived (switchRequest (hd, x)))
    have ht : (asReceived (switchRequest (hd, x))).header.type = hd.type := rfl
    cases x with
    | inr b =>
      have h2 : hd.type ≠ 10 := h2
      have h3 := g2 (by rw [ht]; exact fun e he => h2 (hm.other _ e he))
      rw [muxOps, h3, hm.dflt]
      exact ⟨by simp [readmeOps], rfl⟩
    | inl pk =>
      have h2 : hd.type = 10 ∧ pk.mtch.Valid ∧ 8 + (floodFlow pk).writeTo.out.length ≤ 65535 := h2
      obtain ⟨e, he, hh⟩ := hm.packetIn
      have h3 := g1 e (by rw [ht, h2.1]; exact he)
      rw [muxOps, h3, hh]
      have hdec := ((packetIn_roundtrip pk h2.2.1).2 ⟨0, 0, 0, 0, 0, ⟨0, []⟩, []⟩ (rd pk.writeTo.out) (hrd _).1 (hrd _).2).1
      have hw : ∀ f : FlowMod, f.writeTo.err = none := by intro f; rw [FlowMod.out_eq]
      simp only [readmeOps, floodOps, asReceived, switchRequest, switchBody, hdec]
      refine ⟨by simpa [GoodReply] using ⟨hw _, h2.2.2⟩, ?_⟩
      simp [opAnswer, floodReply]
  exact served_answers_any seq _ switchRequest floodReply F ms (fun m hm => ⟨rfl, (h m hm).1⟩) r hr hsep hc
    (fun m hm => (key m hm).1) fun m hm => (key m hm).2

/-! ## C74: the example of the documentation -/

/-- The handler of the example in server.go:143-145: `rw.Write(&of.Header{Type:
of.TypeEchoReply}, nil)`. -/
def exampleOps : Handler → Request → List ConnOp
  | .user 0, q => [.respond q.header.version ⟨0, 3, 0, 0⟩ none]
  | _, _ => []

/-- `DefaultMux` (mux.go:211), which `Serve` uses without a handler (server.go:226-229), after
the `HandleFunc` of the example (server.go:143, mux.go:227-229). -/
structure ExampleMux (env : Nat → MatchFn) (dflt : Handler) (hs : MuxMap) (order : Request → MuxMap) : Prop where
  reach : TypeMuxReach env dflt hs
  order : ∀ q, (order q).Perm hs
  echo : ∃ e, (.typ 2, e) ∈ hs ∧ e.handler = .user 0
  other : ∀ t e, (.typ t, e) ∈ hs → t = 2
  dflt : dflt = .discard

/-- What that server answers to an echo request: an echo reply with the version of the request,
without data, and with transaction 0. -/
def exampleReply (p : Request × Bytes) : Option (Request × Bytes) :=
  if p.1.header.type = 2 then some (⟨⟨p.1.header.version, 3, 0, 0⟩, .buffer [], 0, 0, 0⟩, []) else none

/-- C74, partial, with any runner: every echo request is answered by one echo reply of the same
version, nothing else is answered. -/
theorem example_answers_partial (seq : Bool) (env : Nat → MatchFn) (dflt : Handler) (hs : MuxMap)
    (order : Request → MuxMap) (hm : ExampleMux env dflt hs order) (F : Err) (qs : List (Request × Bytes))
    (h : ∀ p ∈ qs, p.1.body.Yields p.2 ∧ 8 + p.2.length ≤ 65535) (r : Rd)
    (hr : r.Ok F) (hsep : r.Sep) (hc : r.content = serialise (qs.map (·.1))) :
    AnswersAny seq (muxOps exampleOps env dflt hs order) r qs exampleReply := by
  have key : ∀ p ∈ qs, (∀ op ∈ muxOps exampleOps env dflt hs order (asReceived p), GoodReply op) ∧
      (muxOps exampleOps env dflt hs order (asReceived p)).filterMap opAnswer = (exampleReply p).toList := by
    intro p _
    obtain ⟨h1, h2⟩ := typeMux_route env dflt hs (order (asReceived p)) hm.reach (hm.order _) (asReceived p)
    by_cases t2 : p.1.header.type = 2
    · obtain ⟨e, he, hh⟩ := hm.echo
      have h3 := h1 e (by rw [show (asReceived p).header.type = 2 from t2]; exact he)
      rw [muxOps, h3, hh]
      exact ⟨by simp [exampleOps, GoodReply], by simp [exampleOps, opAnswer, exampleReply, t2, asReceived]⟩
    · have h3 := h2 fun e he => t2 (hm.other _ e he)
      rw [muxOps, h3, hm.dflt]
      exact ⟨by simp [exampleOps], by simp [exampleOps, exampleReply, t2]⟩
  exact served_answers_any seq _ id exampleReply F qs h r hr hsep hc (fun p hp => (key p hp).1) fun p hp => (key p hp).2

/-- C74 is false: whatever the peer sends, every message that it gets from that server has
transaction 0 and no data: `ResponseWriter.Write` does not use the transaction that `serveReq`
has stored for it (server.go:325-332, 58-90).  The replies to several echo requests cannot be
told apart, and a peer that waits for the transaction of its request waits for ever. -/
theorem example_transaction_false (seq : Bool) (env : Nat → MatchFn) (dflt : Handler) (hs : MuxMap)
    (order : Request → MuxMap) (hm : ExampleMux env dflt hs order) (F : Err) (qs : List (Request × Bytes))
    (h : ∀ p ∈ qs, p.1.body.Yields p.2 ∧ 8 + p.2.length ≤ 65535) (r : Rd)
    (hr : r.Ok F) (hsep : r.Sep) (hc : r.content = serialise (qs.map (·.1))) (s : Live ConnOp)
    (hs' : Live.Calm seq ConnOp.call (serveOps fun _ => (muxOps exampleOps env dflt hs order)) (.init r) s)
    (hcl : s.net.closed = false) (hd : ∀ t ∈ s.srv.tasks, t.2 = .done)
    (F' : Err) (back : Rd) (b1 : back.Ok F') (b2 : back.Sep) (b3 : back.content = s.net.go.sh.tr.out) :
    ∃ n, n = (qs.take s.srv.dispatched.length).countP (·.1.header.type = 2) ∧
      ∃ ms : List Request, (receiveN n back).1 = ms.map (fun m => (some m, none)) ∧
        (∃ r', Conn.receive (receiveN n back).2 = (none, some F', r')) ∧
        ∀ m ∈ ms, m.header.type = 3 ∧ m.header.transaction = 0 ∧ m.body = .buffer [] := by
  obtain ⟨as, g1, g2, g3⟩ := (example_answers_partial seq env dflt hs order hm F qs h r hr hsep hc).2 s hs' hcl hd
  obtain ⟨g4, g5⟩ := g3 F' back b1 b2 b3
  have hlen : ∀ l : List (Request × Bytes), (l.filterMap exampleReply).length = l.countP (·.1.header.type = 2) := by
    intro l
    induction l with
    | nil => rfl
    | cons p l ih =>
      by_cases t : p.1.header.type = 2
      · simp [exampleReply, t, ih]
      · simp [exampleReply, t, ih]
  refine ⟨_, rfl, as.map asReceived, ?_⟩
  rw [← hlen, ← g1.length_eq]
  refine ⟨by rw [g4, List.map_map]; rfl, g5, fun m hmem => ?_⟩
  obtain ⟨p, hp, rfl⟩ := List.mem_map.mp hmem
  obtain ⟨p', _, hp'⟩ := List.mem_filterMap.mp (g1.mem_iff.mp hp)
  unfold exampleReply at hp'
  split at hp'
  · simp only [Option.some.injEq] at hp'
    subst hp'
    exact ⟨rfl, rfl, rfl⟩
  · simp at hp'

/-- Non-vacuity: the multiplexer of the example. -/
example : ExampleMux (fun _ r => (false, r)) .discard [(.typ 2, ⟨.user 0, false, 0⟩)]
    (fun _ => [(.typ 2, ⟨.user 0, false, 0⟩)]) :=
  ⟨.handle 2 (some (.user 0)) false 0 .new, fun _ => .refl _, ⟨⟨.user 0, false, 0⟩, by simp, rfl⟩,
    by simp +contextual, rfl⟩

/-- Non-vacuity: an echo request with transaction 7 and three bytes of data. -/
example : exampleReply (⟨⟨4, 2, 0, 7⟩, .buffer [1, 2, 3], 0, 0, 0⟩, [1, 2, 3]) =
    some (⟨⟨4, 3, 0, 0⟩, .buffer [], 0, 0, 0⟩, []) := rfl

end Verif.Props
