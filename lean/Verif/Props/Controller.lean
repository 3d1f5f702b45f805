import Verif.Props.Served
import Verif.Props.Mux
import Verif.Props.Packet
import Verif.Props.Flow

/-!
# Property C69: a controller answers hellos and echo requests

The server of `Served.lean` with a `TypeMux` in which `ofputil.HelloHandler` and
`ofputil.EchoHandler` are registered.
-/

namespace Verif.Props

open Verif

/-- `HelloHandler(v, nil)` as operations on the connection, ofputil/handler.go:49-66. -/
def helloOps (v : UInt8) (q : Request) : List ConnOp :=
  [.respond q.header.version { q.header.copy with version := v } none]

/-- `HelloHandler(v, nil)` (C46) does with the connection what `helloOps` says. -/
theorem helloOps_run (v : UInt8) (q : Request) (c : BW) :
    (helloHandler v none (c, q)).1 = (runOps c (helloOps v q)).2 := by
  simp [helloHandler, helloOps, serveNext, runOps, ConnOp.run]

/-- What the registered handlers do: `user 0` is a `HelloHandler`, `user 1` an `EchoHandler`;
`DiscardHandler`, mux.go and server.go:39, does nothing. -/
def controllerOps (v : UInt8) : Handler → Request → List ConnOp
  | .user 0, q => helloOps v q
  | .user 1, q => echoOps q
  | _, _ => []

/-- `(mux *ServeMux) Serve`, mux.go:165-167, of a multiplexer in which nothing is registered with
`HandleOnce` (so that it does not change); `order q` is the order in which the map is iterated
for `q`. -/
def muxOps (ops : Handler → Request → List ConnOp) (env : Nat → MatchFn) (dflt : Handler) (hs : MuxMap)
    (order : Request → MuxMap) (q : Request) : List ConnOp :=
  ops (hs.handler env dflt (order q) q).1 q

/-- The reply that the peer expects to a request with the body `b`: to a hello (type 0) a hello
with the version of the controller, to an echo request (type 2) an echo reply (type 3) with the
same payload; to anything else none. -/
def expected (v : UInt8) (p : Request × Bytes) : Option (Request × Bytes) :=
  let h := p.1.header
  if h.type = 0 then some (⟨⟨if v = 0 then h.version else v, 0, 0, h.transaction⟩, .buffer [], 0, 0, 0⟩, [])
  else if h.type = 2 then some (⟨⟨h.version, 3, 0, h.transaction⟩, .buffer p.2, 0, 0, 0⟩, p.2)
  else none

/-- What `ResponseWriter.Write` sends. -/
theorem respond_message (rv : UInt8) (h : Header) (w : Option Wr) (b : Bytes)
    (hw : (w = none ∧ b = []) ∨ ∃ n, w = some ⟨b, n, none⟩) :
    ConnOp.message (.respond rv h w) = Header.bytes
      ⟨if h.version = 0 then rv else h.version, h.type, UInt16.ofNat (8 + b.length), h.transaction⟩ ++ b := by
  simp only [ConnOp.message, ConnOp.run]
  rw [response_eq (.new []) rv h w b hw]
  obtain ⟨f1, f2, f3⟩ := Conn.forceWrite_took (.new []) (Header.bytes
    ⟨if h.version = 0 then rv else h.version, h.type, UInt16.ofNat (8 + b.length), h.transaction⟩ ++ b)
  have fe := (force_plan_nil (.new []) (Header.bytes
    ⟨if h.version = 0 then rv else h.version, h.type, UInt16.ofNat (8 + b.length), h.transaction⟩ ++ b) rfl rfl).1
  simpa [BW.new] using (f1.ok fe).2

/-- The messages of the replies, one after another. -/
private theorem serialise_eq (ps : List (Request × Bytes))
    (h : ∀ p ∈ ps, p.1.body.Yields p.2 ∧ 8 + p.2.length ≤ 65535) :
    serialise (ps.map (·.1)) = ps.flatMap fun p =>
      Header.bytes { p.1.header with length := UInt16.ofNat (8 + p.2.length) } ++ p.2 := by
  rw [serialise, foldl_recorder ps h, List.nil_append]
  rfl

private theorem expected_yields (v : UInt8) (qs : List (Request × Bytes))
    (h : ∀ p ∈ qs, p.1.body.Yields p.2 ∧ 8 + p.2.length ≤ 65535) :
    ∀ p ∈ qs.filterMap (expected v), p.1.body.Yields p.2 ∧ 8 + p.2.length ≤ 65535 := by
  intro p hp
  obtain ⟨p', h1, h2⟩ := List.mem_filterMap.mp hp
  have h3 := (h p' h1).2
  unfold expected at h2
  simp only at h2
  split at h2
  · simp only [Option.some.injEq] at h2; subst h2; exact ⟨rfl, by simp⟩
  · split at h2
    · simp only [Option.some.injEq] at h2; subst h2; exact ⟨rfl, h3⟩
    · simp at h2

/-- What the peer of a server with `SequentialRunner` and the handler `ops` gets, when it sends
what is on the stream `r` and shuts down its sending side, and the replies are `as`: at any
moment a beginning of the replies; when the connection is closed after the end of the stream
and the transport has not failed, all of them; and then its `Receive` returns them, in any
fragmentation, one after the other, and then the end of the stream. -/
def Answers (ops : Request → List ConnOp) (r : Rd) (as : List (Request × Bytes)) : Prop :=
  (∀ s, Live.Steps true ConnOp.call (serveOps fun _ => ops) (.init r) s → s.net.go.sh.tr.out <+: serialise (as.map (·.1))) ∧
  ∀ s, Live.Calm true ConnOp.call (serveOps fun _ => ops) (.init r) s → s.srv.phase = .gone → s.srv.rcv = .ended →
    s.net.go.sh.tr.out = serialise (as.map (·.1)) ∧
    ∀ (F' : Err) (back : Rd), back.Ok F' → back.Sep → back.content = s.net.go.sh.tr.out →
      (receiveN as.length back).1 = as.map (fun p => (some (asReceived p), none)) ∧
      ∃ r', Conn.receive (receiveN as.length back).2 = (none, some F', r')

/-- C68.  A handler that answers each request with at most one message `ans`: the peer gets these
answers. -/
theorem served_answers {α : Type} (ops : Request → List ConnOp) (req : α → Request × Bytes)
    (ans : α → Option (Request × Bytes)) (F : Err)
    (qs : List α) (h : ∀ m ∈ qs, (req m).1.body.Yields (req m).2 ∧ 8 + (req m).2.length ≤ 65535) (r : Rd)
    (hr : r.Ok F) (hsep : r.Sep) (hc : r.content = serialise (qs.map fun m => (req m).1))
    (hy : ∀ p ∈ qs.filterMap ans, p.1.body.Yields p.2 ∧ 8 + p.2.length ≤ 65535)
    (ha : ∀ p ∈ qs, (ops (asReceived (req p))).flatMap ConnOp.message = ((ans p).toList.flatMap fun p =>
      Header.bytes { p.1.header with length := UInt16.ofNat (8 + p.2.length) } ++ p.2)) :
    Answers ops r (qs.filterMap ans) := by
  have hc' : r.content = serialise ((qs.map req).map (·.1)) := by rw [List.map_map]; exact hc
  have h' : ∀ p ∈ qs.map req, p.1.body.Yields p.2 ∧ 8 + p.2.length ≤ 65535 := by
    intro p hp
    obtain ⟨m, hm, rfl⟩ := List.mem_map.mp hp
    exact h m hm
  have key : ∀ l : List α, (∀ p ∈ l, p ∈ qs) →
      ((l.map req).map asReceived).flatMap (fun q => (ops q).flatMap ConnOp.message) =
      (l.filterMap ans).flatMap fun p =>
        Header.bytes { p.1.header with length := UInt16.ofNat (8 + p.2.length) } ++ p.2 := by
    intro l
    induction l with
    | nil => intro _; rfl
    | cons p l ih =>
      intro hl
      rw [List.map_cons, List.map_cons, List.flatMap_cons, ha p (hl p (by simp)), ih fun x hx => hl x (by simp [hx])]
      cases he : ans p with
      | none => simp [he]
      | some x => simp [he]
  have key := key qs fun p hp => hp
  refine ⟨fun s hs' => ?_, fun s hs' hp he => ?_⟩
  · rw [serialise_eq _ hy, ← key]
    obtain ⟨⟨t, ht⟩, _⟩ := served_stream true _ _ F _ h' r hr hsep hc' s hs'
    rw [← ht, List.flatMap_append]
    have := served_replies _ r s hs'
    rw [mapIdx_flatten (fun q => (ops q).flatMap ConnOp.message)] at this
    exact this.trans (List.prefix_append _ _)
  · have hout : s.net.go.sh.tr.out = serialise ((qs.filterMap ans).map (·.1)) := by
      rw [serialise_eq _ hy, ← key, ← (served_stream true _ _ F _ h' r hr hsep hc' s hs'.steps).2 he]
      rw [served_all_healthy _ r s hs' (by simp [hp]), mapIdx_flatten (fun q => (ops q).flatMap ConnOp.message)]
    refine ⟨hout, fun F' back b1 b2 b3 => ?_⟩
    obtain ⟨g1, _, g2⟩ := stream_framing F' _ hy back [] b1 b2 (by rw [b3, hout, List.append_nil])
    exact ⟨g1, g2 rfl⟩

section

variable (v : UInt8) (env : Nat → MatchFn) (dflt : Handler) (hs : MuxMap) (order : Request → MuxMap)

/-- The multiplexer of the controller: a `TypeMux` with a `HelloHandler` for hellos and an
`EchoHandler` for echo requests, registered in any order, with any handlers that write nothing
for other types and as default. -/
structure Registered : Prop where
  reach : TypeMuxReach env dflt hs
  order : ∀ q, (order q).Perm hs
  hello : ∃ e, (.typ 0, e) ∈ hs ∧ e.handler = .user 0
  echo : ∃ e, (.typ 2, e) ∈ hs ∧ e.handler = .user 1
  other : ∀ t e, (.typ t, e) ∈ hs → t ≠ 0 → t ≠ 2 → e.handler = .discard
  dflt : dflt = .discard
  persistent : ∀ p ∈ hs, p.2.once = false

/-- C69.  Serving a request leaves that multiplexer and the request as they were. -/
theorem controller_stays (hm : Registered env dflt hs order) (q : Request) :
    (hs.handler env dflt (order q) q).2 = (hs, q) := by
  have hp := hm.order q
  have hsr : ∀ l : MuxMap, (∀ p ∈ l, p ∈ hs) → (l.search env q).2 = q ∧ ∀ p ∈ (l.search env q).1, p ∈ hs := by
    intro l
    induction l with
    | nil => intro _; simp [MuxMap.search]
    | cons a t ih =>
      intro hl
      obtain ⟨m, e⟩ := a
      obtain ⟨ty, hty⟩ := typeMux_types hm.reach (m, e) (hl _ (by simp))
      simp only at hty
      subst hty
      by_cases hb : (q.header.type == ty) = true
      · simp only [MuxMap.search, Matcher.run, typeMatch, hb]
        refine ⟨trivial, fun p hp => ?_⟩
        simp at hp
        subst hp
        exact hl _ (by simp)
      · simp only [Bool.not_eq_true] at hb
        simp only [MuxMap.search, Matcher.run, typeMatch, hb]
        exact ih fun p hp => hl p (by simp [hp])
  obtain ⟨h1, h2⟩ := hsr (order q) fun p h => hp.mem_iff.mp h
  unfold MuxMap.handler
  split
  · next r' he => rw [he] at h1; simp at h1; rw [h1]
  · next m e r' he =>
    rw [he] at h1 h2
    have := hm.persistent (m, e) (h2 _ (by simp))
    simp at h1 this
    simp [this, h1]

private theorem mux_message (hm : Registered env dflt hs order) (p : Request × Bytes) :
    (muxOps (controllerOps v) env dflt hs order (asReceived p)).flatMap ConnOp.message =
      ((expected v p).toList.flatMap fun p =>
        Header.bytes { p.1.header with length := UInt16.ofNat (8 + p.2.length) } ++ p.2) := by
  obtain ⟨h1, h2⟩ := typeMux_route env dflt hs (order (asReceived p)) hm.reach (hm.order _) (asReceived p)
  by_cases t0 : p.1.header.type = 0
  · obtain ⟨e, he, hh⟩ := hm.hello
    have h3 := h1 e (by rw [show (asReceived p).header.type = 0 from t0]; exact he)
    rw [muxOps, h3, hh]
    simp only [controllerOps, helloOps, List.flatMap_cons, List.flatMap_nil, List.append_nil]
    rw [respond_message _ _ _ [] (.inl ⟨rfl, rfl⟩)]
    simp [expected, t0, Header.copy, asReceived]
  · by_cases t2 : p.1.header.type = 2
    · obtain ⟨e, he, hh⟩ := hm.echo
      have h3 := h1 e (by rw [show (asReceived p).header.type = 2 from t2]; exact he)
      rw [muxOps, h3, hh]
      have hw : EchoReply.writeTo ⟨p.2⟩ = ⟨p.2, p.2.length, none⟩ := by
        simp [EchoReply.writeTo, Enc.writeTo, Enc.gather]
      simp only [controllerOps, echoOps, asReceived, List.flatMap_cons, List.flatMap_nil, List.append_nil]
      rw [respond_message _ _ _ p.2 (.inr ⟨_, by rw [hw]⟩)]
      simp [expected, t2, Header.copy]
    · have h3 : (hs.handler env dflt (order (asReceived p)) (asReceived p)).1 = .discard := by
        by_cases hx : ∃ e, (.typ p.1.header.type, e) ∈ hs
        · obtain ⟨e, he⟩ := hx
          rw [h1 e he, hm.other _ e he t0 t2]
        · rw [h2 fun e he => hx ⟨e, he⟩, hm.dflt]
      rw [muxOps, h3]
      simp [controllerOps, expected, t0, t2]

/-- C69, from bytes to bytes and back.  A server with `SequentialRunner` and the multiplexer
above.  The peer sends the requests `qs`, in any fragmentation, and shuts down its sending side.
What it gets is at any moment a beginning of the replies it expects; when the connection is
closed after the end of the stream and the transport has not failed, it has got all of them;
and its `Receive` returns them, in any fragmentation, one after the other, then the end of the
stream. -/
theorem controller_answers (hm : Registered env dflt hs order) (F : Err) (qs : List (Request × Bytes))
    (h : ∀ p ∈ qs, p.1.body.Yields p.2 ∧ 8 + p.2.length ≤ 65535) (r : Rd)
    (hr : r.Ok F) (hsep : r.Sep) (hc : r.content = serialise (qs.map (·.1))) :
    Answers (muxOps (controllerOps v) env dflt hs order) r (qs.filterMap (expected v)) :=
  served_answers _ id (expected v) F qs h r hr hsep hc (expected_yields v qs h)
    fun p _ => mux_message v env dflt hs order hm p

/-- C69.  Whatever has happened (short of a stop, a refusal and a failing transport), it can go on
to where the peer has all its replies. -/
theorem controller_answers_all (hm : Registered env dflt hs order) (F : Err) (qs : List (Request × Bytes))
    (h : ∀ p ∈ qs, p.1.body.Yields p.2 ∧ 8 + p.2.length ≤ 65535) (r : Rd)
    (hr : r.Ok F) (hsep : r.Sep) (hc : r.content = serialise (qs.map (·.1))) (s : Live ConnOp)
    (hs' : Live.Calm true ConnOp.call (serveOps fun _ => (muxOps (controllerOps v) env dflt hs order)) (.init r) s)
    (hl : s.srv.leaked = false) (ho : s.srv.rcv ≠ .off) :
    ∃ s', Live.Calm true ConnOp.call (serveOps fun _ => (muxOps (controllerOps v) env dflt hs order)) s s' ∧
      s'.net.go.sh.tr.out = serialise ((qs.filterMap (expected v)).map (·.1)) := by
  obtain ⟨s', g1, g2, g3, _⟩ := served_to_end true _ _ F r hr s hs' hl ho
  exact ⟨s', g1, ((controller_answers v env dflt hs order hm F qs h r hr hsep hc).2 s' (hs'.trans g1) g2 g3).1⟩

end

/-- Non-vacuity: a multiplexer with the two handlers. -/
example : Registered (fun _ r => (false, r)) .discard
    [(.typ 2, ⟨.user 1, false, 1⟩), (.typ 0, ⟨.user 0, false, 0⟩)]
    (fun _ => [(.typ 0, ⟨.user 0, false, 0⟩), (.typ 2, ⟨.user 1, false, 1⟩)]) :=
  ⟨.handle 2 (some (.user 1)) false 1 (.handle 0 (some (.user 0)) false 0 .new),
    fun _ => List.Perm.swap _ _ _, ⟨⟨.user 0, false, 0⟩, by simp, rfl⟩, ⟨⟨.user 1, false, 1⟩, by simp, rfl⟩,
    fun t e he h0 h2 => by simp at he; rcases he with he | he <;> exact absurd he.1 (by assumption), rfl, by simp⟩

/-- Non-vacuity: a hello, a features request and an echo request are answered by two messages. -/
example : serialise (([(newRequest 0 none, []), (newRequest 5 none, []),
    (newRequest 2 (some fun _ => ⟨[9], 1, none⟩), [9])].filterMap (expected 4)).map (·.1)) =
      [4, 0, 0, 8, 0, 0, 0, 0, 4, 3, 0, 9, 0, 0, 0, 0, 9] := by decide +kernel

/-! ## C70: the controller of the README -/

/-- The flow of the README: whatever arrived with the match of the packet is sent to all ports;
`PortFlood` is 0xfffffffb, ofp/port.go:233. -/
def floodFlow (p : PacketIn) : FlowMod :=
  { newFlowMod 0 (some (p.buffer, p.mtch)) with instructions := [.applyActions [.output 0xfffffffb 0]] }

/-- The handler of the README: it decodes the body as packet-in, ignoring the error, and writes a
flow-mod under a header that has only the type.  `rd b` is a `bytes.Buffer` with the content `b`
as a reader. -/
def floodOps (rd : Bytes → Rd) (q : Request) : List ConnOp :=
  match q.body with
  | .buffer b => [.respond q.header.version ⟨0, 14, 0, 0⟩
      (some (floodFlow (PacketIn.readFrom ⟨0, 0, 0, 0, 0, ⟨0, []⟩, []⟩ (rd b)).val).writeTo)]
  | _ => []

/-- Only that handler. -/
def readmeOps (rd : Bytes → Rd) : Handler → Request → List ConnOp
  | .user 0, q => floodOps rd q
  | _, _ => []

/-- What a switch sends: packet-ins, and other messages. -/
def switchBody : PacketIn ⊕ Bytes → Bytes
  | .inl p => p.writeTo.out
  | .inr b => b

def switchRequest (m : Header × (PacketIn ⊕ Bytes)) : Request × Bytes :=
  (⟨m.1, .buffer (switchBody m.2), 0, 0, 0⟩, switchBody m.2)

/-- The messages are not too long, packet-ins (and only they) have type 10 and a well-formed
match, and the flow-mod for it is not too long. -/
def SwitchSends (m : Header × (PacketIn ⊕ Bytes)) : Prop :=
  8 + (switchBody m.2).length ≤ 65535 ∧
  match m.2 with
  | .inl p => m.1.type = 10 ∧ p.mtch.Valid ∧ 8 + (floodFlow p).writeTo.out.length ≤ 65535
  | .inr _ => m.1.type ≠ 10

/-- The flow-mod a switch expects for a packet-in.  Its transaction is 0, not that of the
packet-in: `ResponseWriter.Write` completes the version only. -/
def floodReply (m : Header × (PacketIn ⊕ Bytes)) : Option (Request × Bytes) :=
  match m.2 with
  | .inl p => some (⟨⟨m.1.version, 14, 0, 0⟩, .buffer (floodFlow p).writeTo.out, 0, 0, 0⟩, (floodFlow p).writeTo.out)
  | .inr _ => none

section

variable (rd : Bytes → Rd) (env : Nat → MatchFn) (dflt : Handler) (hs : MuxMap) (order : Request → MuxMap)

/-- The multiplexer of the README: the handler is registered for packet-ins; nothing else is
registered; `DefaultHandler` is `DiscardHandler`, mux.go:70. -/
structure ReadmeMux : Prop where
  reach : TypeMuxReach env dflt hs
  order : ∀ q, (order q).Perm hs
  packetIn : ∃ e, (.typ 10, e) ∈ hs ∧ e.handler = .user 0
  other : ∀ t e, (.typ t, e) ∈ hs → t = 10
  dflt : dflt = .discard
  persistent : ∀ p ∈ hs, p.2.once = false

/-- C70, from bytes to bytes and back: the controller of the README.  A switch sends packet-ins
and other messages, in any fragmentation, and shuts down its sending side.  What it gets is at
any moment a beginning of the flow-mods for the packet-ins; all of them when the connection is
closed and the transport has not failed; and its `Receive` returns them in order. -/
theorem readme_answers (hrd : ∀ b, (rd b).Ok .eof ∧ (rd b).content = b) (hm : ReadmeMux env dflt hs order) (F : Err)
    (ms : List (Header × (PacketIn ⊕ Bytes))) (h : ∀ m ∈ ms, SwitchSends m) (r : Rd)
    (hr : r.Ok F) (hsep : r.Sep) (hc : r.content = serialise (ms.map fun m => (switchRequest m).1)) :
    Answers (muxOps (readmeOps rd) env dflt hs order) r (ms.filterMap floodReply) := by
  refine served_answers _ switchRequest floodReply F ms (fun m hm => ⟨rfl, (h m hm).1⟩) r hr hsep hc ?_ ?_
  · intro p hp
    obtain ⟨⟨hd, x⟩, h1, h2⟩ := List.mem_filterMap.mp hp
    have h3 := (h _ h1).2
    cases x with
    | inr b => simp [floodReply] at h2
    | inl pk =>
      simp only [floodReply, Option.some.injEq] at h2
      subst h2
      exact ⟨rfl, h3.2.2⟩
  · rintro ⟨hd, x⟩ h1
    have h2 := (h _ h1).2
    obtain ⟨g1, g2⟩ := typeMux_route env dflt hs (order (asReceived (switchRequest (hd, x)))) hm.reach (hm.order _)
      (asReceived (switchRequest (hd, x)))
    have ht : (asReceived (switchRequest (hd, x))).header.type = hd.type := rfl
    cases x with
    | inr b =>
      have h2 : hd.type ≠ 10 := h2
      have h3 := g2 (by rw [ht]; exact fun e he => h2 (hm.other _ e he))
      rw [muxOps, h3, hm.dflt]
      rfl
    | inl pk =>
      have h2 : hd.type = 10 ∧ pk.mtch.Valid ∧ 8 + (floodFlow pk).writeTo.out.length ≤ 65535 := h2
      obtain ⟨e, he, hh⟩ := hm.packetIn
      have h3 := g1 e (by rw [ht, h2.1]; exact he)
      rw [muxOps, h3, hh]
      have hdec := ((packetIn_roundtrip pk h2.2.1).2 ⟨0, 0, 0, 0, 0, ⟨0, []⟩, []⟩ (rd pk.writeTo.out) (hrd _).1 (hrd _).2).1
      have hw : ∀ f : FlowMod, f.writeTo = ⟨f.writeTo.out, f.writeTo.n, none⟩ := by intro f; rw [FlowMod.out_eq]
      simp only [readmeOps, floodOps, asReceived, switchRequest, switchBody, hdec, List.flatMap_cons, List.flatMap_nil,
        List.append_nil]
      rw [respond_message _ _ _ (floodFlow pk).writeTo.out (.inr ⟨_, by rw [← hw]⟩)]
      simp [floodReply]

/-- C70.  What the switch makes of such a flow-mod: decoding the body of the reply gives an `add`
for the match and the buffer of the packet-in, with the flags, timeouts and wildcards of
`NewFlowMod`, that floods. -/
theorem readme_flow (p : PacketIn) (hm : p.mtch.Valid) :
    DecodesAll FlowMod.readFrom (floodFlow p).writeTo.out ⟨0, 0, 0, 0, 0, 0, 0, p.buffer, 0xffffffff, 0xffffffff, 1, p.mtch,
      [.applyActions [.output 0xfffffffb 0]]⟩ :=
  (flowMod_roundtrip (floodFlow p) hm (by simp [floodFlow, Instruction.Valid]; decide)).2

end

/-- Non-vacuity: the multiplexer of the README, and a switch that sends a packet-in for port 1
and an echo request. -/
example : ReadmeMux (fun _ r => (false, r)) .discard [(.typ 10, ⟨.user 0, false, 0⟩)] (fun _ => [(.typ 10, ⟨.user 0, false, 0⟩)]) ∧
    SwitchSends (⟨4, 10, 0, 77⟩, .inl ⟨0xffffffff, 2, 0, 0, 0, ⟨1, [⟨0x8000, 0, [0, 0, 0, 1], []⟩]⟩, [1, 2]⟩) ∧
    SwitchSends (⟨4, 2, 0, 78⟩, .inr [9]) ∧
    ∀ b, (Rd.src b [] .eof false).Ok .eof ∧ (Rd.src b [] .eof false).content = b := by
  refine ⟨⟨.handle 10 (some (.user 0)) false 0 .new, fun _ => .refl _, ⟨⟨.user 0, false, 0⟩, by simp, rfl⟩,
    by simp +contextual, rfl, by simp⟩, ?_, ?_, fun b => ⟨rfl, rfl⟩⟩
  · exact ⟨by decide +kernel, rfl, by decide +kernel, by decide +kernel⟩
  · exact ⟨by decide, by decide⟩

end Verif.Props
