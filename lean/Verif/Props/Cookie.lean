import Verif.Cookie
import Verif.Spec.Wire

/-!
# Properties C18, C19: cookie matchers
-/

namespace Verif.Props

open Verif

/-! ## C18 -/

/-- C18.  For a jar type whose `Cookies` returns what `SetCookies` stored, `NewCookieMatcher`
puts the same number into the jar and into the matcher: the one made of the two random words. -/
theorem newCookieMatcher_same {α : Type} (j : Jar α) (hj : ∀ c v, j.cookies (j.setCookies c v) = c)
    (lo hi : UInt32) (v : α) :
    j.cookies (newCookieMatcher lo hi j v).1 = (newCookieMatcher lo hi j v).2.cookies ∧
    (newCookieMatcher lo hi j v).2.cookies.toNat = hi.toNat * 2 ^ 32 + lo.toNat := by
  refine ⟨hj _ _, ?_⟩
  simp only [newCookieMatcher, UInt64.toNat_or, UInt64.toNat_shiftLeft, UInt32.toNat_toUInt64]
  have h1 := lo.toNat_lt
  have h2 := hi.toNat_lt
  have h3 : (hi.toNat <<< ((32 : UInt64).toNat % 64)) = 2 ^ 32 * hi.toNat := by
    rw [Nat.shiftLeft_eq]; simp [Nat.mul_comm]
  rw [h3, Nat.mod_eq_of_lt (by omega), ← Nat.two_pow_add_eq_or_of_lt (by omega)]
  omega

/-- C18.  The six cookie-carrying message types meet the hypothesis; `SetCookies` changes
nothing else. -/
theorem jars_lawful :
    (∀ c v, PacketIn.jar.cookies (PacketIn.jar.setCookies c v) = c) ∧
    (∀ c v, FlowMod.jar.cookies (FlowMod.jar.setCookies c v) = c) ∧
    (∀ c v, FlowRemoved.jar.cookies (FlowRemoved.jar.setCookies c v) = c) ∧
    (∀ c v, FlowStatsRequest.jar.cookies (FlowStatsRequest.jar.setCookies c v) = c) ∧
    (∀ c v, FlowStats.jar.cookies (FlowStats.jar.setCookies c v) = c) ∧
    (∀ c v, AggregateStatsRequest.jar.cookies (AggregateStatsRequest.jar.setCookies c v) = c) :=
  ⟨fun _ _ => rfl, fun _ _ => rfl, fun _ _ => rfl, fun _ _ => rfl, fun _ _ => rfl, fun _ _ => rfl⟩

/-- The body holds the bytes `b`: the buffer of a received request, a reader supplied by the
user (with any fragmentation), or the body of `NewRequest`, not read yet. -/
inductive Holds : Body → Bytes → Prop where
  | buffer (b) : Holds (.buffer b) b
  | reader (r : Rd) (b) (h : r.Ok .eof) (hc : r.content = b) : Holds (.reader r) b
  | fresh (f : Nat → Wr) (b) (hf : (f 0).out = b) (he : (f 0).err = none) :
    Holds (.copy ⟨some f, 0, [], none, false⟩) b

private theorem run_holds {α : Type} (m : CookieMatcher α) (q : Request) (b : Bytes)
    (h : Holds q.body b) :
    m.run q = (m.decide b, { q with body := .buffer (match q.body with | .buffer _ => [] | _ => b) }) := by
  rcases q with ⟨h1, body, pm, pn, cl⟩
  simp only at h
  cases h with
  | buffer => simp [CookieMatcher.run]
  | reader r _ hr hc =>
    obtain ⟨r', g1, _⟩ := readAll_spec .eof r hr
    simp [CookieMatcher.run, Body.readAll, g1, hc, skipEOF]
  | fresh f _ hf he =>
    obtain ⟨c', g⟩ := CopyReader.readAll_fresh f b hf he
    simp [CookieMatcher.run, Body.readAll, g]

private theorem decide_true {α : Type} (m : CookieMatcher α) (b : Bytes) :
    m.decide b = some true ↔ (m.jar.readFrom m.jar.zero (bufferRd b)).err = none ∧
      m.jar.cookies (m.jar.readFrom m.jar.zero (bufferRd b)).val = m.cookies := by
  unfold CookieMatcher.decide Jar.readCookie
  rcases m.jar.readFrom m.jar.zero (bufferRd b) with ⟨v, n, e, r⟩
  cases e with
  | none => simp
  | some e => cases e <;> simp

/-- A matcher for messages whose cookie is the 8-byte number at offset `off`: whatever kind
of body the request has and whatever bytes `b` it holds, the matcher accepts iff the message
decodes without error and the number at that place of the body is the cookie. -/
def DecidesOn {α : Type} (j : Jar α) (off : Nat) : Prop :=
  ∀ (c : UInt64) (q : Request) (b : Bytes), Holds q.body b →
    (((CookieMatcher.mk c j).run q).1 = some true ↔
      (j.readFrom j.zero (bufferRd b)).err = none ∧ At b off 8 c.toNat)

private theorem toNat_ofBE_u64 {b : Bytes} (h : b.length = 8) : (ofBE UInt64 b).toNat = getBE b := by
  have := getBE_lt b
  rw [h] at this
  simp only [ofBE, Wire.ofNat, UInt64.toNat_ofNat']
  omega

private theorem decidesOn {α : Type} (j : Jar α) (off : Nat) (h : NumAt j.cookies j.readFrom off) :
    DecidesOn j off := by
  intro c q b hb
  rw [run_holds _ q b hb]
  simp only
  rw [decide_true]
  simp only
  constructor
  · rintro ⟨h1, h2⟩
    obtain ⟨h3, h4⟩ := h j.zero (bufferRd b) (bufferRd_ok b) h1
    refine ⟨h1, ?_⟩
    have hc : (bufferRd b).content = b := rfl
    rw [hc] at h3 h4; simp only [size_u64] at h3 h4
    refine ⟨h3, ?_⟩
    rw [← h2, h4, toNat_ofBE_u64 (by simp; omega)]
  · rintro ⟨h1, h2, h3⟩
    obtain ⟨h4, h5⟩ := h j.zero (bufferRd b) (bufferRd_ok b) h1
    refine ⟨h1, ?_⟩
    have hc : (bufferRd b).content = b := rfl
    rw [hc] at h4 h5; simp only [size_u64] at h4 h5
    apply UInt64.toNat_inj.mp
    rw [h5, toNat_ofBE_u64 (by simp; omega), h3]

/-- C18.  Packet-in: buffer 4, length 2, reason 1, table 1, cookie. -/
theorem packetIn_cookie : DecidesOn PacketIn.jar 8 := decidesOn _ _ PacketIn.cookie_at
/-- C18.  Flow modification: the cookie comes first. -/
theorem flowMod_cookie : DecidesOn FlowMod.jar 0 := decidesOn _ _ FlowMod.cookie_at
/-- C18.  Flow removed: the cookie comes first. -/
theorem flowRemoved_cookie : DecidesOn FlowRemoved.jar 0 := decidesOn _ _ FlowRemoved.cookie_at
/-- C18.  Flow statistics request: table 1, pad 3, port 4, group 4, pad 4, cookie. -/
theorem flowStatsRequest_cookie : DecidesOn FlowStatsRequest.jar 16 :=
  decidesOn _ _ FlowStatsRequest.cookie_at
/-- C18.  Flow statistics: length 2, table 1, pad 1, duration 8, priority 2, timeouts 4,
flags 2, pad 4, cookie. -/
theorem flowStats_cookie : DecidesOn FlowStats.jar 24 := decidesOn _ _ FlowStats.cookie_at
/-- C18.  Aggregate statistics request: as the flow statistics request. -/
theorem aggregateStatsRequest_cookie : DecidesOn AggregateStatsRequest.jar 16 :=
  decidesOn _ _ AggregateStatsRequest.cookie_at

private theorem encoded {α : Type} (j : Jar α) (b : Bytes) (x : α)
    (h : ∀ r : Rd, r.Ok .eof → r.content = b → (j.readFrom j.zero r).val = x ∧
      (j.readFrom j.zero r).err = none)
    (c : UInt64) (q : Request) (hb : Holds q.body b) :
    ((CookieMatcher.mk c j).run q).1 = some (j.cookies x == c) := by
  rw [run_holds _ q b hb]
  obtain ⟨h1, h2⟩ := h (bufferRd b) (bufferRd_ok b) rfl
  simp only [CookieMatcher.decide, Jar.readCookie, h1, h2]

/-- C18.  On a request carrying an encoded message (of a type for which the encoding is
decoded again, C28, C29): the answer is whether the cookies are equal. -/
theorem cookie_encoded (c : UInt64) (q : Request) :
    (∀ p : PacketIn, p.mtch.Valid → Holds q.body p.writeTo.out →
      ((CookieMatcher.mk c PacketIn.jar).run q).1 = some (p.cookie == c)) ∧
    (∀ f : FlowMod, f.mtch.Valid → (∀ i ∈ f.instructions, i.Valid) → Holds q.body f.writeTo.out →
      ((CookieMatcher.mk c FlowMod.jar).run q).1 = some (f.cookie == c)) ∧
    (∀ f : FlowRemoved, f.mtch.Valid → Holds q.body f.writeTo.out →
      ((CookieMatcher.mk c FlowRemoved.jar).run q).1 = some (f.cookie == c)) ∧
    (∀ f : FlowStatsRequest, f.mtch.Valid → Holds q.body f.writeTo.out →
      ((CookieMatcher.mk c FlowStatsRequest.jar).run q).1 = some (f.cookie == c)) ∧
    (∀ f : FlowStats, f.mtch.Valid → (∀ i ∈ f.instructions, i.Valid) → f.size ≤ 65535 →
      Holds q.body f.writeTo.out →
      ((CookieMatcher.mk c FlowStats.jar).run q).1 = some (f.cookie == c)) ∧
    (∀ f : AggregateStatsRequest, f.mtch.Valid → Holds q.body f.writeTo.out →
      ((CookieMatcher.mk c AggregateStatsRequest.jar).run q).1 = some (f.cookie == c)) := by
  refine ⟨fun p hm hb => ?_, fun p hm hi hb => ?_, fun p hm hb => ?_, fun p hm hb => ?_,
    fun p hm hi hs hb => ?_, fun p hm hb => ?_⟩
  · exact encoded PacketIn.jar _ p (fun r hr hc =>
      let h := ReadsAll.decodes (p.readsAll hm) PacketIn.jar.zero r hr hc
      ⟨h.1, h.2.2.1⟩) c q hb
  · exact encoded FlowMod.jar _ p (fun r hr hc =>
      let h := ReadsAll.decodes (p.readsAll hm hi) FlowMod.jar.zero r hr hc
      ⟨h.1, h.2.2.1⟩) c q hb
  · exact encoded FlowRemoved.jar _ p (fun r hr hc =>
      let h := Reads.decodes (p.reads hm) FlowRemoved.jar.zero r [] hr (by simpa using hc)
      ⟨h.1, h.2.2.1⟩) c q hb
  · exact encoded FlowStatsRequest.jar _ p (fun r hr hc =>
      let h := Reads.decodes (p.reads hm) FlowStatsRequest.jar.zero r [] hr (by simpa using hc)
      ⟨h.1, h.2.2.1⟩) c q hb
  · exact encoded FlowStats.jar _ p (fun r hr hc =>
      let h := Reads.decodes (p.reads hm hi hs) FlowStats.jar.zero r [] hr (by simpa using hc)
      ⟨h.1, h.2.2.1⟩) c q hb
  · exact encoded AggregateStatsRequest.jar _ p (fun r hr hc =>
      let h := Reads.decodes (p.reads hm) AggregateStatsRequest.jar.zero r [] hr (by simpa using hc)
      ⟨h.1, h.2.2.1⟩) c q hb

/-- C18.  A body that cannot be read to its end is rejected. -/
theorem cookie_read_error {α : Type} (m : CookieMatcher α) (q : Request) (r : Rd) (F : Err)
    (hr : r.Ok F) (hF : F ≠ .eof) (hb : q.body = .reader r) : (m.run q).1 = some false := by
  obtain ⟨r', g1, _⟩ := readAll_spec F r hr
  have hs : skipEOF F = some F := by cases F <;> simp_all [skipEOF]
  simp [CookieMatcher.run, hb, Body.readAll, g1, hs]

/-- A request without a body makes the matcher panic.  `Receive` never returns one. -/
theorem cookie_nil_panics {α : Type} (m : CookieMatcher α) (q : Request) (hb : q.body = .nil) :
    (m.run q).1 = none := by
  simp [CookieMatcher.run, hb]

/-- Non-vacuity: a packet-in with cookie 7. -/
example : ((CookieMatcher.mk 7 PacketIn.jar).run { Request.zero with
      body := .buffer (PacketIn.writeTo ⟨0, 0, 0, 0, 7, ⟨1, []⟩, [1, 2]⟩).out }).1 = some true ∧
    ((CookieMatcher.mk 8 PacketIn.jar).run { Request.zero with
      body := .buffer (PacketIn.writeTo ⟨0, 0, 0, 0, 7, ⟨1, []⟩, [1, 2]⟩).out }).1 = some false := by
  decide +kernel

/-! ## C19 -/

/-- C19, the part that holds: for a body other than a `bytes.Buffer` (a request made by
`NewRequest`, or a reader of the user's) the request keeps its bytes, now in a buffer, and
everything else.  Missing: received requests, whose body is a `bytes.Buffer`, and the second
cookie matcher for all requests. -/
theorem cookie_keeps_body_partial {α : Type} (m : CookieMatcher α) (q : Request) (b : Bytes)
    (h : Holds q.body b) (hb : ∀ b', q.body ≠ .buffer b') :
    (m.run q).2 = { q with body := .buffer b } := by
  rw [run_holds m q b h]
  cases hq : q.body with
  | buffer b' => exact absurd hq (hb b')
  | _ => rfl

/-- C19 is false: every received request loses its body in the first cookie matcher that
sees it, whether it matches or not; the handler and later matchers see an empty body. -/
theorem cookie_keeps_body_false {α : Type} (m : CookieMatcher α) (r r' : Rd)
    (q : Request) (h : Conn.receive r = (some q, none, r')) :
    (m.run q).2 = { q with body := .buffer [] } := by
  have : ∃ b, q.body = .buffer b := by
    simp only [Conn.receive] at h
    unfold Request.readFrom at h
    rcases hh : Header.readFrom Request.zero.header r with ⟨hd, n, e, rd⟩
    simp only [hh] at h
    cases e with
    | some e => simp at h
    | none =>
      simp only at h
      by_cases hl : hd.len < headerlen
      · simp [hl] at h
      · simp only [hl, if_false] at h
        rcases hl2 : bodyLoop (hd.len - headerlen + 1) (hd.len - headerlen) rd with ⟨o, e, rd'⟩
        simp only [hl2] at h
        cases e with
        | some e => simp at h
        | none =>
          simp only [Prod.mk.injEq, Option.some.injEq, true_and] at h
          exact ⟨o, by rw [← h.1]⟩
  obtain ⟨b, hb⟩ := this
  simp [CookieMatcher.run, hb]

/-- C19 is false: for every packet-in received with a cookie for which a handler is
registered, routing depends on the order in which the matchers are tried.  If a matcher for
any other cookie comes first, the handler is not found. -/
theorem cookie_routing_false (p : PacketIn) (hm : p.mtch.Valid) (c : UInt64) (hc : c ≠ p.cookie)
    (q : Request) (hq : q.body = .buffer p.writeTo.out) (h₁ h₂ dflt : Handler) :
    let env : Nat → MatchFn := fun i =>
      if i = 0 then (CookieMatcher.mk c PacketIn.jar).fn else (CookieMatcher.mk p.cookie PacketIn.jar).fn
    let hs : MuxMap := [(.ptr 0, ⟨h₁, false, 0⟩), (.ptr 1, ⟨h₂, false, 1⟩)]
    (hs.handler env dflt hs q).1 = dflt ∧ (hs.handler env dflt hs.reverse q).1 = h₂ := by
  have hh : Holds q.body p.writeTo.out := by rw [hq]; exact .buffer _
  have h0 := (cookie_encoded c q).1 p hm hh
  have h1 := (cookie_encoded p.cookie q).1 p hm hh
  have hb0 : (p.cookie == c) = false := by simp [Ne.symm hc]
  rw [hb0] at h0
  have e0 : ((CookieMatcher.mk c PacketIn.jar).run q).2 = { q with body := .buffer [] } := by
    simp [CookieMatcher.run, hq]
  have hempty : ((CookieMatcher.mk p.cookie PacketIn.jar).run { q with body := .buffer [] }).1 ≠
      some true := by
    intro h
    have := (packetIn_cookie p.cookie { q with body := .buffer [] } [] (.buffer [])).mp h
    have := this.2.1
    simp at this
  have hb1 : (((CookieMatcher.mk p.cookie PacketIn.jar).run { q with body := .buffer [] }).1 ==
      some true) = false := by
    simpa using hempty
  refine ⟨?_, ?_⟩
  · simp [MuxMap.handler, MuxMap.search, Matcher.run, CookieMatcher.fn, h0, e0, hb1]
  · simp [MuxMap.handler, MuxMap.search, Matcher.run, CookieMatcher.fn, h1]

/-- Non-vacuity: a match without fields is valid. -/
example : Match.Valid ⟨1, []⟩ := by decide +kernel

end Verif.Props
