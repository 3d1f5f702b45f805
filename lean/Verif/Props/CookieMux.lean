import Verif.Props.Cookie
import Verif.Props.Mux

/-!
# Multiplexers with several cookie matchers (C84)

A program that has several requests under way registers one cookie matcher for each and expects
every answer at the handler of its cookie, with its body.  `Match` of a cookie matcher empties the
body of a received request (C19), so of all the cookie matchers of a multiplexer only the one that
is tried first can accept, and the order is that of a map.
-/

namespace Verif.Props

open Verif

/-- The messages that carry a cookie. -/
inductive CookieKind where
  | packetIn
  | flowMod
  | flowRemoved
  | flowStatsRequest
  | flowStats
  | aggregateStatsRequest
  deriving DecidableEq, Repr

/-- `Match` of `&CookieMatcher{c, CookieReaderOf(j)}` for a jar of that type. -/
def CookieKind.fn (c : UInt64) : CookieKind → MatchFn
  | .packetIn => (CookieMatcher.mk c PacketIn.jar).fn
  | .flowMod => (CookieMatcher.mk c FlowMod.jar).fn
  | .flowRemoved => (CookieMatcher.mk c FlowRemoved.jar).fn
  | .flowStatsRequest => (CookieMatcher.mk c FlowStatsRequest.jar).fn
  | .flowStats => (CookieMatcher.mk c FlowStats.jar).fn
  | .aggregateStatsRequest => (CookieMatcher.mk c AggregateStatsRequest.jar).fn

/-- Where the cookie is in the message. -/
def CookieKind.offset : CookieKind → Nat
  | .packetIn => 8
  | .flowMod => 0
  | .flowRemoved => 0
  | .flowStatsRequest => 16
  | .flowStats => 24
  | .aggregateStatsRequest => 16

/-- The bytes decode as a message of that type. -/
def CookieKind.Decodes (b : Bytes) : CookieKind → Prop
  | .packetIn => (PacketIn.readFrom PacketIn.jar.zero (bufferRd b)).err = none
  | .flowMod => (FlowMod.readFrom FlowMod.jar.zero (bufferRd b)).err = none
  | .flowRemoved => (FlowRemoved.readFrom FlowRemoved.jar.zero (bufferRd b)).err = none
  | .flowStatsRequest => (FlowStatsRequest.readFrom FlowStatsRequest.jar.zero (bufferRd b)).err = none
  | .flowStats => (FlowStats.readFrom FlowStats.jar.zero (bufferRd b)).err = none
  | .aggregateStatsRequest =>
    (AggregateStatsRequest.readFrom AggregateStatsRequest.jar.zero (bufferRd b)).err = none

/-- The bytes are a message of that type with that cookie. -/
def CookieKind.Carries (k : CookieKind) (b : Bytes) (c : UInt64) : Prop :=
  k.Decodes b ∧ At b k.offset 8 c.toNat

private theorem fn_accepts (k : CookieKind) (c : UInt64) (q : Request) (b : Bytes) (h : Holds q.body b) :
    (k.fn c q).1 = true ↔ k.Carries b c := by
  cases k
  · exact beq_iff_eq.trans (packetIn_cookie c q b h)
  · exact beq_iff_eq.trans (flowMod_cookie c q b h)
  · exact beq_iff_eq.trans (flowRemoved_cookie c q b h)
  · exact beq_iff_eq.trans (flowStatsRequest_cookie c q b h)
  · exact beq_iff_eq.trans (flowStats_cookie c q b h)
  · exact beq_iff_eq.trans (aggregateStatsRequest_cookie c q b h)

private theorem fn_drains (k : CookieKind) (c : UInt64) (q : Request) (b : Bytes) (h : q.body = .buffer b) :
    (k.fn c q).2 = { q with body := .buffer [] } := by
  cases k <;> simp [CookieKind.fn, CookieMatcher.fn, CookieMatcher.run, h]

private theorem carries_empty (k : CookieKind) (c : UInt64) : ¬ k.Carries [] c := by
  rintro ⟨_, h, _⟩
  simp at h

/-- A message carries at most one cookie. -/
theorem carries_unique {k : CookieKind} {b : Bytes} {c c' : UInt64} (h : k.Carries b c) (h' : k.Carries b c') :
    c = c' := UInt64.toNat_inj.mp (h.2.2.symm.trans h'.2.2)

/-- All entries are cookie matchers of some type and cookie. -/
def CookieEntries (env : Nat → MatchFn) (ck : Nat → CookieKind × UInt64) (order : MuxMap) : Prop :=
  ∀ m e, (m, e) ∈ order → ∃ i, m = .ptr i ∧ env i = (ck i).1.fn (ck i).2

private theorem search_empty {env : Nat → MatchFn} {ck : Nat → CookieKind × UInt64} :
    ∀ {order : MuxMap} {q : Request}, CookieEntries env ck order → q.body = .buffer [] →
      order.search env q = (none, q) := by
  intro order
  induction order with
  | nil => intro q _ _; rfl
  | cons p t ih =>
    intro q he hq
    obtain ⟨m, e⟩ := p
    obtain ⟨i, hm, hi⟩ := he m e (by simp)
    have h1 : (env i q).1 = false := by
      rw [hi]
      cases hh : ((ck i).1.fn (ck i).2 q).1 with
      | false => rfl
      | true => exact absurd ((fn_accepts _ _ q [] (by rw [hq]; exact .buffer _)).1 hh) (carries_empty _ _)
    have h2 : (env i q).2 = q := by rw [hi, fn_drains _ _ q [] hq]; cases q; simp_all
    subst hm
    rcases hx : env i q with ⟨x, y⟩
    rw [hx] at h1 h2
    subst h1 h2
    simp only [MuxMap.search, Matcher.run, hx]
    exact ih (fun m e h => he m e (by simp [h])) hq

/-- C84.  In a multiplexer of cookie matchers, whatever their number, a received request goes to the
entry that is tried first, if its cookie is the right one, and to the default handler otherwise.
The body is gone in both cases. -/
theorem cookie_mux_first (env : Nat → MatchFn) (ck : Nat → CookieKind × UInt64) (dflt : Handler)
    (hs : MuxMap) (i : Nat) (e : MuxEntry) (t : MuxMap) (hc : CookieEntries env ck ((.ptr i, e) :: t))
    (hi : (.ptr i, e) ∈ hs) (q : Request) (b : Bytes) (hq : q.body = .buffer b) :
    ((ck i).1.Carries b (ck i).2 → (hs.handler env dflt ((.ptr i, e) :: t) q).1 = e.handler) ∧
    (¬ (ck i).1.Carries b (ck i).2 → (hs.handler env dflt ((.ptr i, e) :: t) q).1 = dflt) ∧
    (hs.handler env dflt ((.ptr i, e) :: t) q).2.2 = { q with body := .buffer [] } := by
  have hk : (Matcher.ptr i) ∈ hs.keys := List.mem_map.2 ⟨_, hi, rfl⟩
  obtain ⟨i', hi', hi⟩ := hc _ e List.mem_cons_self
  cases hi'
  have h1 := fn_accepts (ck i).1 (ck i).2 q b (by rw [hq]; exact .buffer _)
  have h2 := fn_drains (ck i).1 (ck i).2 q b hq
  rw [← hi] at h1 h2
  rcases hx : env i q with ⟨x, y⟩
  rw [hx] at h1 h2
  simp only at h1 h2
  subst h2
  cases x with
  | true =>
    refine ⟨fun _ => ?_, fun h => absurd (h1.1 rfl) h, ?_⟩ <;>
      cases ho : e.once <;> simp [MuxMap.handler, MuxMap.search, Matcher.run, hx, ho, MuxMap.take, hk]
  | false =>
    have ht := search_empty (env := env) (ck := ck) (order := t) (q := { q with body := .buffer [] })
      (fun m e h => hc m e (List.mem_cons_of_mem _ h)) rfl
    have hd : hs.handler env dflt ((.ptr i, e) :: t) q = (dflt, hs, { q with body := .buffer [] }) := by
      simp [MuxMap.handler, MuxMap.search, Matcher.run, hx, ht]
    rw [hd]
    exact ⟨fun h => absurd (h1.2 h) (by simp), fun _ => rfl, rfl⟩

/-- What the user expects: the entry for the cookie of a message gets it, in whatever order the
entries are tried. -/
def RoutesByCookie (env : Nat → MatchFn) (ck : Nat → CookieKind × UInt64) (dflt : Handler) (hs : MuxMap)
    (q : Request) (b : Bytes) : Prop :=
  ∀ i e, (.ptr i, e) ∈ hs → (ck i).1.Carries b (ck i).2 →
    ∀ order, order.Perm hs → (hs.handler env dflt order q).1 = e.handler

/-- C84 is false for all multiplexers with cookie matchers for two or more cookies and for all received
messages that carry one of them: an order in which another matcher is tried first loses the
message. -/
theorem cookie_mux_false (env : Nat → MatchFn) (ck : Nat → CookieKind × UInt64) (dflt : Handler) (hs : MuxMap)
    (hc : CookieEntries env ck hs) (q : Request) (b : Bytes)
    (hq : q.body = .buffer b) (i j : Nat) (e e' : MuxEntry) (hi : (.ptr i, e) ∈ hs) (hj : (.ptr j, e') ∈ hs)
    (hci : (ck i).1.Carries b (ck i).2) (hcj : ¬ (ck j).1.Carries b (ck j).2) (hd : e.handler ≠ dflt) :
    ¬ RoutesByCookie env ck dflt hs q b := by
  intro h
  have hp := List.perm_cons_erase hj
  have hr := h i e hi hci _ hp.symm
  have := (cookie_mux_first env ck dflt hs j e' (hs.erase (.ptr j, e'))
    (fun m e he => hc m e (hp.mem_iff.2 he)) hj q b hq).2.1 hcj
  exact hd (hr.symm.trans this)

/-- C84, the part that holds: a single cookie matcher finds its messages and no others.  Missing: more
than one cookie matcher, and the body for the handler. -/
theorem cookie_mux_single_partial (env : Nat → MatchFn) (ck : Nat → CookieKind × UInt64) (dflt : Handler)
    (i : Nat) (e : MuxEntry) (hi : env i = (ck i).1.fn (ck i).2) (q : Request) (b : Bytes)
    (hq : q.body = .buffer b) (hd : e.handler ≠ dflt) :
    let hs : MuxMap := [(.ptr i, e)]
    ((hs.handler env dflt hs q).1 = e.handler ↔ (ck i).1.Carries b (ck i).2) ∧
      ((hs.handler env dflt hs q).1 = dflt ↔ ¬ (ck i).1.Carries b (ck i).2) := by
  intro hs
  have h := cookie_mux_first env ck dflt hs i e [] (fun m e' h => by
    simp at h; exact ⟨i, h.1, hi⟩) (by simp [hs]) q b hq
  by_cases hc : (ck i).1.Carries b (ck i).2
  · have := h.1 hc
    exact ⟨⟨fun _ => hc, fun _ => this⟩, fun h' => absurd (this.symm.trans h') hd, fun h' => absurd hc h'⟩
  · have := h.2.1 hc
    exact ⟨⟨fun h' => absurd (h'.symm.trans this) hd, fun h' => absurd h' hc⟩, fun _ => hc, fun _ => this⟩

/-! ## Behind the type -/

/-- `MultiMatcher(TypeMatcher(t), cookie)`. -/
def guarded (t : UInt8) (k : CookieKind) (c : UInt64) : MatchFn := multiMatch [typeMatch t, k.fn c]

private theorem guarded_other {t : UInt8} {k : CookieKind} {c : UInt64} {q : Request} (h : q.header.type ≠ t) :
    guarded t k c q = (false, q) := by
  have : (q.header.type == t) = false := by simpa using h
  simp [guarded, multiMatch, typeMatch, this]

private theorem guarded_own {t : UInt8} {k : CookieKind} {c : UInt64} {q : Request} (h : q.header.type = t) :
    guarded t k c q = k.fn c q := by
  rcases hx : k.fn c q with ⟨x, y⟩
  cases x <;> simp [guarded, multiMatch, typeMatch, h, hx]

/-- All entries are cookie matchers behind a matcher for the type, at most one for each type. -/
def GuardedEntries (env : Nat → MatchFn) (ck : Nat → UInt8 × CookieKind × UInt64) (order : MuxMap) : Prop :=
  (∀ m e, (m, e) ∈ order →
    ∃ i, m = .ptr i ∧ env i = guarded (ck i).1 (ck i).2.1 (ck i).2.2) ∧
  ∀ i j e e', (.ptr i, e) ∈ order → (.ptr j, e') ∈ order → (ck i).1 = (ck j).1 → i = j ∧ e = e'

private theorem search_others {env : Nat → MatchFn} {ck : Nat → UInt8 × CookieKind × UInt64} :
    ∀ {order : MuxMap} {q : Request}, (∀ m e, (m, e) ∈ order →
      ∃ i, m = .ptr i ∧ env i = guarded (ck i).1 (ck i).2.1 (ck i).2.2 ∧ q.header.type ≠ (ck i).1) →
      order.search env q = (none, q) := by
  intro order
  induction order with
  | nil => intro q _; rfl
  | cons p t ih =>
    intro q he
    obtain ⟨m, e⟩ := p
    obtain ⟨i, hm, hi, ht⟩ := he m e (by simp)
    subst hm
    have := guarded_other (k := (ck i).2.1) (c := (ck i).2.2) ht
    simp only [MuxMap.search, Matcher.run, hi, this]
    exact ih fun m e h => he m e (by simp [h])

private theorem search_pass {env : Nat → MatchFn} {ck : Nat → UInt8 × CookieKind × UInt64} (rest : MuxMap) :
    ∀ {order : MuxMap} {q : Request}, (∀ m e, (m, e) ∈ order →
      ∃ i, m = .ptr i ∧ env i = guarded (ck i).1 (ck i).2.1 (ck i).2.2 ∧ q.header.type ≠ (ck i).1) →
      MuxMap.search env (order ++ rest) q = MuxMap.search env rest q := by
  intro order
  induction order with
  | nil => intro q _; rfl
  | cons p t ih =>
    intro q he
    obtain ⟨m, e⟩ := p
    obtain ⟨i, hm, hi, ht⟩ := he m e (by simp)
    subst hm
    have := guarded_other (k := (ck i).2.1) (c := (ck i).2.2) ht
    simp only [List.cons_append, MuxMap.search, Matcher.run, hi, this]
    exact ih fun m e h => he m e (by simp [h])

/-- C84, another part that holds: with one cookie matcher for each type of message, behind
`MultiMatcher` and a matcher for the type, every received message is given to the entry of its type if
that is for its cookie, and to the default handler otherwise, in whatever order the entries are
tried. -/
theorem cookie_mux_types_partial (env : Nat → MatchFn) (ck : Nat → UInt8 × CookieKind × UInt64) (dflt : Handler)
    (hs order : MuxMap) (hp : order.Perm hs) (hg : GuardedEntries env ck hs) (hn : hs.Nodup) (q : Request) (b : Bytes)
    (hq : q.body = .buffer b) (i : Nat) (e : MuxEntry) (hi : (.ptr i, e) ∈ hs) (ht : q.header.type = (ck i).1) :
    ((ck i).2.1.Carries b (ck i).2.2 → (hs.handler env dflt order q).1 = e.handler) ∧
      (¬ (ck i).2.1.Carries b (ck i).2.2 → (hs.handler env dflt order q).1 = dflt) := by
  obtain ⟨pre, post, horder⟩ := List.append_of_mem (hp.mem_iff.2 hi)
  have hn' : order.Nodup := hp.nodup_iff.2 hn
  have other : ∀ m e', (m, e') ∈ pre ++ post → ∃ j, m = .ptr j ∧
      env j = guarded (ck j).1 (ck j).2.1 (ck j).2.2 ∧ q.header.type ≠ (ck j).1 := by
    intro m e' h
    have hmem : (m, e') ∈ order := by
      rw [horder]; rcases List.mem_append.1 h with h | h <;> simp [h]
    have hmem' := hp.mem_iff.1 hmem
    obtain ⟨j, hm, hj⟩ := hg.1 m e' hmem'
    refine ⟨j, hm, hj, fun heq => ?_⟩
    subst hm
    obtain ⟨h1, h2⟩ := hg.2 i j e e' hi hmem' (ht.symm.trans heq)
    subst h1 h2
    rw [horder, List.nodup_append] at hn'
    rcases List.mem_append.1 h with h | h
    · exact hn'.2.2 _ h _ List.mem_cons_self rfl
    · exact (List.nodup_cons.1 hn'.2.1).1 h
  have hk : (Matcher.ptr i) ∈ hs.keys := List.mem_map.2 ⟨_, hi, rfl⟩
  obtain ⟨i', hi', henv⟩ := hg.1 _ _ hi
  cases hi'
  have hs1 : MuxMap.search env order q = MuxMap.search env ((.ptr i, e) :: post) q := by
    rw [horder]; exact search_pass _ fun m e h => other m e (by simp [h])
  have h1 := fn_accepts (ck i).2.1 (ck i).2.2 q b (by rw [hq]; exact .buffer _)
  have h2 := fn_drains (ck i).2.1 (ck i).2.2 q b hq
  have hfn : env i q = (ck i).2.1.fn (ck i).2.2 q := by rw [henv, guarded_own ht]
  rcases hx : (ck i).2.1.fn (ck i).2.2 q with ⟨x, y⟩
  rw [hx] at h1 h2 hfn
  simp only at h1 h2
  subst h2
  cases x with
  | true =>
    refine ⟨fun _ => ?_, fun h => absurd (h1.1 rfl) h⟩
    cases ho : e.once <;> simp [MuxMap.handler, hs1, MuxMap.search, Matcher.run, hfn, ho, MuxMap.take, hk]
  | false =>
    refine ⟨fun h => absurd (h1.2 h) (by simp), fun _ => ?_⟩
    have := search_others (env := env) (ck := ck) (order := post) (q := { q with body := .buffer [] })
      (fun m e h => other m e (by simp [h]))
    simp [MuxMap.handler, hs1, MuxMap.search, Matcher.run, hfn, this]

/-- The order of the arguments of `MultiMatcher` matters: with the cookie matcher first, messages of
all types lose their bodies. -/
theorem guarded_reversed_false (t : UInt8) (k : CookieKind) (c : UInt64) (q : Request) (b : Bytes)
    (hq : q.body = .buffer b) :
    (multiMatch [k.fn c, typeMatch t] q).2 = { q with body := .buffer [] } := by
  have h2 := fn_drains k c q b hq
  rcases hx : k.fn c q with ⟨x, y⟩
  rw [hx] at h2
  simp only at h2
  subst h2
  cases x <;> simp [multiMatch, hx, typeMatch]
  cases q.header.type == t <;> rfl

/-- C17 is false of cookie matchers: for a received message that carries the cookie both matchers match,
and `MultiMatcher` of them does not, since the first one empties the body. -/
theorem multiMatcher_all_false (k : CookieKind) (c : UInt64) (q : Request) (b : Bytes) (hq : q.body = .buffer b)
    (hc : k.Carries b c) :
    (∀ m ∈ [k.fn c, k.fn c], (m q).1 = true) ∧ (multiMatch [k.fn c, k.fn c] q).1 = false := by
  have h1 : (k.fn c q).1 = true := (fn_accepts k c q b (by rw [hq]; exact .buffer _)).2 hc
  have h2 := fn_drains k c q b hq
  have h3 : (k.fn c { q with body := .buffer [] }).1 ≠ true := fun h =>
    carries_empty k c ((fn_accepts k c { q with body := .buffer [] } [] (.buffer _)).1 h)
  refine ⟨fun m hm => ?_, ?_⟩
  · simp only [List.mem_cons, List.not_mem_nil, or_false, or_self] at hm
    rw [hm]; exact h1
  · rcases hx : k.fn c q with ⟨x, y⟩
    rw [hx] at h1 h2
    simp only at h1 h2
    subst h1 h2
    rcases hy : k.fn c { q with body := .buffer [] } with ⟨x', y'⟩
    rw [hy] at h3
    simp only [Bool.not_eq_true] at h3
    subst h3
    simp [multiMatch, hx, hy]

/-! ## Cases -/

/-- A packet-in with the cookie 7. -/
def packet7 : Bytes := (PacketIn.writeTo ⟨0, 0, 0, 0, 7, ⟨1, []⟩, [1, 2]⟩).out

/-- A program that waits for packets with the cookies 7 and 8. -/
def cookies78 (i : Nat) : CookieKind × UInt64 := (.packetIn, if i = 0 then 7 else 8)

/-- The hypotheses of `cookie_mux_false`: two matchers, one of them disposable. -/
example :
    let env : Nat → MatchFn := fun i => (cookies78 i).1.fn (cookies78 i).2
    let hs : MuxMap := [(.ptr 0, ⟨.user 1, true, 0⟩), (.ptr 1, ⟨.user 2, false, 1⟩)]
    CookieEntries env cookies78 hs ∧ (cookies78 0).1.Carries packet7 (cookies78 0).2 ∧
      ¬ (cookies78 1).1.Carries packet7 (cookies78 1).2 := by
  intro env hs
  have h : CookieKind.packetIn.Carries packet7 7 := ⟨by
    show (PacketIn.readFrom PacketIn.jar.zero (bufferRd packet7)).err = none
    decide +kernel, by decide +kernel, by decide +kernel⟩
  refine ⟨?_, h, fun h' => by have := carries_unique h h'; simp [cookies78] at this⟩
  intro m e hm
  rcases List.mem_cons.1 hm with hm | hm
  · cases hm; exact ⟨0, rfl, rfl⟩
  · cases List.mem_singleton.1 hm; exact ⟨1, rfl, rfl⟩

/-- The hypotheses of `cookie_mux_types_partial`: packets with the cookie 7 (type 10) and removed
flows with the cookie 8 (type 11). -/
example :
    let ck : Nat → UInt8 × CookieKind × UInt64 := fun i => if i = 0 then (10, .packetIn, 7) else (11, .flowRemoved, 8)
    let env : Nat → MatchFn := fun i => guarded (ck i).1 (ck i).2.1 (ck i).2.2
    let hs : MuxMap := [(.ptr 0, ⟨.user 1, false, 0⟩), (.ptr 1, ⟨.user 2, false, 1⟩)]
    GuardedEntries env ck hs ∧ hs.Nodup := by
  intro ck env hs
  refine ⟨⟨?_, ?_⟩, by decide⟩
  · intro m e hm
    rcases List.mem_cons.1 hm with hm | hm
    · cases hm; exact ⟨0, rfl, rfl⟩
    · cases List.mem_singleton.1 hm; exact ⟨1, rfl, rfl⟩
  · intro i j e e' hi hj h
    rcases List.mem_cons.1 hi with hi | hi <;> rcases List.mem_cons.1 hj with hj | hj
    · cases hi; cases hj; exact ⟨rfl, rfl⟩
    · cases hi; cases List.mem_singleton.1 hj; simp [ck] at h
    · cases List.mem_singleton.1 hi; cases hj; simp [ck] at h
    · cases List.mem_singleton.1 hi; cases List.mem_singleton.1 hj; exact ⟨rfl, rfl⟩

end Verif.Props
