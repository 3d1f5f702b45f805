import Verif.Props.PadsAll
import Verif.PadsMatch

/-!
# C98: cookie matchers that several goroutines use
-/

namespace Verif.Props

/-- A call of `Match` that accepts has decoded the jar without an error. -/
theorem match_succeeds {α : Type} {m : CookieMatcher α} {dec : Logged α} (hd : dec.step = m.jar.readFrom)
    {r : Request} (h : (m.run r).1 = some true) :
    ∃ b, r.cookieBytes = some b ∧ (m.decoding dec b).Succeeds := by
  have key : ∀ b, m.decide b = some true → (m.decoding dec b).Succeeds := by
    intro b hb
    unfold CookieMatcher.decide Jar.readCookie at hb
    show (dec.step m.jar.zero (bufferRd b)).err = none
    rw [hd]
    rcases he : (m.jar.readFrom m.jar.zero (bufferRd b)).err with _ | e
    · rfl
    · dsimp only at hb
      rw [he] at hb
      cases e <;> simp at hb
  unfold CookieMatcher.run at h
  unfold Request.cookieBytes
  split at h
  · simp at h
  · rename_i b hb
    simp only [hb]
    exact ⟨b, rfl, key b h⟩
  · rename_i body h1 h2
    rcases hr : r.body.readAll with ⟨b, e⟩
    cases e with
    | some e => rw [hr] at h; simp at h
    | none =>
      rw [hr] at h
      refine ⟨b, ?_, key b h⟩
      cases hb : r.body with
      | nil => exact absurd hb h1
      | buffer b => exact absurd hb (h2 b)
      | copy c => rw [hb] at hr; simp [hr]
      | reader c => rw [hb] at hr; simp [hr]

/-- Two goroutines whose calls of `Match` accept race in every execution, if the decoder of the jar has a
padding variable that it stores to whenever it succeeds. -/
theorem match_race {α ι : Type} [DecidableEq ι] {m : CookieMatcher α} {dec : Logged α}
    (hd : dec.step = m.jar.readFrom) {k : Nat} (hk : dec.Stores k) (q : ι → Request) (tr : List (ι × Nat))
    (h : Executes (m.decodings dec q) tr) {i j : ι} (hij : i ≠ j)
    (hi : (m.run (q i)).1 = some true) (hj : (m.run (q j)).1 = some true) : Race tr := by
  obtain ⟨b, hb, ob⟩ := match_succeeds hd hi
  obtain ⟨c, hc, oc⟩ := match_succeeds hd hj
  have ei : m.decodings dec q i = m.decoding dec b := by simp [CookieMatcher.decodings, hb]
  have ej : m.decodings dec q j = m.decoding dec c := by simp [CookieMatcher.decodings, hc]
  refine decoding_race _ tr h hij (k := k) ?_ ?_ ?_ ?_
  · rw [ei]; exact hk
  · rw [ej]; exact hk
  · rw [ei]; exact ob
  · rw [ej]; exact oc

/-- Any two packet-ins that a matcher accepts on two goroutines, with any matcher for packet-ins. -/
theorem packetIn_match_race_false {ι : Type} [DecidableEq ι] (c : UInt64) (q : ι → Request)
    (tr : List (ι × Nat)) (h : Executes ((CookieMatcher.mk c PacketIn.jar).decodings PacketIn.logged q) tr)
    {i j : ι} (hij : i ≠ j) (hi : ((CookieMatcher.mk c PacketIn.jar).run (q i)).1 = some true)
    (hj : ((CookieMatcher.mk c PacketIn.jar).run (q j)).1 = some true) : Race tr :=
  match_race packetIn_logged packetIn_stores q tr h hij hi hj

theorem flowMod_match_race_false {ι : Type} [DecidableEq ι] (c : UInt64) (q : ι → Request)
    (tr : List (ι × Nat)) (h : Executes ((CookieMatcher.mk c FlowMod.jar).decodings FlowMod.logged q) tr)
    {i j : ι} (hij : i ≠ j) (hi : ((CookieMatcher.mk c FlowMod.jar).run (q i)).1 = some true)
    (hj : ((CookieMatcher.mk c FlowMod.jar).run (q j)).1 = some true) : Race tr :=
  match_race flowMod_logged (flowMod_always 2 (by simp)) q tr h hij hi hj

theorem flowStatsRequest_match_race_false {ι : Type} [DecidableEq ι] (c : UInt64) (q : ι → Request)
    (tr : List (ι × Nat))
    (h : Executes ((CookieMatcher.mk c FlowStatsRequest.jar).decodings FlowStatsRequest.logged q) tr)
    {i j : ι} (hij : i ≠ j) (hi : ((CookieMatcher.mk c FlowStatsRequest.jar).run (q i)).1 = some true)
    (hj : ((CookieMatcher.mk c FlowStatsRequest.jar).run (q j)).1 = some true) : Race tr :=
  match_race flowStatsRequest_logged (flowStatsRequest_always 4 (by simp)) q tr h hij hi hj

theorem flowStats_match_race_false {ι : Type} [DecidableEq ι] (c : UInt64) (q : ι → Request)
    (tr : List (ι × Nat)) (h : Executes ((CookieMatcher.mk c FlowStats.jar).decodings FlowStats.logged q) tr)
    {i j : ι} (hij : i ≠ j) (hi : ((CookieMatcher.mk c FlowStats.jar).run (q i)).1 = some true)
    (hj : ((CookieMatcher.mk c FlowStats.jar).run (q j)).1 = some true) : Race tr :=
  match_race flowStats_logged (flowStats_always 4 (by simp)) q tr h hij hi hj

theorem aggregateStatsRequest_match_race_false {ι : Type} [DecidableEq ι] (c : UInt64) (q : ι → Request)
    (tr : List (ι × Nat))
    (h : Executes ((CookieMatcher.mk c AggregateStatsRequest.jar).decodings AggregateStatsRequest.logged q) tr)
    {i j : ι} (hij : i ≠ j) (hi : ((CookieMatcher.mk c AggregateStatsRequest.jar).run (q i)).1 = some true)
    (hj : ((CookieMatcher.mk c AggregateStatsRequest.jar).run (q j)).1 = some true) : Race tr :=
  match_race aggregateStatsRequest_logged (aggregateStatsRequest_always 4 (by simp)) q tr h hij hi hj

/-- A matcher for messages about removed flows is safe for concurrent use, whatever the requests are: their
decoder has no padding variables. -/
theorem flowRemoved_match_race_free_partial (c : UInt64) :
    MatchRaceFree ⟨c, FlowRemoved.jar⟩ (.own FlowRemoved.readFrom) := by
  intro ι _ q tr h
  refine decoding_no_race_partial _ tr h (fun _ => []) (fun i => ?_) (by simp)
  unfold CookieMatcher.decodings
  split <;> exact Logged.Within.own

/-- Requests of which all but one have no body, or a body that cannot be read to its end, do not race,
whatever the matcher. -/
theorem match_single_partial {α ι : Type} [DecidableEq ι] (m : CookieMatcher α) (dec : Logged α)
    (q : ι → Request) (tr : List (ι × Nat)) (h : Executes (m.decodings dec q) tr) (i : ι)
    (hb : ∀ j, j ≠ i → (q j).body = .nil ∨
      (∀ b, (q j).body ≠ .buffer b) ∧ ∃ e, (q j).body.readAll.2 = some e) : ¬ Race tr := by
  have hq : ∀ j, j ≠ i → (q j).cookieBytes = none := by
    intro j hj
    unfold Request.cookieBytes
    rcases hb j hj with h | ⟨h, e, he⟩
    · rw [h]
    · rcases hr : (q j).body.readAll with ⟨b, e'⟩
      rw [hr] at he
      simp only at he
      subst he
      split <;> simp_all
  clear hb
  intro hr
  obtain ⟨a, b, k, hab, ha, hb⟩ := (decoding_race_iff _ tr h).mp hr
  have none_of : ∀ j, j ≠ i → (m.decodings dec q j).stores = [] := by
    intro j hj
    simp only [CookieMatcher.decodings, hq j hj]
    rfl
  by_cases hai : a = i
  · have hbi : b ≠ i := fun e => hab (hai.trans e.symm)
    have := none_of b hbi
    simp_all [Decoding.stores]
  · have := none_of a hai
    simp_all [Decoding.stores]

/-- What the reader gets: all bytes of the body, if they can be read. -/
theorem match_reads_body {α ι : Type} (m : CookieMatcher α) (dec : Logged α) (q : ι → Request) (i : ι)
    (b : Bytes) (h : (q i).body = .buffer b ∨
      ((q i).body ≠ .nil ∧ (∀ b, (q i).body ≠ .buffer b) ∧ (q i).body.readAll = (b, none))) :
    m.decodings dec q i = ⟨α, dec, m.jar.zero, bufferRd b⟩ := by
  have : (q i).cookieBytes = some b := by
    unfold Request.cookieBytes
    rcases h with h | ⟨h0, h1, h2⟩
    · rw [h]
    · split
      · contradiction
      · rename_i h; exact absurd h (h1 _)
      · rw [h2]
  simp [CookieMatcher.decodings, this, CookieMatcher.decoding]

/-! ## Cases -/

/-- A packet-in with cookie 5 that has been received. -/
private def somePacketIn : Request :=
  { header := ⟨4, 10, 0, 1⟩, body := .buffer (PacketIn.mk 0 0 0 0 5 ⟨1, []⟩ [1]).writeTo.out,
    contentLength := 0, protoMajor := 1, protoMinor := 3 }

example : ((CookieMatcher.mk 5 PacketIn.jar).run somePacketIn).1 = some true := by decide +kernel

/-- A body whose reader fails after a byte. -/
example : ∃ e, (Body.reader (.src [1] [] (.io 1) false)).readAll.2 = some e :=
  ⟨.io 1, by decide +kernel⟩

example (m : CookieMatcher PacketIn) : m.decodings PacketIn.logged (fun _ : Unit => somePacketIn) () =
    ⟨PacketIn, PacketIn.logged, m.jar.zero,
      bufferRd (PacketIn.mk 0 0 0 0 5 ⟨1, []⟩ [1]).writeTo.out⟩ :=
  match_reads_body m _ _ _ _ (.inl rfl)

/-- C98, negation: the matcher for packet-ins is not safe for concurrent use. -/
theorem packetIn_match_race_free_false : ¬ MatchRaceFree ⟨5, PacketIn.jar⟩ PacketIn.logged := by
  intro hf
  let m : CookieMatcher PacketIn := ⟨5, PacketIn.jar⟩
  let d := m.decodings PacketIn.logged (fun _ : Bool => somePacketIn)
  have hx := decoding_executes (d false) (d true)
  have hd : (fun b : Bool => if b then d true else d false) = d := by
    funext b; cases b <;> rfl
  rw [hd] at hx
  refine hf Bool (fun _ => somePacketIn) _ hx ?_
  exact packetIn_match_race_false 5 _ _ hx (i := false) (j := true) (by simp) (by decide +kernel)
    (by decide +kernel)

end Verif.Props
