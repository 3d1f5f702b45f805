import Verif.CutsTable
import Verif.Props.Truncated

/-!
# Truncated statistics, groups, meters, queues and table features (C40)

As in `Verif.Props.Truncated`: every theorem says exactly which truncations are accepted.
-/

namespace Verif.Props

/-- A list is cut in one of its elements, `j` bytes into the element, at a point of `S`. -/
def CutIn {τ : Type} (len : τ → Nat) (S : τ → Nat → Prop) (xs : List τ) (k : Nat) : Prop :=
  ∃ xs1 x xs2 j, xs = xs1 ++ x :: xs2 ∧ k = (xs1.map len).sum + j ∧ j < len x ∧ S x j

theorem listCut_congr {τ : Type} {sz sz' : τ → Nat} {cut : τ → Nat → Option Err} (xs : List τ) (k : Nat)
    (h : ∀ x ∈ xs, sz x = sz' x) : listCut sz cut xs k = listCut sz' cut xs k := by
  induction xs generalizing k with
  | nil => rfl
  | cons x xs ih =>
    simp only [listCut]
    rw [h x (by simp), ih (k - sz' x) fun y hy => h y (by simp [hy])]

theorem listCut_none {τ : Type} {len sz : τ → Nat} {cut : τ → Nat → Option Err} {S : τ → Nat → Prop} (xs : List τ)
    (k : Nat) (hk : k < (xs.map sz).sum) (hlen : ∀ x ∈ xs, sz x = len x)
    (hS : ∀ x ∈ xs, ∀ j < len x, (cut x j = none ↔ S x j)) :
    listCut sz cut xs k = none ↔ CutIn len S xs k := by
  have hsum : (xs.map sz).sum = (xs.map len).sum := by rw [List.map_congr_left hlen]
  rw [listCut_congr xs k hlen]
  constructor
  · intro h
    obtain ⟨xs1, x, xs2, j, rfl, rfl, hj⟩ := list_split len xs k (by omega)
    rw [listCut_append len cut xs1 x xs2 j hj] at h
    exact ⟨xs1, x, xs2, j, rfl, rfl, hj, (hS x (by simp) j hj).1 h⟩
  · rintro ⟨xs1, x, xs2, j, rfl, rfl, hj, hs⟩
    rw [listCut_append len cut xs1 x xs2 j hj]
    exact (hS x (by simp) j hj).2 hs

/-! ## Messages with a match -/

theorem matchCut_none (ks : List Nat) (m : Match) (k : Nat) :
    matchCut ks m k = none ↔ ks.sum ≤ k ∧ SilentMatch m (k - ks.sum) := by
  unfold matchCut
  by_cases h : k < ks.sum
  · rw [if_pos h]; exact ⟨fun h => (by cases h), fun ⟨h1, _⟩ => by omega⟩
  · rw [if_neg h, match_cut]; exact ⟨fun h1 => ⟨by omega, h1⟩, fun h => h.2⟩

/-- C40.  Missing: the truncations in `SilentMatch`, which are accepted. -/
theorem flowRemoved_truncated_partial (f : FlowRemoved) (hm : f.mtch.Valid) (k : Nat)
    (hk : k < f.writeTo.out.length) (s : FlowRemoved) (r : Rd) (hr : r.Ok .eof)
    (hc : r.content = f.writeTo.out.take k) :
    (FlowRemoved.readFrom s r).err = none ↔ 40 ≤ k ∧ SilentMatch f.mtch (k - 40) := by
  rw [(f.stops (d := 0) hm s k hk r hr hc).1]
  exact matchCut_none _ _ _

/-- C40.  Missing: the truncations in `SilentMatch`, which are accepted. -/
theorem flowStatsRequest_truncated_partial (f : FlowStatsRequest) (hm : f.mtch.Valid) (k : Nat)
    (hk : k < f.writeTo.out.length) (s : FlowStatsRequest) (r : Rd) (hr : r.Ok .eof)
    (hc : r.content = f.writeTo.out.take k) :
    (FlowStatsRequest.readFrom s r).err = none ↔ 32 ≤ k ∧ SilentMatch f.mtch (k - 32) := by
  rw [(f.stops (d := 0) hm s k hk r hr hc).1]
  exact matchCut_none _ _ _

/-- C40.  Missing: the truncations in `SilentMatch`, which are accepted. -/
theorem aggregateStatsRequest_truncated_partial (f : AggregateStatsRequest) (hm : f.mtch.Valid) (k : Nat)
    (hk : k < f.writeTo.out.length) (s : AggregateStatsRequest) (r : Rd) (hr : r.Ok .eof)
    (hc : r.content = f.writeTo.out.take k) :
    (AggregateStatsRequest.readFrom s r).err = none ↔ 32 ≤ k ∧ SilentMatch f.mtch (k - 32) := by
  rw [(f.stops (d := 0) hm s k hk r hr hc).1]
  exact matchCut_none _ _ _

example : sampleMatch.Valid ∧ 53 < (FlowRemoved.writeTo ⟨1, 2, 3, 4, 5, 6, 7, 8, 9, 10, sampleMatch⟩).out.length ∧
    45 < (FlowStatsRequest.writeTo ⟨1, 2, 3, 4, 5, sampleMatch⟩).out.length ∧
    45 < (AggregateStatsRequest.writeTo ⟨1, 2, 3, 4, 5, sampleMatch⟩).out.length := by decide

/-- C40 is violated.  A notification of a removed flow loses a field of its match. -/
theorem flowRemoved_truncated_accepted : ∃ (f : FlowRemoved) (k : Nat), f.mtch.Valid ∧ k < f.writeTo.out.length ∧
    f.mtch.fields.length = 2 ∧ ∃ r : Rd, r.Ok .eof ∧ r.content = f.writeTo.out.take k ∧
      (FlowRemoved.readFrom f r).err = none ∧ (FlowRemoved.readFrom f r).val.mtch.fields.length = 1 := by
  refine ⟨⟨1, 2, 3, 4, 5, 6, 7, 8, 9, 10, sampleMatch⟩, 53, by decide, by decide, rfl,
    .src ((FlowRemoved.writeTo ⟨1, 2, 3, 4, 5, 6, 7, 8, 9, 10, sampleMatch⟩).out.take 53) [] .eof false,
    rfl, rfl, ?_, ?_⟩ <;> decide +kernel

theorem instructions_cut (is : List Instruction) (k : Nat) :
    Instructions.cut is k = listCut Instruction.size Instructions.cutErr is k := by
  induction is generalizing k with
  | nil => rfl
  | cons i is ih => simp only [Instructions.cut, listCut, ih]

theorem instructions_silent (is : List Instruction) (k : Nat) (hk : k < (Instructions.bytes is).length) :
    Instructions.cut is k = none ↔ CutIn (fun i => i.writeTo.out.length) SilentInstruction is k := by
  rw [instructions_cut]
  have hl : ∀ i : Instruction, i.writeTo.out.length = i.size := fun i => i.bytes_length
  refine listCut_none is k (by rw [← Instructions.bytes_length]; exact hk) (fun i _ => (hl i).symm) ?_
  intro i _ j hj
  exact (instructions_cutErr i j (by rw [← hl]; exact hj)).1

/-- C40.  Missing: the truncations that are accepted, listed here. -/
theorem flowStats_truncated_partial (f : FlowStats) (hm : f.mtch.Valid) (hi : ∀ i ∈ f.instructions, i.Valid)
    (hs : f.size ≤ 65535) (k : Nat) (hk : k < f.writeTo.out.length) (s : FlowStats) (r : Rd) (hr : r.Ok .eof)
    (hc : r.content = f.writeTo.out.take k) :
    (FlowStats.readFrom s r).err = none ↔
      (48 ≤ k ∧ k < 48 + f.mtch.writeTo.out.length ∧ SilentMatch f.mtch (k - 48)) ∨
      (48 + f.mtch.writeTo.out.length ≤ k ∧ CutIn (fun i => i.writeTo.out.length) SilentInstruction f.instructions
        (k - (48 + f.mtch.writeTo.out.length))) := by
  rw [(f.stops (d := 0) hm hi hs s k hk r hr hc).1]
  have hmb : f.mtch.writeTo.out.length = f.mtch.bytes.length := rfl
  rw [hmb]
  unfold FlowStats.cut
  by_cases h : k < 48 + f.mtch.bytes.length
  · rw [if_pos h, matchCut_none]
    constructor
    · rintro ⟨h1, h2⟩; exact .inl ⟨h1, h, h2⟩
    · rintro (⟨h1, _, h2⟩ | ⟨h1, _⟩)
      · exact ⟨h1, h2⟩
      · omega
  · rw [if_neg h]
    have hk' : k - (48 + f.mtch.bytes.length) < (Instructions.bytes f.instructions).length := by
      rw [FlowStats.out_eq] at hk
      simp at hk; omega
    rw [instructions_silent _ _ hk']
    constructor
    · intro h1; exact .inr ⟨by omega, h1⟩
    · rintro (⟨_, h1, _⟩ | ⟨_, h1⟩)
      · omega
      · exact h1

/-- The statistics of a flow. -/
def sampleFlowStats : FlowStats := ⟨1, 2, 3, 4, 5, 6, 7, 8, 9, 10, sampleMatch, [.gotoTable 3, .applyActions [.output 7 0]]⟩

example : sampleFlowStats.mtch.Valid ∧ (∀ i ∈ sampleFlowStats.instructions, i.Valid) ∧ sampleFlowStats.size ≤ 65535 ∧
    76 < sampleFlowStats.writeTo.out.length := by decide

/-- C40 is violated.  The statistics of a flow without its instructions. -/
theorem flowStats_truncated_accepted : ∃ (f : FlowStats) (k : Nat), f.mtch.Valid ∧ (∀ i ∈ f.instructions, i.Valid) ∧
    f.size ≤ 65535 ∧ k < f.writeTo.out.length ∧ f.instructions.length = 2 ∧
    ∃ r : Rd, r.Ok .eof ∧ r.content = f.writeTo.out.take k ∧
      (FlowStats.readFrom f r).err = none ∧ (FlowStats.readFrom f r).val.instructions = [] := by
  refine ⟨sampleFlowStats, 72, by decide, by decide, by decide, by decide, rfl,
    .src (sampleFlowStats.writeTo.out.take 72) [] .eof false, rfl, rfl, ?_, ?_⟩ <;> decide +kernel

/-! ## Groups -/

/-- The truncation points of an encoded bucket at which the decoder of a list of buckets sees
no error. -/
def SilentBucket (b : Bucket) (j : Nat) : Prop :=
  j ∈ [0, 2, 4, 8, 12] ∨ 16 ≤ j ∧ SilentActions b.actions (j - 16)

theorem bucket_silent (b : Bucket) (j : Nat) (hj : j < b.writeTo.out.length) :
    (b.cut j).bind skipEOF = none ↔ SilentBucket b j := by
  have hj' : j < b.bytes.length := hj
  rw [b.out_head, List.length_append, b.headBytes_length] at hj'
  unfold Bucket.cut SilentBucket
  by_cases h16 : j < 16
  · rw [if_pos h16, Option.bind_some, skipEOF_eofIn]
    by_cases hm : j ∈ [0, 2, 4, 8, 12]
    · rw [if_pos hm]; exact ⟨fun _ => .inl hm, fun _ => rfl⟩
    · rw [if_neg hm]
      exact ⟨fun h => (by cases h), fun h => by rcases h with h | h; exact absurd h hm; omega⟩
  · rw [if_neg h16]
    obtain ⟨h1, h2⟩ := actions_cut b.actions (j - 16) (by omega)
    rcases h2 with h2 | h2
    · rw [h2]; exact ⟨fun _ => .inr ⟨by omega, h1.1 h2⟩, fun _ => rfl⟩
    · rw [h2]
      refine ⟨fun h => (by cases h), fun h => ?_⟩
      rcases h with h | h
      · simp at h; omega
      · have := h1.2 h.2; rw [h2] at this; cases this

theorem buckets_silent (bs : List Bucket) (k : Nat) (hk : k < (Buckets.bytes bs).length) :
    listCut Bucket.size (fun b j => (b.cut j).bind skipEOF) bs k = none ↔
      CutIn (fun b => b.writeTo.out.length) SilentBucket bs k := by
  have hl : ∀ b : Bucket, b.writeTo.out.length = b.size := fun b => b.bytes_length
  exact listCut_none bs k (by rw [← Buckets.bytes_length]; exact hk) (fun b _ => (hl b).symm)
    (fun b _ j hj => bucket_silent b j hj)

/-- C40.  Missing: the truncations that are accepted.  A group modification is accepted
exactly when it is cut inside a bucket at a point of `SilentBucket`. -/
theorem groupMod_truncated_iff_partial (g : GroupMod) (hv : ∀ b ∈ g.buckets, b.Valid) (k : Nat)
    (hk : k < g.writeTo.out.length) (s : GroupMod) (r : Rd) (hr : r.Ok .eof)
    (hc : r.content = g.writeTo.out.take k) :
    (GroupMod.readFrom s r).err = none ↔
      8 ≤ k ∧ CutIn (fun b => b.writeTo.out.length) SilentBucket g.buckets (k - 8) := by
  rw [(g.stops (d := 0) hv s k hk r hr hc).1]
  by_cases h8 : k < 8
  · rw [if_pos h8]; exact ⟨fun h => (by cases h), fun h => by omega⟩
  · rw [if_neg h8]
    rw [GroupMod.out_eq] at hk
    rw [buckets_silent _ _ (by simp at hk; omega)]
    exact ⟨fun h => ⟨by omega, h⟩, fun h => h.2⟩

/-- C40.  Missing: the truncations that are accepted.  A description of a group is accepted
also when it ends in its header: the error of the header is dropped. -/
theorem groupDescStats_truncated_partial (g : GroupDescStats) (hv : ∀ b ∈ g.buckets, b.Valid)
    (hs : g.writeTo.out.length ≤ 65535) (k : Nat)
    (hk : k < g.writeTo.out.length) (s : GroupDescStats) (r : Rd) (hr : r.Ok .eof)
    (hc : r.content = g.writeTo.out.take k) :
    (GroupDescStats.readFrom s r).err = none ↔
      k < 8 ∨ CutIn (fun b => b.writeTo.out.length) SilentBucket g.buckets (k - 8) := by
  have hl : g.writeTo.out.length = 8 + (Buckets.bytes g.buckets).length := by
    rw [GroupDescStats.out_eq]; simp; omega
  rw [(g.stops (d := 0) hv (by rw [← Buckets.bytes_length]; omega) s k hk r hr hc).1]
  by_cases h8 : k < 8
  · rw [if_pos h8]; exact ⟨fun _ => .inl h8, fun _ => rfl⟩
  · rw [if_neg h8]
    rw [buckets_silent _ _ (by omega)]
    exact ⟨fun h => .inr h, fun h => h.resolve_left h8⟩

/-- Two buckets. -/
def sampleBuckets : List Bucket := [⟨1, 2, 3, [.output 7 0]⟩, ⟨4, 5, 6, [.group 9, .output 8 0]⟩]

example : (∀ b ∈ sampleBuckets, b.Valid) ∧ 52 < (GroupMod.writeTo ⟨0, 0, 1, sampleBuckets⟩).out.length ∧
    52 < (GroupDescStats.writeTo ⟨0, 1, sampleBuckets⟩).out.length ∧
    (GroupDescStats.writeTo ⟨0, 1, sampleBuckets⟩).out.length ≤ 65535 ∧
    CutIn (fun b => b.writeTo.out.length) SilentBucket sampleBuckets (52 - 8) :=
  ⟨by decide, by decide, by decide, by decide, [⟨1, 2, 3, [.output 7 0]⟩], ⟨4, 5, 6, [.group 9, .output 8 0]⟩, [], 12,
    rfl, by decide, by decide, .inl (by decide)⟩

/-- C40 is violated.  The description of a group with no group in it. -/
theorem groupDescStats_truncated_accepted : ∃ (g : GroupDescStats) (k : Nat), (∀ b ∈ g.buckets, b.Valid) ∧ 0 < k ∧ k < 8 ∧
    g.buckets.length = 2 ∧ ∃ r : Rd, r.Ok .eof ∧ r.content = g.writeTo.out.take k ∧
      (GroupDescStats.readFrom ⟨0, 0, []⟩ r).err = none ∧ (GroupDescStats.readFrom ⟨0, 0, []⟩ r).val = ⟨0, 0, []⟩ := by
  refine ⟨⟨0, 1, sampleBuckets⟩, 3, by decide, by decide, by decide, rfl,
    .src ((GroupDescStats.writeTo ⟨0, 1, sampleBuckets⟩).out.take 3) [] .eof false, rfl, rfl, ?_, ?_⟩ <;>
  decide +kernel

theorem mod16 (k : Nat) : k % 16 ∈ [0, 8] ↔ k % 8 = 0 := by simp; omega

theorem counters_silent (k : Nat) : skipEOF (eofIn [0, 8] (k % 16)) = none ↔ k % 8 = 0 := by
  rw [skipEOF_eofIn, ← mod16]
  by_cases h : k % 16 ∈ [0, 8]
  · rw [if_pos h]; exact ⟨fun _ => h, fun _ => rfl⟩
  · rw [if_neg h]; exact ⟨fun h => (by cases h), fun h1 => absurd h1 h⟩

/-- C40.  Missing: the truncations that are accepted.  The statistics of a group are
accepted exactly when they end after a whole number of counters (8 bytes each; a bucket has
two). -/
theorem groupStats_truncated_partial (g : GroupStats) (hs : g.writeTo.out.length ≤ 65535) (k : Nat)
    (hk : k < g.writeTo.out.length) (s : GroupStats) (r : Rd) (hr : r.Ok .eof)
    (hc : r.content = g.writeTo.out.take k) :
    (GroupStats.readFrom s r).err = none ↔ 40 ≤ k ∧ (k - 40) % 8 = 0 := by
  have hl : g.writeTo.out.length = 40 + 16 * g.bucketStats.length := by
    rw [← BucketCounters.bytes_length, GroupStats.out_eq]; simp; omega
  rw [(g.stops (d := 0) (by omega) s k (by omega) r hr hc).1]
  by_cases h : k < 40
  · rw [if_pos h]; exact ⟨fun h => (by cases h), fun h => by omega⟩
  · rw [if_neg h, counters_silent]; exact ⟨fun h1 => ⟨by omega, h1⟩, fun h => h.2⟩

/-- C40.  Missing: the truncations that are accepted.  The statistics of a meter are
accepted also when they end in their header: the error of the header is dropped. -/
theorem meterStats_truncated_partial (m : MeterStats) (hs : m.writeTo.out.length ≤ 65535) (k : Nat)
    (hk : k < m.writeTo.out.length) (s : MeterStats) (r : Rd) (hr : r.Ok .eof)
    (hc : r.content = m.writeTo.out.take k) :
    (MeterStats.readFrom s r).err = none ↔ k < 40 ∨ (k - 40) % 8 = 0 := by
  have hl : m.writeTo.out.length = 40 + 16 * m.bandStats.length := by
    rw [← MeterBandStatss.bytes_length, MeterStats.out_eq]; simp; omega
  rw [(m.stops (d := 0) (by omega) s k (by omega) r hr hc).1]
  by_cases h : k < 40
  · rw [if_pos h]; exact ⟨fun _ => .inl h, fun _ => rfl⟩
  · rw [if_neg h, counters_silent]; exact ⟨fun h1 => .inr h1, fun h1 => h1.resolve_left h⟩

example : 48 < (GroupStats.writeTo ⟨1, 2, 3, 4, 5, 6, [⟨7, 8⟩, ⟨9, 10⟩]⟩).out.length ∧
    48 < (MeterStats.writeTo ⟨1, 2, 3, 4, 5, 6, [⟨7, 8⟩, ⟨9, 10⟩]⟩).out.length := by decide

/-- C40 is violated.  The statistics of a group of two buckets, cut in the second one: both
are lost. -/
theorem groupStats_truncated_accepted : ∃ (g : GroupStats) (k : Nat), k < g.writeTo.out.length ∧ (k - 40) % 16 = 8 ∧
    g.bucketStats.length = 2 ∧ ∃ r : Rd, r.Ok .eof ∧ r.content = g.writeTo.out.take k ∧
      (GroupStats.readFrom ⟨0, 0, 0, 0, 0, 0, []⟩ r).err = none ∧
      (GroupStats.readFrom ⟨0, 0, 0, 0, 0, 0, []⟩ r).val.bucketStats = [] := by
  refine ⟨⟨1, 2, 3, 4, 5, 6, [⟨7, 8⟩, ⟨9, 10⟩]⟩, 64, by decide, by decide, rfl,
    .src ((GroupStats.writeTo ⟨1, 2, 3, 4, 5, 6, [⟨7, 8⟩, ⟨9, 10⟩]⟩).out.take 64) [] .eof false, rfl, rfl, ?_, ?_⟩ <;>
  decide +kernel

/-! ## Meters -/

/-- The truncation points of an encoded meter band at which the decoder of a list of bands
sees no error. -/
def SilentBand : MeterBand → Nat → Prop
  | .dscpRemark .., j => j ∈ [0, 1, 4, 8, 12, 13]
  | _, j => j ∈ [0, 1, 4, 8, 12]

theorem meterBands_silent (bs : List MeterBand) (k : Nat) (hk : k < 16 * bs.length) :
    MeterBands.cut bs k = none ↔ CutIn (fun b => b.writeTo.out.length) SilentBand bs k := by
  have hsum : (bs.map fun _ => 16).sum = 16 * bs.length := by
    clear hk; induction bs with
    | nil => rfl
    | cons b bs ih => simp only [List.map_cons, List.sum_cons, List.length_cons, ih]; omega
  have hl : ∀ b : MeterBand, b.writeTo.out.length = 16 := fun b => b.bytes_length
  refine listCut_none bs k (by rw [hsum]; exact hk) (fun b _ => (hl b).symm) fun b _ j hj => ?_
  rw [skipEOF_eofIn]
  have hm : SilentBand b j ↔ j < 2 ∨ j ∈ b.cuts := by
    cases b <;> simp [SilentBand, MeterBand.cuts] <;> omega
  rw [hm]
  by_cases h2 : j < 2
  · simp [h2]
  · by_cases hc : j ∈ b.cuts <;> simp [h2, hc]

/-- C40.  Missing: the truncations that are accepted. -/
theorem meterMod_truncated_partial (m : MeterMod) (k : Nat) (hk : k < m.writeTo.out.length) (s : MeterMod) (r : Rd)
    (hr : r.Ok .eof) (hc : r.content = m.writeTo.out.take k) :
    (MeterMod.readFrom s r).err = none ↔
      8 ≤ k ∧ CutIn (fun b => b.writeTo.out.length) SilentBand m.bands (k - 8) := by
  have hl : m.writeTo.out.length = 8 + 16 * m.bands.length := by
    rw [← MeterBands.bytes_length, MeterMod.out_eq]; simp; omega
  rw [(m.stops s k (by omega) r hr hc).1]
  by_cases h : k < 8
  · rw [if_pos h]; exact ⟨fun h => (by cases h), fun h => by omega⟩
  · rw [if_neg h, meterBands_silent _ _ (by omega)]; exact ⟨fun h1 => ⟨by omega, h1⟩, fun h => h.2⟩

/-- C40.  Missing: the truncations that are accepted. -/
theorem meterConfig_truncated_partial (m : MeterConfig) (hs : m.writeTo.out.length ≤ 65535) (k : Nat)
    (hk : k < m.writeTo.out.length) (s : MeterConfig) (r : Rd)
    (hr : r.Ok .eof) (hc : r.content = m.writeTo.out.take k) :
    (MeterConfig.readFrom s r).err = none ↔
      8 ≤ k ∧ CutIn (fun b => b.writeTo.out.length) SilentBand m.bands (k - 8) := by
  have hl : m.writeTo.out.length = 8 + 16 * m.bands.length := by
    rw [← MeterBands.bytes_length, MeterConfig.out_eq]; simp; omega
  rw [(m.stops (d := 0) (by omega) s k (by omega) r hr hc).1]
  by_cases h : k < 8
  · rw [if_pos h]; exact ⟨fun h => (by cases h), fun h => by omega⟩
  · rw [if_neg h, meterBands_silent _ _ (by omega)]; exact ⟨fun h1 => ⟨by omega, h1⟩, fun h => h.2⟩

example : 37 < (MeterMod.writeTo ⟨0, 1, 2, [.drop 1 2, .dscpRemark 3 4 5]⟩).out.length ∧
    37 < (MeterConfig.writeTo ⟨1, 2, [.drop 1 2, .dscpRemark 3 4 5]⟩).out.length ∧
    (MeterConfig.writeTo ⟨1, 2, [.drop 1 2, .dscpRemark 3 4 5]⟩).out.length ≤ 65535 ∧
    CutIn (fun b => b.writeTo.out.length) SilentBand [.drop 1 2, .dscpRemark 3 4 5] (37 - 8) :=
  ⟨by decide, by decide, by decide, [.drop 1 2], .dscpRemark 3 4 5, [], 13, rfl, by decide, by decide,
    by unfold SilentBand; decide⟩

/-- C40 is violated.  A band that drops above a rate of 1 and lost its rate. -/
theorem meterMod_truncated_accepted : ∃ (m : MeterMod) (k : Nat), 8 < k ∧ k < m.writeTo.out.length ∧
    m.bands = [.drop 1 2] ∧ ∃ r : Rd, r.Ok .eof ∧ r.content = m.writeTo.out.take k ∧
      (MeterMod.readFrom ⟨0, 0, 0, []⟩ r).err = none := by
  refine ⟨⟨0, 1, 2, [.drop 1 2]⟩, 12, by decide, by decide, rfl,
    .src ((MeterMod.writeTo ⟨0, 1, 2, [.drop 1 2]⟩).out.take 12) [] .eof false, rfl, rfl, ?_⟩
  decide +kernel

/-! ## Queues -/

/-- The truncation points of an encoded queue property at which the decoder of a list of
properties sees no error: for an experimenter property also every point in the data. -/
def SilentQueueProp : QueueProp → Nat → Prop
  | .experimenter .., j => j ∈ [0, 1, 4, 8, 12] ∨ 16 ≤ j
  | _, j => j ∈ [0, 1, 8, 10]

theorem queueProps_silent (qs : List QueueProp) (k : Nat) (hk : k < (QueueProps.bytes qs).length) :
    QueueProps.cut qs k = none ↔ CutIn (fun q => q.writeTo.out.length) SilentQueueProp qs k := by
  have hl : ∀ q : QueueProp, q.writeTo.out.length = q.size := fun q => q.bytes_length
  refine listCut_none qs k (by rw [← QueueProps.bytes_length]; exact hk) (fun q _ => (hl q).symm) fun q _ j hj => ?_
  have hm : SilentQueueProp q j ↔ j < 2 ∨ 16 ≤ j ∨ j ∈ q.cuts := by
    rw [hl] at hj
    cases q <;> simp [SilentQueueProp, QueueProp.cuts, QueueProp.size] at hj ⊢ <;> omega
  rw [hm]
  by_cases h2 : j < 2
  · simp [h2]
  · by_cases h3 : 16 ≤ j
    · simp [h2, h3]
    · rw [if_neg h2, if_neg h3, Option.bind_some, skipEOF_eofIn]
      by_cases hc : j ∈ q.cuts <;> simp [h2, h3, hc]

/-- C40.  Missing: the truncations that are accepted. -/
theorem packetQueue_truncated_partial (q : PacketQueue) (hv : q.Valid) (k : Nat) (hk : k < q.writeTo.out.length)
    (s : PacketQueue) (r : Rd) (hr : r.Ok .eof) (hc : r.content = q.writeTo.out.take k) :
    (PacketQueue.readFrom s r).err = none ↔
      16 ≤ k ∧ CutIn (fun q => q.writeTo.out.length) SilentQueueProp q.properties (k - 16) := by
  have hk' : k < q.size := by rw [← q.bytes_length]; exact hk
  rw [(q.stops (d := 0) hv s k hk' r hr hc).1]
  rw [PacketQueue.size, ← QueueProps.bytes_length] at hk'
  unfold PacketQueue.cut
  by_cases h : k < 16
  · rw [if_pos h]; exact ⟨fun h => (by cases h), fun h => by omega⟩
  · rw [if_neg h, queueProps_silent _ _ (by omega)]; exact ⟨fun h1 => ⟨by omega, h1⟩, fun h => h.2⟩

/-- The truncation points of an encoded queue at which the decoder of a list of queues sees
no error. -/
def SilentPacketQueue (q : PacketQueue) (j : Nat) : Prop :=
  j ∈ [0, 4, 8, 10] ∨ 16 ≤ j ∧ CutIn (fun q => q.writeTo.out.length) SilentQueueProp q.properties (j - 16)

theorem listCut_unexpected {τ : Type} {sz : τ → Nat} {cut : τ → Nat → Option Err} (xs : List τ) (k : Nat)
    (h : ∀ x j, cut x j = none ∨ cut x j = some .unexpectedEOF) :
    listCut sz cut xs k = none ∨ listCut sz cut xs k = some .unexpectedEOF := by
  induction xs generalizing k with
  | nil => exact .inl rfl
  | cons x xs ih =>
    simp only [listCut]
    split
    · exact h x k
    · exact ih _

theorem queueProps_cut_cases (qs : List QueueProp) (k : Nat) :
    QueueProps.cut qs k = none ∨ QueueProps.cut qs k = some .unexpectedEOF := by
  refine listCut_unexpected qs k fun q j => ?_
  by_cases h2 : j < 2
  · simp [h2]
  · by_cases h3 : 16 ≤ j
    · simp [h3]
    · rw [if_neg h2, if_neg h3, Option.bind_some, skipEOF_eofIn]
      by_cases hc : j ∈ q.cuts <;> simp [hc]

/-- C40.  Missing: the truncations that are accepted. -/
theorem queueGetConfigReply_truncated_partial (q : QueueGetConfigReply) (hv : ∀ p ∈ q.queues, p.Valid) (k : Nat)
    (hk : k < q.writeTo.out.length) (s : QueueGetConfigReply) (r : Rd) (hr : r.Ok .eof)
    (hc : r.content = q.writeTo.out.take k) :
    (QueueGetConfigReply.readFrom s r).err = none ↔
      8 ≤ k ∧ CutIn (fun q => q.writeTo.out.length) SilentPacketQueue q.queues (k - 8) := by
  have hb : ∀ q : PacketQueue, q.writeTo.out.length = q.size := fun q => q.bytes_length
  have hl : q.writeTo.out.length = 8 + (q.queues.map PacketQueue.size).sum := by
    rw [QueueGetConfigReply.out_eq]
    simp only [PacketQueues.bytes, List.length_append, List.length_flatMap, PacketQueue.bytes_length]
    show _ = 8 + (q.queues.map fun p => p.size).sum
    simp; omega
  rw [(q.stops (d := 0) hv s k (by omega) r hr hc).1]
  by_cases h : k < 8
  · rw [if_pos h]; exact ⟨fun h => (by cases h), fun h => by omega⟩
  · rw [if_neg h]
    have hcut : listCut PacketQueue.size (fun p j => (p.cut j).bind skipEOF) q.queues (k - 8) = none ↔
        CutIn (fun q => q.writeTo.out.length) SilentPacketQueue q.queues (k - 8) := by
      refine listCut_none q.queues (k - 8) (by omega) (fun q _ => (hb q).symm) fun p _ j hj => ?_
      rw [hb, PacketQueue.size, ← QueueProps.bytes_length] at hj
      unfold PacketQueue.cut SilentPacketQueue
      by_cases h16 : j < 16
      · rw [if_pos h16, Option.bind_some, skipEOF_eofIn]
        by_cases hm : j ∈ [0, 4, 8, 10]
        · rw [if_pos hm]; exact ⟨fun _ => .inl hm, fun _ => rfl⟩
        · rw [if_neg hm]
          exact ⟨fun h => (by cases h), fun h => by rcases h with h | h; exact absurd h hm; omega⟩
      · rw [if_neg h16]
        have h1 := queueProps_silent p.properties (j - 16) (by omega)
        rcases queueProps_cut_cases p.properties (j - 16) with h2 | h2
        · rw [h2]; exact ⟨fun _ => .inr ⟨by omega, h1.1 h2⟩, fun _ => rfl⟩
        · rw [h2]
          refine ⟨fun h => (by cases h), fun h => ?_⟩
          rcases h with h | h
          · simp at h; omega
          · have := h1.2 h.2; rw [h2] at this; cases this
    rw [hcut]; exact ⟨fun h1 => ⟨by omega, h1⟩, fun h => h.2⟩

/-- A queue with a minimum rate and experimenter data. -/
def sampleQueue : PacketQueue := ⟨1, 2, [.minRate 5, .experimenter 6 [1, 2, 3]]⟩

example : sampleQueue.Valid ∧ 49 < sampleQueue.writeTo.out.length ∧
    CutIn (fun q => q.writeTo.out.length) SilentQueueProp sampleQueue.properties (49 - 16) ∧
    57 < (QueueGetConfigReply.writeTo ⟨1, [sampleQueue, sampleQueue]⟩).out.length :=
  ⟨by decide, by decide, ⟨[.minRate 5], .experimenter 6 [1, 2, 3], [], 17, rfl, by decide, by decide,
    .inr (by decide)⟩, by decide⟩

/-- C40 is violated.  The experimenter data of a queue, cut. -/
theorem packetQueue_truncated_accepted : ∃ (q : PacketQueue) (k : Nat), q.Valid ∧ k < q.writeTo.out.length ∧
    q.properties = [.experimenter 6 [1, 2, 3]] ∧ ∃ r : Rd, r.Ok .eof ∧ r.content = q.writeTo.out.take k ∧
      (PacketQueue.readFrom PacketQueue.zero r).err = none := by
  refine ⟨⟨1, 2, [.experimenter 6 [1, 2, 3]]⟩, 33, by decide, by decide, rfl,
    .src ((PacketQueue.writeTo ⟨1, 2, [.experimenter 6 [1, 2, 3]]⟩).out.take 33) [] .eof false, rfl, rfl, ?_⟩
  decide +kernel

/-! ## Table features -/

/-- The truncation points of an encoded table property at which the decoder of a list of
properties sees no error: the first two bytes; between the type codes, in the middle of one,
anywhere in the fields, and where the padding starts. -/
def SilentTableProp : TableProp → Nat → Prop
  | .instructions _ is, j => j ∈ [0, 1] ∨ (4 ≤ j ∧ j ≤ 4 + 4 * is.length ∧ j % 2 = 0)
  | .writeActions _ as, j => j ∈ [0, 1] ∨ (4 ≤ j ∧ j ≤ 4 + 4 * as.length ∧ j % 2 = 0)
  | .applyActions _ as, j => j ∈ [0, 1] ∨ (4 ≤ j ∧ j ≤ 4 + 4 * as.length ∧ j % 2 = 0)
  | .nextTables _ ts, j => j ∈ [0, 1, 4, 4 + ts.length]
  | .experimenter _ _ _ d, j => j ∈ [0, 1, 4, 8] ∨ (12 ≤ j ∧ j ≤ 12 + d.length)
  | p, j => j ∈ [0, 1] ∨ (4 ≤ j ∧ j ≤ 4 + 4 * p.fields.length)

theorem ite_eof_silent (p : Prop) [Decidable p] :
    ((if p then none else some Err.eof).bind skipEOF) = none := by split <;> rfl

theorem tableProp_silent (p : TableProp) (j : Nat) :
    (if j < 2 then none else (p.cut j).bind skipEOF) = none ↔ SilentTableProp p j := by
  by_cases h2 : j < 2
  · have h01 : j = 0 ∨ j = 1 := by omega
    rw [if_pos h2]
    refine ⟨fun _ => ?_, fun _ => rfl⟩
    rcases h01 with rfl | rfl <;> cases p <;> simp [SilentTableProp]
  · rw [if_neg h2]
    unfold TableProp.cut
    by_cases h4 : j < 4
    · rw [if_pos h4, Option.bind_some, skipEOF_eofIn, if_neg (by simp; omega)]
      refine ⟨fun h => (by cases h), fun h => ?_⟩
      cases p <;> simp [SilentTableProp] at h <;> omega
    · rw [if_neg h4]
      by_cases hs : j < p.size
      · rw [if_pos hs]
        cases p with
        | nextTables m ts =>
          simp only [Option.bind_some, skipEOF_eofIn, TableProp.size, SilentTableProp] at hs ⊢
          by_cases h : j ∈ [4]
          · rw [if_pos h]; simp at h; simp [h]
          · rw [if_neg h]; simp at h ⊢; omega
        | experimenter m e t b =>
          simp only [TableProp.size] at hs; simp only [SilentTableProp]
          by_cases h : j < 12
          · simp only [h, if_true, Option.bind_some, skipEOF_eofIn]
            by_cases hm : j ∈ [4, 8]
            · rw [if_pos hm]; simp at hm ⊢; omega
            · rw [if_neg hm]; simp at hm ⊢; omega
          · simp only [h, if_false, ite_eof_silent, true_iff]; simp; omega
        | instructions m as =>
          simp only [TableProp.size] at hs; simp only [SilentTableProp]
          by_cases h : j % 2 = 1
          · simp only [h, if_true, Option.bind_some]; simp [skipEOF]; omega
          · simp only [h, if_false, ite_eof_silent, true_iff]; simp; omega
        | writeActions m as =>
          simp only [TableProp.size] at hs; simp only [SilentTableProp]
          by_cases h : j % 2 = 1
          · simp only [h, if_true, Option.bind_some]; simp [skipEOF]; omega
          · simp only [h, if_false, ite_eof_silent, true_iff]; simp; omega
        | applyActions m as =>
          simp only [TableProp.size] at hs; simp only [SilentTableProp]
          by_cases h : j % 2 = 1
          · simp only [h, if_true, Option.bind_some]; simp [skipEOF]; omega
          · simp only [h, if_false, ite_eof_silent, true_iff]; simp; omega
        | _ =>
          simp only [TableProp.size] at hs; simp only [SilentTableProp]
          simp only [ite_eof_silent, true_iff]; simp; omega
      · rw [if_neg hs, Option.bind_some, skipEOF_eofIn]
        have hm : SilentTableProp p j ↔ j ∈ [p.size] := by
          cases p <;> simp [SilentTableProp, TableProp.size] at hs ⊢ <;> omega
        rw [hm]
        by_cases h : j ∈ [p.size]
        · rw [if_pos h]; exact ⟨fun _ => h, fun _ => rfl⟩
        · rw [if_neg h]; exact ⟨fun h => (by cases h), fun h1 => absurd h1 h⟩

/-- C40.  Missing: the truncations that are accepted.  The hypotheses are those of the
round trip of table features (C12). -/
theorem tableFeatures_truncated_partial (t : TableFeatures)
    (hp : ∀ p ∈ t.properties, (∀ x ∈ p.fields, x.Plain) ∧ p.expMiss = false)
    (hs : t.writeTo.out.length ≤ 65535) (hs' : ∀ p ∈ t.properties, p.size ≤ 65535) (k : Nat)
    (hk : k < t.writeTo.out.length) (s : TableFeatures)
    (r : Rd) (hr : r.Ok .eof) (hc : r.content = t.writeTo.out.take k) :
    (TableFeatures.readFrom s r).err = none ↔
      64 ≤ k ∧ CutIn (fun p => p.writeTo.out.length) SilentTableProp t.properties (k - 64) := by
  have hl : t.writeTo.out.length = 64 + (TableProps.bytes t.properties).length := by
    rw [TableFeatures.out_eq]; simp; omega
  have hp' : ∀ p ∈ t.properties, (∀ x ∈ p.fields, x.Plain) ∧ p.expMiss = false ∧ p.size ≤ 65535 :=
    fun p h => ⟨(hp p h).1, (hp p h).2, hs' p h⟩
  have hb : ∀ p ∈ t.properties, p.size + padLen p.size = p.writeTo.out.length :=
    fun p h => (p.bytes_length (hp p h).1 (hs' p h)).symm
  rw [(t.stops (d := 0) s hp' (by omega) k hk r hr hc).1]
  by_cases h : k < 64
  · rw [if_pos h]; exact ⟨fun h => (by cases h), fun h => by omega⟩
  · rw [if_neg h, listCut_none t.properties (k - 64) ?_ hb (fun p _ j _ => tableProp_silent p j)]
    · exact ⟨fun h1 => ⟨by omega, h1⟩, fun h => h.2⟩
    · have : (t.properties.map fun p => p.size + padLen p.size).sum = (TableProps.bytes t.properties).length := by
        rw [TableProps.bytes, List.length_flatMap, List.map_congr_left hb]; rfl
      omega

/-- Table features with two properties. -/
def sampleTable : TableFeatures := ⟨1, [97], 2, 3, 4, 5, [.nextTables false [1, 2, 3], .writeActions true [0, 22]]⟩

example : (∀ p ∈ sampleTable.properties, (∀ x ∈ p.fields, x.Plain) ∧ p.expMiss = false) ∧
    sampleTable.writeTo.out.length ≤ 65535 ∧ (∀ p ∈ sampleTable.properties, p.size ≤ 65535) ∧
    78 < sampleTable.writeTo.out.length ∧
    CutIn (fun p => p.writeTo.out.length) SilentTableProp sampleTable.properties (78 - 64) :=
  ⟨by
    intro p hp
    simp [sampleTable] at hp
    rcases hp with rfl | rfl <;> simp [TableProp.fields, TableProp.expMiss], by decide, by decide, by decide,
    [.nextTables false [1, 2, 3]], .writeActions true [0, 22], [], 6, rfl, by decide, by decide,
    by unfold SilentTableProp; decide⟩

/-- C40 is violated.  The actions of a table, cut in the second one. -/
theorem tableFeatures_truncated_accepted : ∃ (t : TableFeatures) (k : Nat),
    (∀ p ∈ t.properties, p.fields = [] ∧ p.expMiss = false ∧ p.size ≤ 65535) ∧ k < t.writeTo.out.length ∧
    t.properties.length = 2 ∧ ∃ r : Rd, r.Ok .eof ∧ r.content = t.writeTo.out.take k ∧
      (TableFeatures.readFrom TableFeatures.zero r).err = none ∧
      (TableFeatures.readFrom TableFeatures.zero r).val ≠ t.canonical := by
  refine ⟨sampleTable, 78, ?_, by decide, rfl,
    .src (sampleTable.writeTo.out.take 78) [] .eof false, rfl, rfl, ?_, ?_⟩
  · intro p hp
    simp [sampleTable] at hp
    rcases hp with rfl | rfl <;> simp [TableProp.fields, TableProp.expMiss, TableProp.size]
  all_goals decide +kernel

end Verif.Props
