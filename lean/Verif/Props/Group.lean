import Verif.Ofp.Group

/-!
# Property C31 and the group part of C51
-/

namespace Verif.Props

open Verif

/-! ## Buckets -/

/-- C31.  Wire format of a bucket; the length field is the size of the whole bucket. -/
theorem bucket_layout (b : Bucket) (hs : b.writeTo.out.length ≤ 65535) :
    Layout b.writeTo.out [.num 2 b.writeTo.out.length, .num 2 b.weight.toNat,
      .num 4 b.watchPort.toNat, .num 4 b.watchGroup.toNat, .pad 4,
      .raw (b.actions.flatMap (fun a => a.writeTo.out))] := by
  have h : b.actions.flatMap (fun a => a.writeTo.out) = Actions.bytes b.actions := rfl
  have hb : b.writeTo.out = b.bytes := rfl
  rw [hb] at hs
  rw [h, hb]
  have hl : b.bytes.length = 16 + (Actions.bytes b.actions).length := by
    rw [Bucket.bytes_length, Bucket.size, Actions.bytes_length]
  rw [hl] at hs ⊢
  have := u16_ofNat_toNat hs
  rw [Bucket.bytes_eq]
  simp [-UInt16.toNat_ofNat', -UInt16.ofNat_add, this]

/-- C31.  Round trip of a bucket, whatever the receiver held. -/
theorem bucket_roundtrip (b : Bucket) (ha : ∀ a ∈ b.actions, a.Valid)
    (hs : b.writeTo.out.length ≤ 65535) :
    Encodes b.writeTo ∧ Decodes Bucket.readFrom b.writeTo.out b := by
  refine ⟨by simp [Encodes, Bucket.writeTo_eq], Reads.decodes (b.reads ⟨ha, ?_⟩)⟩
  rw [← Bucket.bytes_length]; exact hs

example : let b : Bucket := ⟨1, 2, 3, [.output 4 0, .group 5]⟩
    (∀ a ∈ b.actions, a.Valid) ∧ b.writeTo.out.length ≤ 65535 := by decide

/-! ## Group modification -/

/-- C31.  Wire format of a group modification: 8 bytes and the buckets one after another. -/
theorem groupMod_layout (g : GroupMod) :
    Encodes g.writeTo ∧
    Layout g.writeTo.out [.num 2 g.command.toNat, .num 1 g.type.toNat, .pad 1,
      .num 4 g.group.toNat, .raw (g.buckets.flatMap (fun b => b.writeTo.out))] := by
  have h : g.buckets.flatMap (fun b => b.writeTo.out) = Buckets.bytes g.buckets := rfl
  rw [h, GroupMod.out_eq]
  exact ⟨by simp [Encodes]; omega, by simp⟩

/-- C31.  Missing: the buckets.  The other fields are restored, the whole message is
consumed without an error, and the receiver keeps the buckets it held before. -/
theorem groupMod_roundtrip_partial (g s : GroupMod)
    (hb : ∀ b ∈ g.buckets, (∀ a ∈ b.actions, a.Valid) ∧ b.writeTo.out.length ≤ 65535) :
    DecodesAllFrom GroupMod.readFrom s g.writeTo.out { g with buckets := s.buckets } :=
  ReadsAll.decodesAllFrom (g.readsAll (fun b h => ⟨(hb b h).1, by
    rw [← Bucket.bytes_length]; exact (hb b h).2⟩) s)

/-- C31.  On every input, decoding leaves the buckets of the receiver as they were. -/
theorem groupMod_loses_buckets (s : GroupMod) (r : Rd) :
    (GroupMod.readFrom s r).val.buckets = s.buckets := GroupMod.keeps s r

/-- C31 fails: no group modification with buckets survives the round trip. -/
theorem groupMod_roundtrip_false (g : GroupMod) (hb : g.buckets ≠ []) :
    ¬ DecodesAllFrom GroupMod.readFrom ⟨0, 0, 0, []⟩ g.writeTo.out g :=
  GroupMod.keeps.not_decodesAllFrom hb

example : ∃ g : GroupMod, g.buckets ≠ [] ∧
    ∀ b ∈ g.buckets, (∀ a ∈ b.actions, a.Valid) ∧ b.writeTo.out.length ≤ 65535 :=
  ⟨⟨0, 1, 2, [⟨1, 2, 3, [.output 4 0]⟩, ⟨0, 0, 0, []⟩]⟩, by decide⟩

/-! ## Group statistics -/

/-- C31.  Wire format of a group statistics entry. -/
theorem groupStats_layout (g : GroupStats) (hs : g.writeTo.out.length ≤ 65535) :
    Encodes g.writeTo ∧
    Layout g.writeTo.out [.num 2 g.writeTo.out.length, .pad 2, .num 4 g.group.toNat,
      .num 4 g.refCount.toNat, .pad 4, .num 8 g.packetCount.toNat, .num 8 g.byteCount.toNat,
      .num 4 g.durationSec.toNat, .num 4 g.durationNSec.toNat,
      .raw (g.bucketStats.flatMap (fun b => be b.packetCount ++ be b.byteCount))] := by
  have h : g.bucketStats.flatMap (fun b => be b.packetCount ++ be b.byteCount) =
      BucketCounters.bytes g.bucketStats := by
    simp [BucketCounters.bytes, BucketCounter.writeTo, Enc.writeTo, Enc.gather]
  have hl : g.writeTo.out.length = 40 + (BucketCounters.bytes g.bucketStats).length := by
    rw [GroupStats.out_eq]; simp; omega
  rw [hl] at hs
  rw [h, hl]
  have := u16_ofNat_toNat hs
  refine ⟨by rw [Encodes, hl, GroupStats.out_eq]; simp, ?_⟩
  rw [GroupStats.out_eq]
  simp [-UInt16.toNat_ofNat', -UInt16.ofNat_add, this]

/-- C31.  Missing: the bucket counters. -/
theorem groupStats_roundtrip_partial (g s : GroupStats)
    (hs : 40 + 16 * g.bucketStats.length ≤ 65535) :
    DecodesFrom GroupStats.readFrom s g.writeTo.out { g with bucketStats := s.bucketStats } :=
  Reads.decodesFrom (g.reads hs s)

theorem groupStats_loses_buckets (s : GroupStats) (r : Rd) :
    (GroupStats.readFrom s r).val.bucketStats = s.bucketStats := GroupStats.keeps s r

theorem groupStats_roundtrip_false (g : GroupStats) (hb : g.bucketStats ≠ []) :
    ¬ DecodesFrom GroupStats.readFrom ⟨0, 0, 0, 0, 0, 0, []⟩ g.writeTo.out g :=
  GroupStats.keeps.not_decodesFrom hb

/-- C51 holds here: an entry whose header is not complete is reported. -/
theorem groupStats_missing (s : GroupStats) (r : Rd) (hr : r.Ok .eof) (hc : r.content.length < 40) :
    (GroupStats.readFrom s r).err = some .eof ∨ (GroupStats.readFrom s r).err = some .unexpectedEOF := by
  have hf : Flat (Enc.readFrom [
      Enc.num (fun v s => (s.1, v)), Enc.skip 2,
      Enc.num (fun v s => ({ s.1 with group := v }, s.2)),
      Enc.num (fun v s => ({ s.1 with refCount := v }, s.2)), Enc.skip 4,
      Enc.num (fun v s => ({ s.1 with packetCount := v }, s.2)),
      Enc.num (fun v s => ({ s.1 with byteCount := v }, s.2)),
      Enc.num (fun v s => ({ s.1 with durationSec := v }, s.2)),
      Enc.num (fun v s => ({ s.1 with durationNSec := v }, s.2))] : Step (GroupStats × UInt16)) 40 :=
    Flat.cons Flat.num <| Flat.cons Flat.skip <| Flat.cons Flat.num <| Flat.cons Flat.num <|
    Flat.cons Flat.skip <| Flat.cons Flat.num <| Flat.cons Flat.num <| Flat.cons Flat.num <|
    Flat.cons Flat.num Flat.nil
  unfold GroupStats.readFrom
  simp only [Enc.withLocal]
  exact hf.prefix_err (s, 0) r hr hc

/-! ## Group descriptions -/

/-- C31.  Wire format of a group description. -/
theorem groupDescStats_layout (g : GroupDescStats) (hs : g.writeTo.out.length ≤ 65535) :
    Encodes g.writeTo ∧
    Layout g.writeTo.out [.num 2 g.writeTo.out.length, .num 1 g.type.toNat, .pad 1,
      .num 4 g.group.toNat, .raw (g.buckets.flatMap (fun b => b.writeTo.out))] := by
  have h : g.buckets.flatMap (fun b => b.writeTo.out) = Buckets.bytes g.buckets := rfl
  have hl : g.writeTo.out.length = 8 + (Buckets.bytes g.buckets).length := by
    rw [GroupDescStats.out_eq]; simp; omega
  rw [hl] at hs
  rw [h, hl]
  have := u16_ofNat_toNat hs
  refine ⟨by rw [Encodes, hl, GroupDescStats.out_eq]; simp, ?_⟩
  rw [GroupDescStats.out_eq]
  simp [-UInt16.toNat_ofNat', -UInt16.ofNat_add, this]

/-- C31.  Missing: the buckets. -/
theorem groupDescStats_roundtrip_partial (g s : GroupDescStats)
    (hb : ∀ b ∈ g.buckets, ∀ a ∈ b.actions, a.Valid) (hs : g.writeTo.out.length ≤ 65535) :
    DecodesFrom GroupDescStats.readFrom s g.writeTo.out { g with buckets := s.buckets } := by
  have hl : g.writeTo.out.length = 8 + (Buckets.bytes g.buckets).length := by
    rw [GroupDescStats.out_eq]; simp; omega
  rw [hl, Buckets.bytes_length] at hs
  refine ReadsC.decodesFrom (g.reads (fun b h => ⟨hb b h, ?_⟩) hs s)
  have : b.size ≤ (g.buckets.map Bucket.size).sum := le_sum_of_mem (List.mem_map_of_mem h)
  omega

theorem groupDescStats_loses_buckets (s : GroupDescStats) (r : Rd) :
    (GroupDescStats.readFrom s r).val.buckets = s.buckets := GroupDescStats.keeps s r

theorem groupDescStats_roundtrip_false (g : GroupDescStats) (hb : g.buckets ≠ []) :
    ¬ DecodesFrom GroupDescStats.readFrom ⟨0, 0, []⟩ g.writeTo.out g :=
  GroupDescStats.keeps.not_decodesFrom hb

example : ∃ g : GroupDescStats, g.buckets ≠ [] ∧ (∀ b ∈ g.buckets, ∀ a ∈ b.actions, a.Valid) ∧
    g.writeTo.out.length ≤ 65535 := ⟨⟨1, 2, [⟨1, 2, 3, [.output 4 0]⟩]⟩, by decide⟩

/-- C51 fails: whenever there are fewer bytes than the header of a group description
(in particular none at all) the decoder reports success. -/
theorem groupDescStats_missing_unreported (s : GroupDescStats) (r : Rd) (hr : r.Ok .eof)
    (hc : r.content.length < 8) :
    (GroupDescStats.readFrom s r).err = none ∧ (GroupDescStats.readFrom s r).n = r.content.length := by
  unfold GroupDescStats.readFrom
  simp only [Enc.withLocal]
  exact ignored_header (n := fun s => (s.2 - 8).toNat) GroupDescStats.header_flat Bucket.eof (s, 0) r hr hc

/-- C51.  So a reader that decodes entries until the end of the input is reported never
stops: there is no such report. -/
theorem groupDescStats_never_eof (s : GroupDescStats) (n : Nat) (r : Rd) (hr : r.Ok .eof)
    (hc : r.content = []) :
    (decodeMany GroupDescStats.readFrom s n r).1.length = n := by
  exact decodeMany_never GroupDescStats.readFrom_safe
    (fun r hr hc => (groupDescStats_missing_unreported s r hr (by simp [hc])).1) n r hr hc

end Verif.Props
