import Verif.Header
import Verif.Relay
import Verif.Props.Fixed
import Verif.Props.Port
import Verif.Props.Raw

/-!
# Property C61: what is decoded is relayed unchanged

A program that decodes a message and encodes the value again sends on exactly the bytes it
received, except that reserved bytes become zero.  For every accepted input: the theorems
quantify over all byte strings of the right size, not over encodings of values.
-/

namespace Verif.Props

open Verif

set_option linter.unusedSimpArgs false

/-- C61. -/
theorem aggregateStats_relays : Relays AggregateStats.writeTo AggregateStats.readFrom [.keep 20, .clear 4] := by
  intro bs h0
  replace h0 : bs.length = 24 := h0
  obtain ⟨v0, bs, rfl, h1⟩ := split64 (n := 16) bs h0
  obtain ⟨v1, bs, rfl, h2⟩ := split64 (n := 8) bs h1
  obtain ⟨v2, bs, rfl, h3⟩ := split32 (n := 4) bs h2
  obtain ⟨v3, bs, rfl, p3, h4⟩ := splitPad 4 (n := 0) bs h3
  obtain rfl := List.length_eq_zero_iff.1 h4
  refine ⟨⟨v0, v1, v2⟩, Reads.decodes fun s => by unfold AggregateStats.readFrom; readsPad, ?_, ?_⟩
  · simp [Encodes, AggregateStats.writeTo, Enc.writeTo, Enc.gather]
  · simp [AggregateStats.writeTo, Enc.writeTo, Enc.gather, canon, List.take_append, List.drop_append,
      List.drop_of_length_le, List.take_of_length_le, p3]

example : ∃ x, Decodes AggregateStats.readFrom
      [3, 40, 77, 114, 151, 188, 225, 6, 43, 80, 117, 154, 191, 228, 9, 46, 83, 120, 157,
      194, 231, 12, 49, 86] x ∧
    x.writeTo.out =
      [3, 40, 77, 114, 151, 188, 225, 6, 43, 80, 117, 154, 191, 228, 9, 46, 83, 120, 157,
      194, 0, 0, 0, 0] := by
  obtain ⟨x, h1, _, h3⟩ := aggregateStats_relays
    [3, 40, 77, 114, 151, 188, 225, 6, 43, 80, 117, 154, 191, 228, 9, 46, 83, 120, 157,
      194, 231, 12, 49, 86] (by decide)
  exact ⟨x, h1, by rw [h3]; decide⟩

/-- C61. -/
theorem switchFeatures_relays : Relays SwitchFeatures.writeTo SwitchFeatures.readFrom [.keep 14, .clear 2, .keep 8] := by
  intro bs h0
  replace h0 : bs.length = 24 := h0
  obtain ⟨v0, bs, rfl, h1⟩ := split64 (n := 16) bs h0
  obtain ⟨v1, bs, rfl, h2⟩ := split32 (n := 12) bs h1
  obtain ⟨v2, bs, rfl, h3⟩ := split8 (n := 11) bs h2
  obtain ⟨v3, bs, rfl, h4⟩ := split8 (n := 10) bs h3
  obtain ⟨v4, bs, rfl, p4, h5⟩ := splitPad 2 (n := 8) bs h4
  obtain ⟨v5, bs, rfl, h6⟩ := split32 (n := 4) bs h5
  obtain ⟨v6, bs, rfl, h7⟩ := split32 (n := 0) bs h6
  obtain rfl := List.length_eq_zero_iff.1 h7
  refine ⟨⟨v0, v1, v2, v3, v5, v6⟩, Reads.decodes fun s => by unfold SwitchFeatures.readFrom; readsPad, ?_, ?_⟩
  · simp [Encodes, SwitchFeatures.writeTo, Enc.writeTo, Enc.gather]
  · simp [SwitchFeatures.writeTo, Enc.writeTo, Enc.gather, canon, List.take_append, List.drop_append,
      List.drop_of_length_le, List.take_of_length_le, p4]

example : ∃ x, Decodes SwitchFeatures.readFrom
      [3, 40, 77, 114, 151, 188, 225, 6, 43, 80, 117, 154, 191, 228, 9, 46, 83, 120, 157,
      194, 231, 12, 49, 86] x ∧
    x.writeTo.out =
      [3, 40, 77, 114, 151, 188, 225, 6, 43, 80, 117, 154, 191, 228, 0, 0, 83, 120, 157,
      194, 231, 12, 49, 86] := by
  obtain ⟨x, h1, _, h3⟩ := switchFeatures_relays
    [3, 40, 77, 114, 151, 188, 225, 6, 43, 80, 117, 154, 191, 228, 9, 46, 83, 120, 157,
      194, 231, 12, 49, 86] (by decide)
  exact ⟨x, h1, by rw [h3]; decide⟩

/-- C61. -/
theorem switchConfig_relays : Relays SwitchConfig.writeTo SwitchConfig.readFrom [.keep 4] := by
  intro bs h0
  replace h0 : bs.length = 4 := h0
  obtain ⟨v0, bs, rfl, h1⟩ := split16 (n := 2) bs h0
  obtain ⟨v1, bs, rfl, h2⟩ := split16 (n := 0) bs h1
  obtain rfl := List.length_eq_zero_iff.1 h2
  refine ⟨⟨v0, v1⟩, Reads.decodes fun s => by unfold SwitchConfig.readFrom; readsPad, ?_, ?_⟩
  · simp [Encodes, SwitchConfig.writeTo, Enc.writeTo, Enc.gather]
  · simp [SwitchConfig.writeTo, Enc.writeTo, Enc.gather, canon, List.take_append, List.drop_append,
      List.drop_of_length_le, List.take_of_length_le]

example : ∃ x, Decodes SwitchConfig.readFrom
      [3, 40, 77, 114] x ∧
    x.writeTo.out =
      [3, 40, 77, 114] := by
  obtain ⟨x, h1, _, h3⟩ := switchConfig_relays
    [3, 40, 77, 114] (by decide)
  exact ⟨x, h1, by rw [h3]; decide⟩

/-- C61. -/
theorem multipartReply_relays : Relays MultipartReply.writeTo MultipartReply.readFrom [.keep 4, .clear 4] := by
  intro bs h0
  replace h0 : bs.length = 8 := h0
  obtain ⟨v0, bs, rfl, h1⟩ := split16 (n := 6) bs h0
  obtain ⟨v1, bs, rfl, h2⟩ := split16 (n := 4) bs h1
  obtain ⟨v2, bs, rfl, p2, h3⟩ := splitPad 4 (n := 0) bs h2
  obtain rfl := List.length_eq_zero_iff.1 h3
  refine ⟨⟨v0, v1⟩, Reads.decodes fun s => by unfold MultipartReply.readFrom; readsPad, ?_, ?_⟩
  · simp [Encodes, MultipartReply.writeTo, Enc.writeTo, Enc.gather]
  · simp [MultipartReply.writeTo, Enc.writeTo, Enc.gather, canon, List.take_append, List.drop_append,
      List.drop_of_length_le, List.take_of_length_le, p2]

example : ∃ x, Decodes MultipartReply.readFrom
      [3, 40, 77, 114, 151, 188, 225, 6] x ∧
    x.writeTo.out =
      [3, 40, 77, 114, 0, 0, 0, 0] := by
  obtain ⟨x, h1, _, h3⟩ := multipartReply_relays
    [3, 40, 77, 114, 151, 188, 225, 6] (by decide)
  exact ⟨x, h1, by rw [h3]; decide⟩

/-- C61. -/
theorem experimenterMultipartHeader_relays : Relays ExperimenterMultipartHeader.writeTo ExperimenterMultipartHeader.readFrom [.keep 8] := by
  intro bs h0
  replace h0 : bs.length = 8 := h0
  obtain ⟨v0, bs, rfl, h1⟩ := split32 (n := 4) bs h0
  obtain ⟨v1, bs, rfl, h2⟩ := split32 (n := 0) bs h1
  obtain rfl := List.length_eq_zero_iff.1 h2
  refine ⟨⟨v0, v1⟩, Reads.decodes fun s => by unfold ExperimenterMultipartHeader.readFrom; readsPad, ?_, ?_⟩
  · simp [Encodes, ExperimenterMultipartHeader.writeTo, Enc.writeTo, Enc.gather]
  · simp [ExperimenterMultipartHeader.writeTo, Enc.writeTo, Enc.gather, canon, List.take_append, List.drop_append,
      List.drop_of_length_le, List.take_of_length_le]

example : ∃ x, Decodes ExperimenterMultipartHeader.readFrom
      [3, 40, 77, 114, 151, 188, 225, 6] x ∧
    x.writeTo.out =
      [3, 40, 77, 114, 151, 188, 225, 6] := by
  obtain ⟨x, h1, _, h3⟩ := experimenterMultipartHeader_relays
    [3, 40, 77, 114, 151, 188, 225, 6] (by decide)
  exact ⟨x, h1, by rw [h3]; decide⟩

/-- C61. -/
theorem experimenter_relays : Relays Experimenter.writeTo Experimenter.readFrom [.keep 8] := by
  intro bs h0
  replace h0 : bs.length = 8 := h0
  obtain ⟨v0, bs, rfl, h1⟩ := split32 (n := 4) bs h0
  obtain ⟨v1, bs, rfl, h2⟩ := split32 (n := 0) bs h1
  obtain rfl := List.length_eq_zero_iff.1 h2
  refine ⟨⟨v0, v1⟩, Reads.decodes fun s => by unfold Experimenter.readFrom; readsPad, ?_, ?_⟩
  · simp [Encodes, Experimenter.writeTo, Enc.writeTo, Enc.gather]
  · simp [Experimenter.writeTo, Enc.writeTo, Enc.gather, canon, List.take_append, List.drop_append,
      List.drop_of_length_le, List.take_of_length_le]

example : ∃ x, Decodes Experimenter.readFrom
      [3, 40, 77, 114, 151, 188, 225, 6] x ∧
    x.writeTo.out =
      [3, 40, 77, 114, 151, 188, 225, 6] := by
  obtain ⟨x, h1, _, h3⟩ := experimenter_relays
    [3, 40, 77, 114, 151, 188, 225, 6] (by decide)
  exact ⟨x, h1, by rw [h3]; decide⟩

/-- C61. -/
theorem roleRequest_relays : Relays RoleRequest.writeTo RoleRequest.readFrom [.keep 4, .clear 4, .keep 8] := by
  intro bs h0
  replace h0 : bs.length = 16 := h0
  obtain ⟨v0, bs, rfl, h1⟩ := split32 (n := 12) bs h0
  obtain ⟨v1, bs, rfl, p1, h2⟩ := splitPad 4 (n := 8) bs h1
  obtain ⟨v2, bs, rfl, h3⟩ := split64 (n := 0) bs h2
  obtain rfl := List.length_eq_zero_iff.1 h3
  refine ⟨⟨v0, v2⟩, Reads.decodes fun s => by unfold RoleRequest.readFrom; readsPad, ?_, ?_⟩
  · simp [Encodes, RoleRequest.writeTo, Enc.writeTo, Enc.gather]
  · simp [RoleRequest.writeTo, Enc.writeTo, Enc.gather, canon, List.take_append, List.drop_append,
      List.drop_of_length_le, List.take_of_length_le, p1]

example : ∃ x, Decodes RoleRequest.readFrom
      [3, 40, 77, 114, 151, 188, 225, 6, 43, 80, 117, 154, 191, 228, 9, 46] x ∧
    x.writeTo.out =
      [3, 40, 77, 114, 0, 0, 0, 0, 43, 80, 117, 154, 191, 228, 9, 46] := by
  obtain ⟨x, h1, _, h3⟩ := roleRequest_relays
    [3, 40, 77, 114, 151, 188, 225, 6, 43, 80, 117, 154, 191, 228, 9, 46] (by decide)
  exact ⟨x, h1, by rw [h3]; decide⟩

/-- C61. -/
theorem asyncConfig_relays : Relays AsyncConfig.writeTo AsyncConfig.readFrom [.keep 24] := by
  intro bs h0
  replace h0 : bs.length = 24 := h0
  obtain ⟨v0, bs, rfl, h1⟩ := split32 (n := 20) bs h0
  obtain ⟨v1, bs, rfl, h2⟩ := split32 (n := 16) bs h1
  obtain ⟨v2, bs, rfl, h3⟩ := split32 (n := 12) bs h2
  obtain ⟨v3, bs, rfl, h4⟩ := split32 (n := 8) bs h3
  obtain ⟨v4, bs, rfl, h5⟩ := split32 (n := 4) bs h4
  obtain ⟨v5, bs, rfl, h6⟩ := split32 (n := 0) bs h5
  obtain rfl := List.length_eq_zero_iff.1 h6
  refine ⟨⟨(v0, v1), (v2, v3), (v4, v5)⟩, Reads.decodes fun s => by unfold AsyncConfig.readFrom; readsPad, ?_, ?_⟩
  · simp [Encodes, AsyncConfig.writeTo, Enc.writeTo, Enc.gather]
  · simp [AsyncConfig.writeTo, Enc.writeTo, Enc.gather, canon, List.take_append, List.drop_append,
      List.drop_of_length_le, List.take_of_length_le]

example : ∃ x, Decodes AsyncConfig.readFrom
      [3, 40, 77, 114, 151, 188, 225, 6, 43, 80, 117, 154, 191, 228, 9, 46, 83, 120, 157,
      194, 231, 12, 49, 86] x ∧
    x.writeTo.out =
      [3, 40, 77, 114, 151, 188, 225, 6, 43, 80, 117, 154, 191, 228, 9, 46, 83, 120, 157,
      194, 231, 12, 49, 86] := by
  obtain ⟨x, h1, _, h3⟩ := asyncConfig_relays
    [3, 40, 77, 114, 151, 188, 225, 6, 43, 80, 117, 154, 191, 228, 9, 46, 83, 120, 157,
      194, 231, 12, 49, 86] (by decide)
  exact ⟨x, h1, by rw [h3]; decide⟩

/-- C61. -/
theorem tableMod_relays : Relays TableMod.writeTo TableMod.readFrom [.keep 1, .clear 3, .keep 4] := by
  intro bs h0
  replace h0 : bs.length = 8 := h0
  obtain ⟨v0, bs, rfl, h1⟩ := split8 (n := 7) bs h0
  obtain ⟨v1, bs, rfl, p1, h2⟩ := splitPad 3 (n := 4) bs h1
  obtain ⟨v2, bs, rfl, h3⟩ := split32 (n := 0) bs h2
  obtain rfl := List.length_eq_zero_iff.1 h3
  refine ⟨⟨v0, v2⟩, Reads.decodes fun s => by unfold TableMod.readFrom; readsPad, ?_, ?_⟩
  · simp [Encodes, TableMod.writeTo, Enc.writeTo, Enc.gather]
  · simp [TableMod.writeTo, Enc.writeTo, Enc.gather, canon, List.take_append, List.drop_append,
      List.drop_of_length_le, List.take_of_length_le, p1]

example : ∃ x, Decodes TableMod.readFrom
      [3, 40, 77, 114, 151, 188, 225, 6] x ∧
    x.writeTo.out =
      [3, 0, 0, 0, 151, 188, 225, 6] := by
  obtain ⟨x, h1, _, h3⟩ := tableMod_relays
    [3, 40, 77, 114, 151, 188, 225, 6] (by decide)
  exact ⟨x, h1, by rw [h3]; decide⟩

/-- C61. -/
theorem tableStats_relays : Relays TableStats.writeTo TableStats.readFrom [.keep 1, .clear 3, .keep 20] := by
  intro bs h0
  replace h0 : bs.length = 24 := h0
  obtain ⟨v0, bs, rfl, h1⟩ := split8 (n := 23) bs h0
  obtain ⟨v1, bs, rfl, p1, h2⟩ := splitPad 3 (n := 20) bs h1
  obtain ⟨v2, bs, rfl, h3⟩ := split32 (n := 16) bs h2
  obtain ⟨v3, bs, rfl, h4⟩ := split64 (n := 8) bs h3
  obtain ⟨v4, bs, rfl, h5⟩ := split64 (n := 0) bs h4
  obtain rfl := List.length_eq_zero_iff.1 h5
  refine ⟨⟨v0, v2, v3, v4⟩, Reads.decodes fun s => by unfold TableStats.readFrom; readsPad, ?_, ?_⟩
  · simp [Encodes, TableStats.writeTo, Enc.writeTo, Enc.gather]
  · simp [TableStats.writeTo, Enc.writeTo, Enc.gather, canon, List.take_append, List.drop_append,
      List.drop_of_length_le, List.take_of_length_le, p1]

example : ∃ x, Decodes TableStats.readFrom
      [3, 40, 77, 114, 151, 188, 225, 6, 43, 80, 117, 154, 191, 228, 9, 46, 83, 120, 157,
      194, 231, 12, 49, 86] x ∧
    x.writeTo.out =
      [3, 0, 0, 0, 151, 188, 225, 6, 43, 80, 117, 154, 191, 228, 9, 46, 83, 120, 157, 194,
      231, 12, 49, 86] := by
  obtain ⟨x, h1, _, h3⟩ := tableStats_relays
    [3, 40, 77, 114, 151, 188, 225, 6, 43, 80, 117, 154, 191, 228, 9, 46, 83, 120, 157,
      194, 231, 12, 49, 86] (by decide)
  exact ⟨x, h1, by rw [h3]; decide⟩

/-- C61. -/
theorem portStatsRequest_relays : Relays PortStatsRequest.writeTo PortStatsRequest.readFrom [.keep 4, .clear 4] := by
  intro bs h0
  replace h0 : bs.length = 8 := h0
  obtain ⟨v0, bs, rfl, h1⟩ := split32 (n := 4) bs h0
  obtain ⟨v1, bs, rfl, p1, h2⟩ := splitPad 4 (n := 0) bs h1
  obtain rfl := List.length_eq_zero_iff.1 h2
  refine ⟨⟨v0⟩, Reads.decodes fun s => by unfold PortStatsRequest.readFrom; readsPad, ?_, ?_⟩
  · simp [Encodes, PortStatsRequest.writeTo, Enc.writeTo, Enc.gather]
  · simp [PortStatsRequest.writeTo, Enc.writeTo, Enc.gather, canon, List.take_append, List.drop_append,
      List.drop_of_length_le, List.take_of_length_le, p1]

example : ∃ x, Decodes PortStatsRequest.readFrom
      [3, 40, 77, 114, 151, 188, 225, 6] x ∧
    x.writeTo.out =
      [3, 40, 77, 114, 0, 0, 0, 0] := by
  obtain ⟨x, h1, _, h3⟩ := portStatsRequest_relays
    [3, 40, 77, 114, 151, 188, 225, 6] (by decide)
  exact ⟨x, h1, by rw [h3]; decide⟩

/-- C61. -/
theorem portStats_relays : Relays PortStats.writeTo PortStats.readFrom [.keep 4, .clear 4, .keep 104] := by
  intro bs h0
  replace h0 : bs.length = 112 := h0
  obtain ⟨v0, bs, rfl, h1⟩ := split32 (n := 108) bs h0
  obtain ⟨v1, bs, rfl, p1, h2⟩ := splitPad 4 (n := 104) bs h1
  obtain ⟨v2, bs, rfl, h3⟩ := split64 (n := 96) bs h2
  obtain ⟨v3, bs, rfl, h4⟩ := split64 (n := 88) bs h3
  obtain ⟨v4, bs, rfl, h5⟩ := split64 (n := 80) bs h4
  obtain ⟨v5, bs, rfl, h6⟩ := split64 (n := 72) bs h5
  obtain ⟨v6, bs, rfl, h7⟩ := split64 (n := 64) bs h6
  obtain ⟨v7, bs, rfl, h8⟩ := split64 (n := 56) bs h7
  obtain ⟨v8, bs, rfl, h9⟩ := split64 (n := 48) bs h8
  obtain ⟨v9, bs, rfl, h10⟩ := split64 (n := 40) bs h9
  obtain ⟨v10, bs, rfl, h11⟩ := split64 (n := 32) bs h10
  obtain ⟨v11, bs, rfl, h12⟩ := split64 (n := 24) bs h11
  obtain ⟨v12, bs, rfl, h13⟩ := split64 (n := 16) bs h12
  obtain ⟨v13, bs, rfl, h14⟩ := split64 (n := 8) bs h13
  obtain ⟨v14, bs, rfl, h15⟩ := split32 (n := 4) bs h14
  obtain ⟨v15, bs, rfl, h16⟩ := split32 (n := 0) bs h15
  obtain rfl := List.length_eq_zero_iff.1 h16
  refine ⟨⟨v0, v2, v3, v4, v5, v6, v7, v8, v9, v10, v11, v12, v13, v14, v15⟩, Reads.decodes fun s => by unfold PortStats.readFrom; readsPad, ?_, ?_⟩
  · simp [Encodes, PortStats.writeTo, Enc.writeTo, Enc.gather]
  · simp [PortStats.writeTo, Enc.writeTo, Enc.gather, canon, List.take_append, List.drop_append,
      List.drop_of_length_le, List.take_of_length_le, p1]

example : ∃ x, Decodes PortStats.readFrom
      [3, 40, 77, 114, 151, 188, 225, 6, 43, 80, 117, 154, 191, 228, 9, 46, 83, 120, 157,
      194, 231, 12, 49, 86, 123, 160, 197, 234, 15, 52, 89, 126, 163, 200, 237, 18, 55,
      92, 129, 166, 203, 240, 21, 58, 95, 132, 169, 206, 243, 24, 61, 98, 135, 172, 209,
      246, 27, 64, 101, 138, 175, 212, 249, 30, 67, 104, 141, 178, 215, 252, 33, 70, 107,
      144, 181, 218, 255, 36, 73, 110, 147, 184, 221, 2, 39, 76, 113, 150, 187, 224, 5,
      42, 79, 116, 153, 190, 227, 8, 45, 82, 119, 156, 193, 230, 11, 48, 85, 122, 159,
      196, 233, 14] x ∧
    x.writeTo.out =
      [3, 40, 77, 114, 0, 0, 0, 0, 43, 80, 117, 154, 191, 228, 9, 46, 83, 120, 157, 194,
      231, 12, 49, 86, 123, 160, 197, 234, 15, 52, 89, 126, 163, 200, 237, 18, 55, 92,
      129, 166, 203, 240, 21, 58, 95, 132, 169, 206, 243, 24, 61, 98, 135, 172, 209, 246,
      27, 64, 101, 138, 175, 212, 249, 30, 67, 104, 141, 178, 215, 252, 33, 70, 107, 144,
      181, 218, 255, 36, 73, 110, 147, 184, 221, 2, 39, 76, 113, 150, 187, 224, 5, 42, 79,
      116, 153, 190, 227, 8, 45, 82, 119, 156, 193, 230, 11, 48, 85, 122, 159, 196, 233,
      14] := by
  obtain ⟨x, h1, _, h3⟩ := portStats_relays
    [3, 40, 77, 114, 151, 188, 225, 6, 43, 80, 117, 154, 191, 228, 9, 46, 83, 120, 157,
      194, 231, 12, 49, 86, 123, 160, 197, 234, 15, 52, 89, 126, 163, 200, 237, 18, 55,
      92, 129, 166, 203, 240, 21, 58, 95, 132, 169, 206, 243, 24, 61, 98, 135, 172, 209,
      246, 27, 64, 101, 138, 175, 212, 249, 30, 67, 104, 141, 178, 215, 252, 33, 70, 107,
      144, 181, 218, 255, 36, 73, 110, 147, 184, 221, 2, 39, 76, 113, 150, 187, 224, 5,
      42, 79, 116, 153, 190, 227, 8, 45, 82, 119, 156, 193, 230, 11, 48, 85, 122, 159,
      196, 233, 14] (by decide)
  exact ⟨x, h1, by rw [h3]; decide⟩

/-- C61. -/
theorem meterConfigRequest_relays : Relays MeterConfigRequest.writeTo MeterConfigRequest.readFrom [.keep 4, .clear 4] := by
  intro bs h0
  replace h0 : bs.length = 8 := h0
  obtain ⟨v0, bs, rfl, h1⟩ := split32 (n := 4) bs h0
  obtain ⟨v1, bs, rfl, p1, h2⟩ := splitPad 4 (n := 0) bs h1
  obtain rfl := List.length_eq_zero_iff.1 h2
  refine ⟨⟨v0⟩, Reads.decodes fun s => by unfold MeterConfigRequest.readFrom; readsPad, ?_, ?_⟩
  · simp [Encodes, MeterConfigRequest.writeTo, Enc.writeTo, Enc.gather]
  · simp [MeterConfigRequest.writeTo, Enc.writeTo, Enc.gather, canon, List.take_append, List.drop_append,
      List.drop_of_length_le, List.take_of_length_le, p1]

example : ∃ x, Decodes MeterConfigRequest.readFrom
      [3, 40, 77, 114, 151, 188, 225, 6] x ∧
    x.writeTo.out =
      [3, 40, 77, 114, 0, 0, 0, 0] := by
  obtain ⟨x, h1, _, h3⟩ := meterConfigRequest_relays
    [3, 40, 77, 114, 151, 188, 225, 6] (by decide)
  exact ⟨x, h1, by rw [h3]; decide⟩

/-- C61. -/
theorem meterFeatures_relays : Relays MeterFeatures.writeTo MeterFeatures.readFrom [.keep 14, .clear 2] := by
  intro bs h0
  replace h0 : bs.length = 16 := h0
  obtain ⟨v0, bs, rfl, h1⟩ := split32 (n := 12) bs h0
  obtain ⟨v1, bs, rfl, h2⟩ := split32 (n := 8) bs h1
  obtain ⟨v2, bs, rfl, h3⟩ := split32 (n := 4) bs h2
  obtain ⟨v3, bs, rfl, h4⟩ := split8 (n := 3) bs h3
  obtain ⟨v4, bs, rfl, h5⟩ := split8 (n := 2) bs h4
  obtain ⟨v5, bs, rfl, p5, h6⟩ := splitPad 2 (n := 0) bs h5
  obtain rfl := List.length_eq_zero_iff.1 h6
  refine ⟨⟨v0, v1, v2, v3, v4⟩, Reads.decodes fun s => by unfold MeterFeatures.readFrom; readsPad, ?_, ?_⟩
  · simp [Encodes, MeterFeatures.writeTo, Enc.writeTo, Enc.gather]
  · simp [MeterFeatures.writeTo, Enc.writeTo, Enc.gather, canon, List.take_append, List.drop_append,
      List.drop_of_length_le, List.take_of_length_le, p5]

example : ∃ x, Decodes MeterFeatures.readFrom
      [3, 40, 77, 114, 151, 188, 225, 6, 43, 80, 117, 154, 191, 228, 9, 46] x ∧
    x.writeTo.out =
      [3, 40, 77, 114, 151, 188, 225, 6, 43, 80, 117, 154, 191, 228, 0, 0] := by
  obtain ⟨x, h1, _, h3⟩ := meterFeatures_relays
    [3, 40, 77, 114, 151, 188, 225, 6, 43, 80, 117, 154, 191, 228, 9, 46] (by decide)
  exact ⟨x, h1, by rw [h3]; decide⟩

/-- C61. -/
theorem meterBandStats_relays : Relays MeterBandStats.writeTo MeterBandStats.readFrom [.keep 16] := by
  intro bs h0
  replace h0 : bs.length = 16 := h0
  obtain ⟨v0, bs, rfl, h1⟩ := split64 (n := 8) bs h0
  obtain ⟨v1, bs, rfl, h2⟩ := split64 (n := 0) bs h1
  obtain rfl := List.length_eq_zero_iff.1 h2
  refine ⟨⟨v0, v1⟩, Reads.decodes fun s => by unfold MeterBandStats.readFrom; readsPad, ?_, ?_⟩
  · simp [Encodes, MeterBandStats.writeTo, Enc.writeTo, Enc.gather]
  · simp [MeterBandStats.writeTo, Enc.writeTo, Enc.gather, canon, List.take_append, List.drop_append,
      List.drop_of_length_le, List.take_of_length_le]

example : ∃ x, Decodes MeterBandStats.readFrom
      [3, 40, 77, 114, 151, 188, 225, 6, 43, 80, 117, 154, 191, 228, 9, 46] x ∧
    x.writeTo.out =
      [3, 40, 77, 114, 151, 188, 225, 6, 43, 80, 117, 154, 191, 228, 9, 46] := by
  obtain ⟨x, h1, _, h3⟩ := meterBandStats_relays
    [3, 40, 77, 114, 151, 188, 225, 6, 43, 80, 117, 154, 191, 228, 9, 46] (by decide)
  exact ⟨x, h1, by rw [h3]; decide⟩

/-- C61. -/
theorem meterStatsRequest_relays : Relays MeterStatsRequest.writeTo MeterStatsRequest.readFrom [.keep 4, .clear 4] := by
  intro bs h0
  replace h0 : bs.length = 8 := h0
  obtain ⟨v0, bs, rfl, h1⟩ := split32 (n := 4) bs h0
  obtain ⟨v1, bs, rfl, p1, h2⟩ := splitPad 4 (n := 0) bs h1
  obtain rfl := List.length_eq_zero_iff.1 h2
  refine ⟨⟨v0⟩, Reads.decodes fun s => by unfold MeterStatsRequest.readFrom; readsPad, ?_, ?_⟩
  · simp [Encodes, MeterStatsRequest.writeTo, Enc.writeTo, Enc.gather]
  · simp [MeterStatsRequest.writeTo, Enc.writeTo, Enc.gather, canon, List.take_append, List.drop_append,
      List.drop_of_length_le, List.take_of_length_le, p1]

example : ∃ x, Decodes MeterStatsRequest.readFrom
      [3, 40, 77, 114, 151, 188, 225, 6] x ∧
    x.writeTo.out =
      [3, 40, 77, 114, 0, 0, 0, 0] := by
  obtain ⟨x, h1, _, h3⟩ := meterStatsRequest_relays
    [3, 40, 77, 114, 151, 188, 225, 6] (by decide)
  exact ⟨x, h1, by rw [h3]; decide⟩

/-- C61. -/
theorem groupStatsRequest_relays : Relays GroupStatsRequest.writeTo GroupStatsRequest.readFrom [.keep 4, .clear 4] := by
  intro bs h0
  replace h0 : bs.length = 8 := h0
  obtain ⟨v0, bs, rfl, h1⟩ := split32 (n := 4) bs h0
  obtain ⟨v1, bs, rfl, p1, h2⟩ := splitPad 4 (n := 0) bs h1
  obtain rfl := List.length_eq_zero_iff.1 h2
  refine ⟨⟨v0⟩, Reads.decodes fun s => by unfold GroupStatsRequest.readFrom; readsPad, ?_, ?_⟩
  · simp [Encodes, GroupStatsRequest.writeTo, Enc.writeTo, Enc.gather]
  · simp [GroupStatsRequest.writeTo, Enc.writeTo, Enc.gather, canon, List.take_append, List.drop_append,
      List.drop_of_length_le, List.take_of_length_le, p1]

example : ∃ x, Decodes GroupStatsRequest.readFrom
      [3, 40, 77, 114, 151, 188, 225, 6] x ∧
    x.writeTo.out =
      [3, 40, 77, 114, 0, 0, 0, 0] := by
  obtain ⟨x, h1, _, h3⟩ := groupStatsRequest_relays
    [3, 40, 77, 114, 151, 188, 225, 6] (by decide)
  exact ⟨x, h1, by rw [h3]; decide⟩

/-- C61. -/
theorem bucketCounter_relays : Relays BucketCounter.writeTo BucketCounter.readFrom [.keep 16] := by
  intro bs h0
  replace h0 : bs.length = 16 := h0
  obtain ⟨v0, bs, rfl, h1⟩ := split64 (n := 8) bs h0
  obtain ⟨v1, bs, rfl, h2⟩ := split64 (n := 0) bs h1
  obtain rfl := List.length_eq_zero_iff.1 h2
  refine ⟨⟨v0, v1⟩, Reads.decodes fun s => by unfold BucketCounter.readFrom; readsPad, ?_, ?_⟩
  · simp [Encodes, BucketCounter.writeTo, Enc.writeTo, Enc.gather]
  · simp [BucketCounter.writeTo, Enc.writeTo, Enc.gather, canon, List.take_append, List.drop_append,
      List.drop_of_length_le, List.take_of_length_le]

example : ∃ x, Decodes BucketCounter.readFrom
      [3, 40, 77, 114, 151, 188, 225, 6, 43, 80, 117, 154, 191, 228, 9, 46] x ∧
    x.writeTo.out =
      [3, 40, 77, 114, 151, 188, 225, 6, 43, 80, 117, 154, 191, 228, 9, 46] := by
  obtain ⟨x, h1, _, h3⟩ := bucketCounter_relays
    [3, 40, 77, 114, 151, 188, 225, 6, 43, 80, 117, 154, 191, 228, 9, 46] (by decide)
  exact ⟨x, h1, by rw [h3]; decide⟩

/-- C61. -/
theorem groupFeatures_relays : Relays GroupFeatures.writeTo GroupFeatures.readFrom [.keep 40] := by
  intro bs h0
  replace h0 : bs.length = 40 := h0
  obtain ⟨v0, bs, rfl, h1⟩ := split32 (n := 36) bs h0
  obtain ⟨v1, bs, rfl, h2⟩ := split32 (n := 32) bs h1
  obtain ⟨v2, bs, rfl, h3⟩ := split32 (n := 28) bs h2
  obtain ⟨v3, bs, rfl, h4⟩ := split32 (n := 24) bs h3
  obtain ⟨v4, bs, rfl, h5⟩ := split32 (n := 20) bs h4
  obtain ⟨v5, bs, rfl, h6⟩ := split32 (n := 16) bs h5
  obtain ⟨v6, bs, rfl, h7⟩ := split32 (n := 12) bs h6
  obtain ⟨v7, bs, rfl, h8⟩ := split32 (n := 8) bs h7
  obtain ⟨v8, bs, rfl, h9⟩ := split32 (n := 4) bs h8
  obtain ⟨v9, bs, rfl, h10⟩ := split32 (n := 0) bs h9
  obtain rfl := List.length_eq_zero_iff.1 h10
  refine ⟨⟨v0, v1, (v2, v3, v4, v5), (v6, v7, v8, v9)⟩, Reads.decodes fun s => by unfold GroupFeatures.readFrom; readsPad, ?_, ?_⟩
  · simp [Encodes, GroupFeatures.writeTo, Enc.writeTo, Enc.gather]
  · simp [GroupFeatures.writeTo, Enc.writeTo, Enc.gather, canon, List.take_append, List.drop_append,
      List.drop_of_length_le, List.take_of_length_le]

example : ∃ x, Decodes GroupFeatures.readFrom
      [3, 40, 77, 114, 151, 188, 225, 6, 43, 80, 117, 154, 191, 228, 9, 46, 83, 120, 157,
      194, 231, 12, 49, 86, 123, 160, 197, 234, 15, 52, 89, 126, 163, 200, 237, 18, 55,
      92, 129, 166] x ∧
    x.writeTo.out =
      [3, 40, 77, 114, 151, 188, 225, 6, 43, 80, 117, 154, 191, 228, 9, 46, 83, 120, 157,
      194, 231, 12, 49, 86, 123, 160, 197, 234, 15, 52, 89, 126, 163, 200, 237, 18, 55,
      92, 129, 166] := by
  obtain ⟨x, h1, _, h3⟩ := groupFeatures_relays
    [3, 40, 77, 114, 151, 188, 225, 6, 43, 80, 117, 154, 191, 228, 9, 46, 83, 120, 157,
      194, 231, 12, 49, 86, 123, 160, 197, 234, 15, 52, 89, 126, 163, 200, 237, 18, 55,
      92, 129, 166] (by decide)
  exact ⟨x, h1, by rw [h3]; decide⟩

/-- C61. -/
theorem queueStatsRequest_relays : Relays QueueStatsRequest.writeTo QueueStatsRequest.readFrom [.keep 8] := by
  intro bs h0
  replace h0 : bs.length = 8 := h0
  obtain ⟨v0, bs, rfl, h1⟩ := split32 (n := 4) bs h0
  obtain ⟨v1, bs, rfl, h2⟩ := split32 (n := 0) bs h1
  obtain rfl := List.length_eq_zero_iff.1 h2
  refine ⟨⟨v0, v1⟩, Reads.decodes fun s => by unfold QueueStatsRequest.readFrom; readsPad, ?_, ?_⟩
  · simp [Encodes, QueueStatsRequest.writeTo, Enc.writeTo, Enc.gather]
  · simp [QueueStatsRequest.writeTo, Enc.writeTo, Enc.gather, canon, List.take_append, List.drop_append,
      List.drop_of_length_le, List.take_of_length_le]

example : ∃ x, Decodes QueueStatsRequest.readFrom
      [3, 40, 77, 114, 151, 188, 225, 6] x ∧
    x.writeTo.out =
      [3, 40, 77, 114, 151, 188, 225, 6] := by
  obtain ⟨x, h1, _, h3⟩ := queueStatsRequest_relays
    [3, 40, 77, 114, 151, 188, 225, 6] (by decide)
  exact ⟨x, h1, by rw [h3]; decide⟩

/-- C61. -/
theorem queueStats_relays : Relays QueueStats.writeTo QueueStats.readFrom [.keep 40] := by
  intro bs h0
  replace h0 : bs.length = 40 := h0
  obtain ⟨v0, bs, rfl, h1⟩ := split32 (n := 36) bs h0
  obtain ⟨v1, bs, rfl, h2⟩ := split32 (n := 32) bs h1
  obtain ⟨v2, bs, rfl, h3⟩ := split64 (n := 24) bs h2
  obtain ⟨v3, bs, rfl, h4⟩ := split64 (n := 16) bs h3
  obtain ⟨v4, bs, rfl, h5⟩ := split64 (n := 8) bs h4
  obtain ⟨v5, bs, rfl, h6⟩ := split32 (n := 4) bs h5
  obtain ⟨v6, bs, rfl, h7⟩ := split32 (n := 0) bs h6
  obtain rfl := List.length_eq_zero_iff.1 h7
  refine ⟨⟨v0, v1, v2, v3, v4, v5, v6⟩, Reads.decodes fun s => by unfold QueueStats.readFrom; readsPad, ?_, ?_⟩
  · simp [Encodes, QueueStats.writeTo, Enc.writeTo, Enc.gather]
  · simp [QueueStats.writeTo, Enc.writeTo, Enc.gather, canon, List.take_append, List.drop_append,
      List.drop_of_length_le, List.take_of_length_le]

example : ∃ x, Decodes QueueStats.readFrom
      [3, 40, 77, 114, 151, 188, 225, 6, 43, 80, 117, 154, 191, 228, 9, 46, 83, 120, 157,
      194, 231, 12, 49, 86, 123, 160, 197, 234, 15, 52, 89, 126, 163, 200, 237, 18, 55,
      92, 129, 166] x ∧
    x.writeTo.out =
      [3, 40, 77, 114, 151, 188, 225, 6, 43, 80, 117, 154, 191, 228, 9, 46, 83, 120, 157,
      194, 231, 12, 49, 86, 123, 160, 197, 234, 15, 52, 89, 126, 163, 200, 237, 18, 55,
      92, 129, 166] := by
  obtain ⟨x, h1, _, h3⟩ := queueStats_relays
    [3, 40, 77, 114, 151, 188, 225, 6, 43, 80, 117, 154, 191, 228, 9, 46, 83, 120, 157,
      194, 231, 12, 49, 86, 123, 160, 197, 234, 15, 52, 89, 126, 163, 200, 237, 18, 55,
      92, 129, 166] (by decide)
  exact ⟨x, h1, by rw [h3]; decide⟩

/-- C61. -/
theorem queueGetConfigRequest_relays : Relays QueueGetConfigRequest.writeTo QueueGetConfigRequest.readFrom [.keep 4, .clear 4] := by
  intro bs h0
  replace h0 : bs.length = 8 := h0
  obtain ⟨v0, bs, rfl, h1⟩ := split32 (n := 4) bs h0
  obtain ⟨v1, bs, rfl, p1, h2⟩ := splitPad 4 (n := 0) bs h1
  obtain rfl := List.length_eq_zero_iff.1 h2
  refine ⟨⟨v0⟩, Reads.decodes fun s => by unfold QueueGetConfigRequest.readFrom; readsPad, ?_, ?_⟩
  · simp [Encodes, QueueGetConfigRequest.writeTo, Enc.writeTo, Enc.gather]
  · simp [QueueGetConfigRequest.writeTo, Enc.writeTo, Enc.gather, canon, List.take_append, List.drop_append,
      List.drop_of_length_le, List.take_of_length_le, p1]

example : ∃ x, Decodes QueueGetConfigRequest.readFrom
      [3, 40, 77, 114, 151, 188, 225, 6] x ∧
    x.writeTo.out =
      [3, 40, 77, 114, 0, 0, 0, 0] := by
  obtain ⟨x, h1, _, h3⟩ := queueGetConfigRequest_relays
    [3, 40, 77, 114, 151, 188, 225, 6] (by decide)
  exact ⟨x, h1, by rw [h3]; decide⟩

/-- C61.  The message header. -/
theorem header_relays : Relays Header.writeTo Header.readFrom [.keep 8] := by
  intro bs h0
  replace h0 : bs.length = 8 := h0
  obtain ⟨v0, bs, rfl, h1⟩ := split8 (n := 7) bs h0
  obtain ⟨v1, bs, rfl, h2⟩ := split8 (n := 6) bs h1
  obtain ⟨v2, bs, rfl, h3⟩ := split16 (n := 4) bs h2
  obtain ⟨v3, bs, rfl, h4⟩ := split32 (n := 0) bs h3
  obtain rfl := List.length_eq_zero_iff.1 h4
  refine ⟨⟨v0, v1, v2, v3⟩, Reads.decodes fun s => by unfold Header.readFrom; readsPad, ?_, ?_⟩
  · simp [Encodes, Header.writeTo_eq, Header.bytes]
  · simp [Header.writeTo_eq, Header.bytes, canon, List.take_append,
      List.take_of_length_le]

example : ∃ x, Decodes Header.readFrom
      [3, 40, 77, 114, 151, 188, 225, 6] x ∧
    x.writeTo.out =
      [3, 40, 77, 114, 151, 188, 225, 6] := by
  obtain ⟨x, h1, _, h3⟩ := header_relays
    [3, 40, 77, 114, 151, 188, 225, 6] (by decide)
  exact ⟨x, h1, by rw [h3]; decide⟩

/-- C61.  Ports, with the name and the hardware address as they are. -/
theorem port_relays : Relays Port.writeTo Port.readFrom
    [.keep 4, .clear 4, .keep 6, .clear 2, .keep 48] := by
  intro bs h0
  replace h0 : bs.length = 64 := h0
  obtain ⟨v0, bs, rfl, h1⟩ := split32 (n := 60) bs h0
  obtain ⟨v1, bs, rfl, p1, h2⟩ := splitPad 4 (n := 56) bs h1
  obtain ⟨v2, bs, rfl, p2, h3⟩ := splitPad 6 (n := 50) bs h2
  obtain ⟨v3, bs, rfl, p3, h4⟩ := splitPad 2 (n := 48) bs h3
  obtain ⟨v4, bs, rfl, p4, h5⟩ := splitPad 16 (n := 32) bs h4
  obtain ⟨v5, bs, rfl, h6⟩ := split32 (n := 28) bs h5
  obtain ⟨v6, bs, rfl, h7⟩ := split32 (n := 24) bs h6
  obtain ⟨v7, bs, rfl, h8⟩ := split32 (n := 20) bs h7
  obtain ⟨v8, bs, rfl, h9⟩ := split32 (n := 16) bs h8
  obtain ⟨v9, bs, rfl, h10⟩ := split32 (n := 12) bs h9
  obtain ⟨v10, bs, rfl, h11⟩ := split32 (n := 8) bs h10
  obtain ⟨v11, bs, rfl, h12⟩ := split32 (n := 4) bs h11
  obtain ⟨v12, bs, rfl, h13⟩ := split32 (n := 0) bs h12
  obtain rfl := List.length_eq_zero_iff.1 h13
  refine ⟨⟨v0, v2, v4, v5, v6, v7, v8, v9, v10, v11, v12⟩, Reads.decodes fun s => ?_, ?_, ?_⟩
  · unfold Port.readFrom
    refine Reads.withLocal (l' := v4) ?_
    refine Reads.always (f := fun s : Port × Bytes => ({ s.1 with name := s.2 }, s.2))
      (s' := (⟨v0, v2, s.name, v5, v6, v7, v8, v9, v10, v11, v12⟩, v4)) ?_
    unfold Port.fields
    refine Reads.assignCons ?_
    refine Reads.cons (Reads.num _) <| Reads.cons (Reads.skip p1) <| Reads.cons (Reads.bin p2) <|
      Reads.cons (Reads.skip p3) <| Reads.cons (Reads.bin p4) ?_
    readsPad
  · rw [Port.out_eq]; simp [Encodes, p2]
  · rw [Port.out_eq]
    simp [canon, List.take_append, List.drop_append, List.drop_of_length_le,
      List.take_of_length_le, p1, p2, p3, p4, copyTo_full]

/-- C61.  Port status messages. -/
theorem portStatus_relays : Relays PortStatus.writeTo PortStatus.readFrom
    [.keep 1, .clear 7, .keep 4, .clear 4, .keep 6, .clear 2, .keep 48] := by
  intro bs h0
  replace h0 : bs.length = 72 := h0
  obtain ⟨v0, bs, rfl, h1⟩ := split8 (n := 71) bs h0
  obtain ⟨v1, bs, rfl, p1, h2⟩ := splitPad 7 (n := 64) bs h1
  obtain ⟨p, hd, he, ho⟩ := port_relays bs h2
  obtain ⟨q, hq⟩ := Port.readsAny bs h2
  obtain rfl : q = p := by
    have a := Reads.decodes hq p (.src bs [] .eof false) [] rfl (by simp [Rd.content])
    have b := hd p (.src bs [] .eof false) [] rfl (by simp [Rd.content])
    exact a.1.symm.trans b.1
  have hb : q.bytes = q.writeTo.out := rfl
  refine ⟨⟨v0, q⟩, Reads.decodes fun s => ?_, ?_, ?_⟩
  · unfold PortStatus.readFrom
    exact Reads.cons (Reads.num _) (Reads.cons (Reads.skip p1) (Reads.last (Reads.sub (hq _))))
  · rw [PortStatus.out_eq]; simp [Encodes]; omega
  · rw [PortStatus.out_eq, hb, ho]
    simp [canon, List.take_append, List.drop_append, List.drop_of_length_le,
      List.take_of_length_le, p1]

/-- C61.  Port modifications, for receivers that hold a hardware address; for the others the
decoder is wrong, see `portMod_zero_fails`. -/
theorem portMod_relays_partial (s : PortMod) (hs : s.hwAddr.length = 6) (bs : Bytes) (h0 : bs.length = 32) :
    ∃ p, DecodesFrom PortMod.readFrom s bs p ∧ Encodes p.writeTo ∧ p.writeTo.out =
      canon [.keep 4, .clear 4, .keep 6, .clear 2, .keep 12, .clear 4] bs := by
  obtain ⟨v0, bs, rfl, h1⟩ := split32 (n := 28) bs h0
  obtain ⟨v1, bs, rfl, p1, h2⟩ := splitPad 4 (n := 24) bs h1
  obtain ⟨v2, bs, rfl, p2, h3⟩ := splitPad 6 (n := 18) bs h2
  obtain ⟨v3, bs, rfl, p3, h4⟩ := splitPad 2 (n := 16) bs h3
  obtain ⟨v4, bs, rfl, h5⟩ := split32 (n := 12) bs h4
  obtain ⟨v5, bs, rfl, h6⟩ := split32 (n := 8) bs h5
  obtain ⟨v6, bs, rfl, h7⟩ := split32 (n := 4) bs h6
  obtain ⟨v7, bs, rfl, p7, h8⟩ := splitPad 4 (n := 0) bs h7
  obtain rfl := List.length_eq_zero_iff.1 h8
  refine ⟨⟨v0, v2, v4, v5, v6⟩, Reads.decodesFrom ?_, ?_, ?_⟩
  · unfold PortMod.readFrom
    refine Reads.cons (Reads.num _) <| Reads.cons (Reads.skip p1) <|
      Reads.cons (Reads.dyn (Reads.bin (by simp [p2, hs]))) <| Reads.cons (Reads.skip p3) ?_
    readsPad
  · rw [PortMod.out_eq]; simp [Encodes, p2]
  · rw [PortMod.out_eq]
    simp [canon, List.take_append, List.drop_append, List.drop_of_length_le,
      List.take_of_length_le, p1, p2, p3, p7]

/-- C61.  Switch descriptions, NUL bytes and what follows them included. -/
theorem description_relays : Relays Description.writeTo Description.readFrom [.keep 1056] := by
  intro bs h0
  replace h0 : bs.length = 1056 := h0
  obtain ⟨d, h1, h2⟩ := description_stable bs h0
  refine ⟨d, h1, ?_, ?_⟩
  · rw [Description.out_eq]; simp [Encodes]
  · rw [canon_keep _ _ h0]; exact h2

/-- C61.  Echo requests and replies of any size. -/
theorem echo_relays : RelaysAll EchoRequest.writeTo EchoRequest.readFrom [] ∧
    RelaysAll EchoReply.writeTo EchoReply.readFrom [] := by
  refine ⟨fun bs _ => ⟨⟨bs⟩, ?_⟩, fun bs _ => ⟨⟨bs⟩, ?_⟩⟩
  · obtain ⟨h1, h2, h3⟩ := echoRequest_roundtrip ⟨bs⟩
    rw [h1] at h3
    exact ⟨h3, h2, by rw [h1]; simp [canon]⟩
  · obtain ⟨h1, h2, h3⟩ := echoReply_roundtrip ⟨bs⟩
    rw [h1] at h3
    exact ⟨h3, h2, by rw [h1]; simp [canon]⟩

/-- C61.  Error messages of any size. -/
theorem error_relays : RelaysAll OfpError.writeTo OfpError.readFrom [.keep 4] := by
  intro bs h0
  obtain ⟨n, h0⟩ := Nat.exists_eq_add_of_le' (show 4 ≤ bs.length from h0)
  obtain ⟨v0, bs, rfl, h1⟩ := split16 (n := n + 2) bs h0
  obtain ⟨v1, bs, rfl, h2⟩ := split16 (n := n) bs h1
  have ho : (OfpError.writeTo ⟨v0, v1, bs⟩).out = be v0 ++ (be v1 ++ bs) := by
    simp [OfpError.writeTo, Enc.writeTo, Enc.gather]
  refine ⟨⟨v0, v1, bs⟩, ?_, (error_roundtrip _).2.1, ?_⟩
  · have := (error_roundtrip ⟨v0, v1, bs⟩).2.2; rwa [ho] at this
  · rw [ho]; simp [canon, Part.size, List.take_append, List.drop_append, List.take_of_length_le]

/-- C61.  Multipart requests of any size. -/
theorem multipartRequest_relays :
    RelaysAll MultipartRequest.writeTo MultipartRequest.readFrom [.keep 4, .clear 4] := by
  intro bs h0
  obtain ⟨n, h0⟩ := Nat.exists_eq_add_of_le' (show 8 ≤ bs.length from h0)
  obtain ⟨v0, bs, rfl, h1⟩ := split16 (n := n + 6) bs h0
  obtain ⟨v1, bs, rfl, h2⟩ := split16 (n := n + 4) bs h1
  obtain ⟨v2, bs, rfl, p2, h3⟩ := splitPad 4 (n := n) bs h2
  refine ⟨⟨v0, v1, .buffer bs⟩, ReadsAll.decodes fun s => ?_, ?_, ?_⟩
  · unfold MultipartRequest.readFrom
    exact ReadsAll.cons (Reads.num _) <| ReadsAll.cons (Reads.num _) <| ReadsAll.cons (Reads.skip p2) <|
      ReadsAll.last (ReadsAll.rest _)
  · simp [Encodes, MultipartRequest.writeTo, MBody.elem, Enc.writeTo, Enc.gather]
  · simp [MultipartRequest.writeTo, MBody.elem, Enc.writeTo, Enc.gather, canon, Part.size,
      List.take_append, List.drop_append, List.take_of_length_le, List.drop_of_length_le, p2]

/-- C61.  Experimenter errors: the experimenter's part is relayed as it is, but the error type
is neither checked nor kept: whatever it was, 0xffff is sent on. -/
theorem errorExperimenter_relays (t x : UInt16) (e : UInt32) (d : Bytes) :
    ∃ v, DecodesAll ErrorExperimenter.readFrom (be t ++ (be x ++ (be e ++ d))) v ∧ Encodes v.writeTo ∧
      v.writeTo.out = [0xff, 0xff] ++ (be x ++ (be e ++ d)) := by
  refine ⟨⟨x, e, d⟩, ReadsAll.decodes fun s => ?_, ?_, ?_⟩
  · unfold ErrorExperimenter.readFrom
    exact ReadsAll.cons (Reads.num _) <| ReadsAll.cons (Reads.num _) <| ReadsAll.cons (Reads.num _) <|
      ReadsAll.last (ReadsAll.rest0 _)
  · simp [Encodes, ErrorExperimenter.writeTo, Enc.writeTo, Enc.gather]
  · have : be (0xffff : UInt16) = [0xff, 0xff] := by decide
    simp [ErrorExperimenter.writeTo, Enc.writeTo, Enc.gather, this]

/-- C61.  So an error of another type becomes an experimenter error. -/
theorem errorExperimenter_relays_false :
    ¬ RelaysAll ErrorExperimenter.writeTo ErrorExperimenter.readFrom [.keep 8] := by
  intro h
  obtain ⟨x, h1, _, h3⟩ := h (zeros 8) (by decide)
  obtain ⟨y, h4, _, h5⟩ := errorExperimenter_relays 0 0 0 []
  have hb : be (0 : UInt16) ++ (be (0 : UInt16) ++ (be (0 : UInt32) ++ [])) = zeros 8 := by decide
  rw [hb] at h4
  obtain rfl : x = y := (h1 ⟨0, 0, []⟩ (.src (zeros 8) [] .eof false) rfl rfl).1.symm.trans
    (h4 ⟨0, 0, []⟩ (.src (zeros 8) [] .eof false) rfl rfl).1
  rw [h3] at h5
  exact absurd h5 (by decide)

/-- Relaying twice changes nothing more: the first relay has already cleared the reserved bytes. -/
theorem canon_idem (ps : List Part) (bs : Bytes) (h : (ps.map Part.size).sum ≤ bs.length) :
    canon ps (canon ps bs) = canon ps bs := by
  induction ps generalizing bs with
  | nil => rfl
  | cons p t ih =>
    cases p with
    | keep k =>
      simp only [List.map_cons, Part.size, List.sum_cons] at h
      have hl : (bs.take k).length = k := by simp; omega
      simp only [canon]
      rw [List.take_left' hl, List.drop_left' hl, ih _ (by simp; omega)]
    | clear k =>
      simp only [List.map_cons, Part.size, List.sum_cons] at h
      simp only [canon]
      rw [List.drop_left' (zeros_length k), ih _ (by simp; omega)]

/-- C61.  Consequence for all the messages above: the size is kept, the bytes outside the
reserved parts are kept (`canon` only clears), and a second relay is the identity. -/
theorem relays_stable {σ : Type} {enc : σ → Wr} {dec : Step σ} {ps : List Part} (h : Relays enc dec ps)
    (bs : Bytes) (hl : bs.length = (ps.map Part.size).sum) :
    ∃ x y, Decodes dec bs x ∧ (enc x).out.length = bs.length ∧ Decodes dec (enc x).out y ∧
      (enc y).out = (enc x).out := by
  have hc : ∀ (ps : List Part) (bs : Bytes), bs.length = (ps.map Part.size).sum →
      (canon ps bs).length = bs.length := by
    intro ps
    induction ps with
    | nil => intro bs h; simp_all [canon]
    | cons p t ih =>
      intro bs h
      cases p with
      | keep k =>
        simp only [List.map_cons, Part.size, List.sum_cons] at h
        simp only [canon, List.length_append, ih _ (show (bs.drop k).length = _ by simp; omega)]
        simp
        omega
      | clear k =>
        simp only [List.map_cons, Part.size, List.sum_cons] at h
        simp only [canon, List.length_append, ih _ (show (bs.drop k).length = _ by simp; omega)]
        simp
        omega
  obtain ⟨x, h1, _, h3⟩ := h bs hl
  obtain ⟨y, h4, _, h6⟩ := h _ ((hc ps bs hl).trans hl)
  refine ⟨x, y, h1, by rw [h3, hc ps bs hl], by rw [h3]; exact h4, ?_⟩
  rw [h6, h3, canon_idem ps bs (by omega)]

/-- Non-trivial instance: a role request with garbage in its reserved bytes. -/
example : ∃ x, Decodes RoleRequest.readFrom [0, 0, 0, 2, 9, 9, 9, 9, 0, 0, 0, 0, 0, 0, 0, 7] x ∧
    x.writeTo.out = [0, 0, 0, 2, 0, 0, 0, 0, 0, 0, 0, 0, 0, 0, 0, 7] := by
  obtain ⟨x, h1, _, h3⟩ := roleRequest_relays [0, 0, 0, 2, 9, 9, 9, 9, 0, 0, 0, 0, 0, 0, 0, 7] (by decide)
  exact ⟨x, h1, by rw [h3]; decide⟩

end Verif.Props
