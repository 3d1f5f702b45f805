import Verif.Ofp.Flow

/-!
# Properties C28 and C48 (NewFlowMod): flow messages
-/

namespace Verif.Props

open Verif

/-! ## C28 -/

/-- C28.  Wire format of a flow modification (OpenFlow 1.3.5, section 7.3.4.1, without the
common header): 40 bytes, the match, the instructions one after another. -/
theorem flowMod_layout (f : FlowMod) :
    Layout f.writeTo.out [.num 8 f.cookie.toNat, .num 8 f.cookieMask.toNat, .num 1 f.table.toNat,
      .num 1 f.command.toNat, .num 2 f.idleTimeout.toNat, .num 2 f.hardTimeout.toNat,
      .num 2 f.priority.toNat, .num 4 f.buffer.toNat, .num 4 f.outPort.toNat,
      .num 4 f.outGroup.toNat, .num 2 f.flags.toNat, .pad 2, .raw f.mtch.writeTo.out,
      .raw (f.instructions.flatMap (fun i => i.writeTo.out))] := by
  have h : f.instructions.flatMap (fun i => i.writeTo.out) = Instructions.bytes f.instructions := rfl
  rw [FlowMod.out_eq, h]
  simp [Match.writeTo_eq]

/-- C28.  Round trip of a flow modification: the instruction list extends to the end of
the message; whatever the target held (also its instruction list) is replaced. -/
theorem flowMod_roundtrip (f : FlowMod) (hm : f.mtch.Valid) (hi : ∀ i ∈ f.instructions, i.Valid) :
    Encodes f.writeTo ∧ DecodesAll FlowMod.readFrom f.writeTo.out f := by
  refine ⟨?_, ReadsAll.decodes (f.readsAll hm hi)⟩
  rw [FlowMod.out_eq]; simp [Encodes]; omega

/-- Non-vacuity: a match with a mask and nested instructions. -/
example : Match.Valid ⟨1, [⟨0x8000, 11, [10, 0, 0, 0], [255, 0, 0, 0]⟩]⟩ ∧
    ∀ i ∈ [Instruction.applyActions [.output 2 0, .setField ⟨0x8000, 3, [1, 2, 3, 4, 5, 6], []⟩],
      .gotoTable 4], i.Valid := by decide

/-- C28.  Wire format of a flow removed message. -/
theorem flowRemoved_layout (f : FlowRemoved) :
    Layout f.writeTo.out [.num 8 f.cookie.toNat, .num 2 f.priority.toNat, .num 1 f.reason.toNat,
      .num 1 f.table.toNat, .num 4 f.durationSec.toNat, .num 4 f.durationNSec.toNat,
      .num 2 f.idleTimeout.toNat, .num 2 f.hardTimeout.toNat, .num 8 f.packetCount.toNat,
      .num 8 f.byteCount.toNat, .raw f.mtch.writeTo.out] := by
  simp [FlowRemoved.writeTo, Enc.writeTo, Enc.gather, Match.writeTo_eq]

theorem flowRemoved_roundtrip (f : FlowRemoved) (hm : f.mtch.Valid) :
    Encodes f.writeTo ∧ Decodes FlowRemoved.readFrom f.writeTo.out f :=
  ⟨by simp [Encodes, FlowRemoved.writeTo, Enc.writeTo, Enc.gather, Match.writeTo_eq],
    Reads.decodes (f.reads hm)⟩

/-- C28.  Wire format of a flow statistics request. -/
theorem flowStatsRequest_layout (f : FlowStatsRequest) :
    Layout f.writeTo.out [.num 1 f.table.toNat, .pad 3, .num 4 f.outPort.toNat,
      .num 4 f.outGroup.toNat, .pad 4, .num 8 f.cookie.toNat, .num 8 f.cookieMask.toNat,
      .raw f.mtch.writeTo.out] := by
  simp [FlowStatsRequest.writeTo, Enc.writeTo, Enc.gather, Match.writeTo_eq]

theorem flowStatsRequest_roundtrip (f : FlowStatsRequest) (hm : f.mtch.Valid) :
    Encodes f.writeTo ∧ Decodes FlowStatsRequest.readFrom f.writeTo.out f :=
  ⟨by simp [Encodes, FlowStatsRequest.writeTo, Enc.writeTo, Enc.gather, Match.writeTo_eq],
    Reads.decodes (f.reads hm)⟩

/-- C28.  Wire format of an aggregate statistics request. -/
theorem aggregateStatsRequest_layout (f : AggregateStatsRequest) :
    Layout f.writeTo.out [.num 1 f.table.toNat, .pad 3, .num 4 f.outPort.toNat,
      .num 4 f.outGroup.toNat, .pad 4, .num 8 f.cookie.toNat, .num 8 f.cookieMask.toNat,
      .raw f.mtch.writeTo.out] := by
  simp [AggregateStatsRequest.writeTo, Enc.writeTo, Enc.gather, Match.writeTo_eq]

theorem aggregateStatsRequest_roundtrip (f : AggregateStatsRequest) (hm : f.mtch.Valid) :
    Encodes f.writeTo ∧ Decodes AggregateStatsRequest.readFrom f.writeTo.out f :=
  ⟨by simp [Encodes, AggregateStatsRequest.writeTo, Enc.writeTo, Enc.gather, Match.writeTo_eq],
    Reads.decodes (f.reads hm)⟩

/-- C28.  Wire format of a flow statistics entry: the length field is the size of the
whole entry. -/
theorem flowStats_layout (f : FlowStats) (hs : f.writeTo.out.length ≤ 65535) :
    Layout f.writeTo.out [.num 2 f.writeTo.out.length, .num 1 f.table.toNat, .pad 1,
      .num 4 f.durationSec.toNat, .num 4 f.durationNSec.toNat, .num 2 f.priority.toNat,
      .num 2 f.idleTimeout.toNat, .num 2 f.hardTimeout.toNat, .num 2 f.flags.toNat, .pad 4,
      .num 8 f.cookie.toNat, .num 8 f.packetCount.toNat, .num 8 f.byteCount.toNat,
      .raw f.mtch.writeTo.out, .raw (f.instructions.flatMap (fun i => i.writeTo.out))] := by
  have h : f.instructions.flatMap (fun i => i.writeTo.out) = Instructions.bytes f.instructions := rfl
  have hl : f.writeTo.out.length = f.size := by
    rw [FlowStats.out_eq]; simp [FlowStats.size, Match.writeTo_eq, Instructions.writeTo_eq]; omega
  rw [hl] at hs ⊢
  have hu : f.len.toNat = f.size := u16_ofNat_toNat hs
  rw [FlowStats.out_eq, h]
  simp only [List.append_assoc, Layout.u16, hu]
  simp [Match.writeTo_eq]

/-- C28.  Round trip of a flow statistics entry that fits its 16-bit length field.  It
consumes exactly its bytes, so consecutive entries of a multipart reply decode one after
another. -/
theorem flowStats_roundtrip (f : FlowStats) (hm : f.mtch.Valid) (hi : ∀ i ∈ f.instructions, i.Valid)
    (hs : f.writeTo.out.length ≤ 65535) :
    Encodes f.writeTo ∧ Decodes FlowStats.readFrom f.writeTo.out f := by
  have hl : f.writeTo.out.length = f.size := by
    rw [FlowStats.out_eq]; simp [FlowStats.size, Match.writeTo_eq, Instructions.writeTo_eq]; omega
  refine ⟨?_, Reads.decodes (f.reads hm hi (by omega))⟩
  rw [Encodes, hl, FlowStats.out_eq]; simp

/-- Non-vacuity. -/
example : (FlowStats.writeTo ⟨1, 2, 3, 4, 5, 6, 7, 8, 9, 10, ⟨1, [⟨0x8000, 0, [0, 0, 0, 3], []⟩]⟩,
    [.applyActions [.output 1 0], .gotoTable 3]⟩).out.length ≤ 65535 := by decide

/-- C28.  A list of flow statistics entries written one after another, as in a multipart
reply body, decodes to the same list, entry by entry, and what follows is left alone. -/
theorem flowStats_list (fs : List FlowStats)
    (hv : ∀ f ∈ fs, f.mtch.Valid ∧ (∀ i ∈ f.instructions, i.Valid) ∧ f.writeTo.out.length ≤ 65535)
    (s : FlowStats) (r : Rd) (tail : Bytes) (hr : r.Ok .eof)
    (hc : r.content = fs.flatMap (fun f => f.writeTo.out) ++ tail) :
    (decodeMany FlowStats.readFrom s fs.length r).1 = fs ∧
      (decodeMany FlowStats.readFrom s fs.length r).2.content = tail := by
  refine Reads.many fs (fun f hf => f.reads (hv f hf).1 (hv f hf).2.1 ?_ s) r tail hr hc
  have hl : f.writeTo.out.length = f.size := by
    rw [FlowStats.out_eq]; simp [FlowStats.size, Match.writeTo_eq, Instructions.writeTo_eq]; omega
  have := (hv f hf).2.2
  omega

/-! ## C48 -/

/-- C48.  A new flow modification without a packet matches everything, refers to no
buffer and does not restrict the output port or group; removal notification is requested
except for the two delete commands. -/
theorem newFlowMod_nil (c : UInt8) :
    let f := newFlowMod c none
    f.command = c ∧ f.buffer = 0xffffffff ∧ f.mtch.fields = [] ∧ f.outPort = 0xffffffff ∧
      f.outGroup = 0xffffffff ∧ f.instructions = [] ∧ f.cookie = 0 ∧ f.cookieMask = 0 ∧
      f.table = 0 ∧ f.idleTimeout = 0 ∧ f.hardTimeout = 0 ∧ f.priority = 0 ∧
      (f.flags.toNat % 2 = 1 ↔ c ≠ 3 ∧ c ≠ 4) := by
  refine ⟨rfl, rfl, rfl, rfl, rfl, rfl, rfl, rfl, rfl, rfl, rfl, rfl, ?_⟩
  simp only [newFlowMod]
  by_cases h : c = 3 ∨ c = 4
  · simp only [h, if_true]
    rcases h with h | h <;> simp [h]
  · simp only [h, if_false]
    simp only [not_or] at h
    simp [h.1, h.2]

/-- C48.  With a packet, buffer and match are those of the packet; everything else is as
for nil. -/
theorem newFlowMod_packet (c : UInt8) (b : UInt32) (m : Match) :
    newFlowMod c (some (b, m)) = { newFlowMod c none with buffer := b, mtch := m } := rfl

end Verif.Props
