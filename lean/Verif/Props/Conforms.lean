import Verif.Conforms
import Verif.Props.Request

/-!
C91: what the library encodes is what OpenFlow 1.3 says.  `Verif/Spec/Structs.lean` reads messages
by the structs of the specification: the members in their order and sizes, the lists taken apart at
the length members, the padding skipped.  It shares no definition with the model of the library.
The theorems say that such a reader gets from what `WriteTo` produces exactly the values that the
sender put in.
-/

namespace Verif.Props

/-! ## Structs of a fixed size -/

/-- The encoding of `SwitchFeatures` is struct ofp_switch_features with the fields as members. -/
theorem switchFeatures_conforms (x : SwitchFeatures) : x.writeTo.err = none ∧
    Spec.struct Spec.switchFeatures x.writeTo.out = some
      [("datapath_id", .num x.datapathID.toNat), ("n_buffers", .num x.numBuffers.toNat),
       ("n_tables", .num x.numTables.toNat), ("auxiliary_id", .num x.auxiliaryID.toNat),
       ("capabilities", .num x.capabilities.toNat), ("reserved", .num x.reserved.toNat)] :=
  ⟨by simp [SwitchFeatures.writeTo, Enc.writeTo, Enc.gather],
   Spec.struct_of (by simp [SwitchFeatures.writeTo, Enc.writeTo, Enc.gather, Spec.switchFeatures, -zeros_length])⟩

/-- The encoding of `SwitchConfig` is struct ofp_switch_config with the fields as members. -/
theorem switchConfig_conforms (x : SwitchConfig) : x.writeTo.err = none ∧
    Spec.struct Spec.switchConfig x.writeTo.out = some
      [("flags", .num x.flags.toNat), ("miss_send_len", .num x.missSendLength.toNat)] :=
  ⟨by simp [SwitchConfig.writeTo, Enc.writeTo, Enc.gather],
   Spec.struct_of (by simp [SwitchConfig.writeTo, Enc.writeTo, Enc.gather, Spec.switchConfig, -zeros_length])⟩

/-- The encoding of `MultipartReply` is struct ofp_multipart_reply (the body follows) with the fields as members. -/
theorem multipartReply_conforms (x : MultipartReply) : x.writeTo.err = none ∧
    Spec.struct Spec.multipart x.writeTo.out = some
      [("type", .num x.type.toNat), ("flags", .num x.flags.toNat)] :=
  ⟨by simp [MultipartReply.writeTo, Enc.writeTo, Enc.gather],
   Spec.struct_of (by simp [MultipartReply.writeTo, Enc.writeTo, Enc.gather, Spec.multipart, -zeros_length])⟩

/-- The encoding of `ExperimenterMultipartHeader` is struct ofp_experimenter_multipart_header with the fields as members. -/
theorem experimenterMultipartHeader_conforms (x : ExperimenterMultipartHeader) : x.writeTo.err = none ∧
    Spec.struct Spec.experimenterMultipartHeader x.writeTo.out = some
      [("experimenter", .num x.experimenter.toNat), ("exp_type", .num x.expType.toNat)] :=
  ⟨by simp [ExperimenterMultipartHeader.writeTo, Enc.writeTo, Enc.gather],
   Spec.struct_of (by simp [ExperimenterMultipartHeader.writeTo, Enc.writeTo, Enc.gather, Spec.experimenterMultipartHeader, -zeros_length])⟩

/-- The encoding of `Experimenter` is struct ofp_experimenter_header with the fields as members. -/
theorem experimenter_conforms (x : Experimenter) : x.writeTo.err = none ∧
    Spec.struct Spec.experimenterHeader x.writeTo.out = some
      [("experimenter", .num x.experimenter.toNat), ("exp_type", .num x.expType.toNat)] :=
  ⟨by simp [Experimenter.writeTo, Enc.writeTo, Enc.gather],
   Spec.struct_of (by simp [Experimenter.writeTo, Enc.writeTo, Enc.gather, Spec.experimenterHeader, -zeros_length])⟩

/-- The encoding of `RoleRequest` is struct ofp_role_request with the fields as members. -/
theorem roleRequest_conforms (x : RoleRequest) : x.writeTo.err = none ∧
    Spec.struct Spec.roleRequest x.writeTo.out = some
      [("role", .num x.role.toNat), ("generation_id", .num x.generationID.toNat)] :=
  ⟨by simp [RoleRequest.writeTo, Enc.writeTo, Enc.gather],
   Spec.struct_of (by simp [RoleRequest.writeTo, Enc.writeTo, Enc.gather, Spec.roleRequest, -zeros_length])⟩

/-- The encoding of `AsyncConfig` is struct ofp_async_config with the fields as members. -/
theorem asyncConfig_conforms (x : AsyncConfig) : x.writeTo.err = none ∧
    Spec.struct Spec.asyncConfig x.writeTo.out = some
      [("packet_in_mask[0]", .num x.packetInMask.1.toNat),
       ("packet_in_mask[1]", .num x.packetInMask.2.toNat),
       ("port_status_mask[0]", .num x.portStatusMask.1.toNat),
       ("port_status_mask[1]", .num x.portStatusMask.2.toNat),
       ("flow_removed_mask[0]", .num x.flowRemovedMask.1.toNat),
       ("flow_removed_mask[1]", .num x.flowRemovedMask.2.toNat)] :=
  ⟨by simp [AsyncConfig.writeTo, Enc.writeTo, Enc.gather],
   Spec.struct_of (by simp [AsyncConfig.writeTo, Enc.writeTo, Enc.gather, Spec.asyncConfig, -zeros_length])⟩

/-- The encoding of `TableMod` is struct ofp_table_mod with the fields as members. -/
theorem tableMod_conforms (x : TableMod) : x.writeTo.err = none ∧
    Spec.struct Spec.tableMod x.writeTo.out = some
      [("table_id", .num x.table.toNat), ("config", .num x.config.toNat)] :=
  ⟨by simp [TableMod.writeTo, Enc.writeTo, Enc.gather],
   Spec.struct_of (by simp [TableMod.writeTo, Enc.writeTo, Enc.gather, Spec.tableMod, -zeros_length])⟩

/-- The encoding of `TableStats` is struct ofp_table_stats with the fields as members. -/
theorem tableStats_conforms (x : TableStats) : x.writeTo.err = none ∧
    Spec.struct Spec.tableStats x.writeTo.out = some
      [("table_id", .num x.table.toNat), ("active_count", .num x.activeCount.toNat),
       ("lookup_count", .num x.lookupCount.toNat), ("matched_count", .num x.matchedCount.toNat)] :=
  ⟨by simp [TableStats.writeTo, Enc.writeTo, Enc.gather],
   Spec.struct_of (by simp [TableStats.writeTo, Enc.writeTo, Enc.gather, Spec.tableStats, -zeros_length])⟩

/-- The encoding of `PortStatsRequest` is struct ofp_port_stats_request with the fields as members. -/
theorem portStatsRequest_conforms (x : PortStatsRequest) : x.writeTo.err = none ∧
    Spec.struct Spec.portStatsRequest x.writeTo.out = some
      [("port_no", .num x.portNo.toNat)] :=
  ⟨by simp [PortStatsRequest.writeTo, Enc.writeTo, Enc.gather],
   Spec.struct_of (by simp [PortStatsRequest.writeTo, Enc.writeTo, Enc.gather, Spec.portStatsRequest, -zeros_length])⟩

/-- The encoding of `PortStats` is struct ofp_port_stats with the fields as members. -/
theorem portStats_conforms (x : PortStats) : x.writeTo.err = none ∧
    Spec.struct Spec.portStats x.writeTo.out = some
      [("port_no", .num x.portNo.toNat), ("rx_packets", .num x.rxPackets.toNat),
       ("tx_packets", .num x.txPackets.toNat), ("rx_bytes", .num x.rxBytes.toNat),
       ("tx_bytes", .num x.txBytes.toNat), ("rx_dropped", .num x.rxDropped.toNat),
       ("tx_dropped", .num x.txDropped.toNat), ("rx_errors", .num x.rxErrors.toNat),
       ("tx_errors", .num x.txErrors.toNat), ("rx_frame_err", .num x.rxFrameErr.toNat),
       ("rx_over_err", .num x.rxOverErr.toNat), ("rx_crc_err", .num x.rxCrcErr.toNat),
       ("collisions", .num x.collisions.toNat), ("duration_sec", .num x.durationSec.toNat),
       ("duration_nsec", .num x.durationNSec.toNat)] :=
  ⟨by simp [PortStats.writeTo, Enc.writeTo, Enc.gather],
   Spec.struct_of (by simp [PortStats.writeTo, Enc.writeTo, Enc.gather, Spec.portStats, -zeros_length])⟩

/-- The encoding of `MeterConfigRequest` is struct ofp_meter_multipart_request with the fields as members. -/
theorem meterConfigRequest_conforms (x : MeterConfigRequest) : x.writeTo.err = none ∧
    Spec.struct Spec.meterMultipartRequest x.writeTo.out = some
      [("meter_id", .num x.meter.toNat)] :=
  ⟨by simp [MeterConfigRequest.writeTo, Enc.writeTo, Enc.gather],
   Spec.struct_of (by simp [MeterConfigRequest.writeTo, Enc.writeTo, Enc.gather, Spec.meterMultipartRequest, -zeros_length])⟩

/-- The encoding of `MeterStatsRequest` is struct ofp_meter_multipart_request with the fields as members. -/
theorem meterStatsRequest_conforms (x : MeterStatsRequest) : x.writeTo.err = none ∧
    Spec.struct Spec.meterMultipartRequest x.writeTo.out = some
      [("meter_id", .num x.meter.toNat)] :=
  ⟨by simp [MeterStatsRequest.writeTo, Enc.writeTo, Enc.gather],
   Spec.struct_of (by simp [MeterStatsRequest.writeTo, Enc.writeTo, Enc.gather, Spec.meterMultipartRequest, -zeros_length])⟩

/-- The encoding of `MeterFeatures` is struct ofp_meter_features with the fields as members. -/
theorem meterFeatures_conforms (x : MeterFeatures) : x.writeTo.err = none ∧
    Spec.struct Spec.meterFeatures x.writeTo.out = some
      [("max_meter", .num x.maxMeter.toNat), ("band_types", .num x.bandTypes.toNat),
       ("capabilities", .num x.capabilities.toNat), ("max_bands", .num x.maxBands.toNat),
       ("max_color", .num x.maxColor.toNat)] :=
  ⟨by simp [MeterFeatures.writeTo, Enc.writeTo, Enc.gather],
   Spec.struct_of (by simp [MeterFeatures.writeTo, Enc.writeTo, Enc.gather, Spec.meterFeatures, -zeros_length])⟩

/-- The encoding of `GroupStatsRequest` is struct ofp_group_stats_request with the fields as members. -/
theorem groupStatsRequest_conforms (x : GroupStatsRequest) : x.writeTo.err = none ∧
    Spec.struct Spec.groupStatsRequest x.writeTo.out = some
      [("group_id", .num x.group.toNat)] :=
  ⟨by simp [GroupStatsRequest.writeTo, Enc.writeTo, Enc.gather],
   Spec.struct_of (by simp [GroupStatsRequest.writeTo, Enc.writeTo, Enc.gather, Spec.groupStatsRequest, -zeros_length])⟩

/-- The encoding of `GroupFeatures` is struct ofp_group_features with the fields as members. -/
theorem groupFeatures_conforms (x : GroupFeatures) : x.writeTo.err = none ∧
    Spec.struct Spec.groupFeatures x.writeTo.out = some
      [("types", .num x.types.toNat), ("capabilities", .num x.capabilities.toNat),
       ("max_groups[0]", .num x.maxGroups.1.toNat), ("max_groups[1]", .num x.maxGroups.2.1.toNat),
       ("max_groups[2]", .num x.maxGroups.2.2.1.toNat), ("max_groups[3]", .num x.maxGroups.2.2.2.toNat),
       ("actions[0]", .num x.actions.1.toNat), ("actions[1]", .num x.actions.2.1.toNat),
       ("actions[2]", .num x.actions.2.2.1.toNat), ("actions[3]", .num x.actions.2.2.2.toNat)] :=
  ⟨by simp [GroupFeatures.writeTo, Enc.writeTo, Enc.gather],
   Spec.struct_of (by simp [GroupFeatures.writeTo, Enc.writeTo, Enc.gather, Spec.groupFeatures, -zeros_length])⟩

/-- The encoding of `QueueStatsRequest` is struct ofp_queue_stats_request with the fields as members. -/
theorem queueStatsRequest_conforms (x : QueueStatsRequest) : x.writeTo.err = none ∧
    Spec.struct Spec.queueStatsRequest x.writeTo.out = some
      [("port_no", .num x.port.toNat), ("queue_id", .num x.queue.toNat)] :=
  ⟨by simp [QueueStatsRequest.writeTo, Enc.writeTo, Enc.gather],
   Spec.struct_of (by simp [QueueStatsRequest.writeTo, Enc.writeTo, Enc.gather, Spec.queueStatsRequest, -zeros_length])⟩

/-- The encoding of `QueueStats` is struct ofp_queue_stats with the fields as members. -/
theorem queueStats_conforms (x : QueueStats) : x.writeTo.err = none ∧
    Spec.struct Spec.queueStats x.writeTo.out = some
      [("port_no", .num x.port.toNat), ("queue_id", .num x.queue.toNat),
       ("tx_bytes", .num x.txBytes.toNat), ("tx_packets", .num x.txPackets.toNat),
       ("tx_errors", .num x.txErrors.toNat), ("duration_sec", .num x.durationSec.toNat),
       ("duration_nsec", .num x.durationNSec.toNat)] :=
  ⟨by simp [QueueStats.writeTo, Enc.writeTo, Enc.gather],
   Spec.struct_of (by simp [QueueStats.writeTo, Enc.writeTo, Enc.gather, Spec.queueStats, -zeros_length])⟩

/-- The encoding of `QueueGetConfigRequest` is struct ofp_queue_get_config_request with the fields as members. -/
theorem queueGetConfigRequest_conforms (x : QueueGetConfigRequest) : x.writeTo.err = none ∧
    Spec.struct Spec.queueGetConfigRequest x.writeTo.out = some
      [("port", .num x.port.toNat)] :=
  ⟨by simp [QueueGetConfigRequest.writeTo, Enc.writeTo, Enc.gather],
   Spec.struct_of (by simp [QueueGetConfigRequest.writeTo, Enc.writeTo, Enc.gather, Spec.queueGetConfigRequest, -zeros_length])⟩

/-- The encoding of `AggregateStats` is struct ofp_aggregate_stats_reply with the fields as members. -/
theorem aggregateStats_conforms (x : AggregateStats) : x.writeTo.err = none ∧
    Spec.struct Spec.aggregateStatsReply x.writeTo.out = some
      [("packet_count", .num x.packetCount.toNat), ("byte_count", .num x.byteCount.toNat),
       ("flow_count", .num x.flowCount.toNat)] :=
  ⟨by simp [AggregateStats.writeTo, Enc.writeTo, Enc.gather],
   Spec.struct_of (by simp [AggregateStats.writeTo, Enc.writeTo, Enc.gather, Spec.aggregateStatsReply, -zeros_length])⟩

/-! ## Flows -/

/-- What a flow modification says. -/
def flowModSaid (f : FlowMod) : Spec.Record × Spec.Match × List Spec.Instruction :=
  ([("cookie", .num f.cookie.toNat), ("cookie_mask", .num f.cookieMask.toNat), ("table_id", .num f.table.toNat),
    ("command", .num f.command.toNat), ("idle_timeout", .num f.idleTimeout.toNat),
    ("hard_timeout", .num f.hardTimeout.toNat), ("priority", .num f.priority.toNat),
    ("buffer_id", .num f.buffer.toNat), ("out_port", .num f.outPort.toNat), ("out_group", .num f.outGroup.toNat),
    ("flags", .num f.flags.toNat)], f.mtch.said, f.instructions.map Instruction.said)

/-- The encoding of `FlowMod` is struct ofp_flow_mod. -/
theorem flowMod_conforms (f : FlowMod) (hm : f.mtch.Valid) (hi : ∀ i ∈ f.instructions, i.Valid) :
    f.writeTo.err = none ∧ Spec.withFlow Spec.flowModHead f.writeTo.out = some (flowModSaid f) := by
  rw [FlowMod.out_eq]
  refine ⟨rfl, ?_⟩
  simp [Spec.withFlow, Spec.flowModHead, Match.conforms _ hm, Instructions.conforms _ hi, flowModSaid, -zeros_length]

/-- A masked match and a list of actions with a set-field action: what a peer reads. -/
example : Match.Valid ⟨1, [⟨0x8000, 11, [10, 0, 0, 0], [255, 0, 0, 0]⟩]⟩ ∧
    (∀ i ∈ [Instruction.applyActions [.output 2 0, .setField ⟨0x8000, 3, [1, 2, 3, 4, 5, 6], []⟩],
      .gotoTable 4], i.Valid) ∧
    ((Spec.withFlow Spec.flowModHead (FlowMod.writeTo { (default : FlowMod) with
      table := 7, mtch := ⟨1, [⟨0x8000, 11, [10, 0, 0, 0], [255, 0, 0, 0]⟩]⟩,
      instructions := [Instruction.applyActions [.output 2 0, .setField ⟨0x8000, 3, [1, 2, 3, 4, 5, 6], []⟩],
        .gotoTable 4] }).out).map fun r => (r.1.lookup "table_id", r.2.1.fields.length, r.2.2.map (·.name))) =
    some (some (.num 7), 1, ["OFPIT_APPLY_ACTIONS", "OFPIT_GOTO_TABLE"]) := by decide +kernel

/-- The encoding of `FlowRemoved` is struct ofp_flow_removed. -/
theorem flowRemoved_conforms (f : FlowRemoved) (hm : f.mtch.Valid) :
    f.writeTo.err = none ∧ Spec.withMatch Spec.flowRemovedHead f.writeTo.out = some
      ([("cookie", .num f.cookie.toNat), ("priority", .num f.priority.toNat), ("reason", .num f.reason.toNat),
        ("table_id", .num f.table.toNat), ("duration_sec", .num f.durationSec.toNat),
        ("duration_nsec", .num f.durationNSec.toNat), ("idle_timeout", .num f.idleTimeout.toNat),
        ("hard_timeout", .num f.hardTimeout.toNat), ("packet_count", .num f.packetCount.toNat),
        ("byte_count", .num f.byteCount.toNat)], f.mtch.said) := by
  have h := Match.conforms f.mtch hm []
  rw [List.append_nil] at h
  simp [FlowRemoved.writeTo, Enc.writeTo, Enc.gather, Match.writeTo_eq, Spec.withMatch, Spec.flowRemovedHead, h,
    -zeros_length]

/-- The encoding of `FlowStatsRequest` is struct ofp_flow_stats_request. -/
theorem flowStatsRequest_conforms (f : FlowStatsRequest) (hm : f.mtch.Valid) :
    f.writeTo.err = none ∧ Spec.withMatch Spec.flowStatsRequestHead f.writeTo.out = some
      ([("table_id", .num f.table.toNat), ("out_port", .num f.outPort.toNat), ("out_group", .num f.outGroup.toNat),
        ("cookie", .num f.cookie.toNat), ("cookie_mask", .num f.cookieMask.toNat)], f.mtch.said) := by
  have h := Match.conforms f.mtch hm []
  rw [List.append_nil] at h
  simp [FlowStatsRequest.writeTo, Enc.writeTo, Enc.gather, Match.writeTo_eq, Spec.withMatch,
    Spec.flowStatsRequestHead, h, -zeros_length]

/-- The encoding of `AggregateStatsRequest` is struct ofp_aggregate_stats_request. -/
theorem aggregateStatsRequest_conforms (f : AggregateStatsRequest) (hm : f.mtch.Valid) :
    f.writeTo.err = none ∧ Spec.withMatch Spec.flowStatsRequestHead f.writeTo.out = some
      ([("table_id", .num f.table.toNat), ("out_port", .num f.outPort.toNat), ("out_group", .num f.outGroup.toNat),
        ("cookie", .num f.cookie.toNat), ("cookie_mask", .num f.cookieMask.toNat)], f.mtch.said) := by
  have h := Match.conforms f.mtch hm []
  rw [List.append_nil] at h
  simp [AggregateStatsRequest.writeTo, Enc.writeTo, Enc.gather, Match.writeTo_eq, Spec.withMatch,
    Spec.flowStatsRequestHead, h, -zeros_length]

/-- What the statistics of a flow say, in an entry of `n` bytes. -/
def flowStatsSaid (n : Nat) (f : FlowStats) : Spec.Record × Spec.Match × List Spec.Instruction :=
  ([("length", .num n), ("table_id", .num f.table.toNat), ("duration_sec", .num f.durationSec.toNat),
    ("duration_nsec", .num f.durationNSec.toNat), ("priority", .num f.priority.toNat),
    ("idle_timeout", .num f.idleTimeout.toNat), ("hard_timeout", .num f.hardTimeout.toNat),
    ("flags", .num f.flags.toNat), ("cookie", .num f.cookie.toNat), ("packet_count", .num f.packetCount.toNat),
    ("byte_count", .num f.byteCount.toNat)], f.mtch.said, f.instructions.map Instruction.said)

/-- The encodings of any number of `FlowStats`, one behind the other, are a multipart body of
struct ofp_flow_stats entries. -/
theorem flowStats_conforms (fs : List FlowStats) (hm : ∀ f ∈ fs, f.mtch.Valid)
    (hi : ∀ f ∈ fs, ∀ i ∈ f.instructions, i.Valid) (hs : ∀ f ∈ fs, f.writeTo.out.length ≤ 65535) :
    (∀ f ∈ fs, f.writeTo.err = none) ∧
    Spec.list 0 1 (Spec.withFlow Spec.flowStatsHead) (fs.flatMap fun f => f.writeTo.out) =
      some (fs.map fun f => flowStatsSaid f.writeTo.out.length f) := by
  refine ⟨fun f _ => by rw [FlowStats.out_eq], Spec.records_plain fs fun f hf => ?_⟩
  have hsz : f.writeTo.out.length = f.size := by rw [f.out_eq]; simp [FlowStats.size, Match.writeTo_eq, Instructions.writeTo_eq]; omega
  have hl : f.len.toNat = f.size := u16_ofNat_toNat (hsz ▸ hs f hf)
  refine ⟨?_, ?_, ?_⟩
  · rw [FlowStats.out_eq]; simp
  · rw [hsz, FlowStats.out_eq, List.append_assoc, Spec.u16_zero, hl]
  · rw [hsz]
    rw [FlowStats.out_eq]
    simp [Spec.withFlow, Spec.flowStatsHead, Match.conforms _ (hm f hf), Instructions.conforms _ (hi f hf),
      flowStatsSaid, hl, -zeros_length]

example : ∃ f : FlowStats, f.mtch.Valid ∧ (∀ i ∈ f.instructions, i.Valid) ∧ f.writeTo.out.length ≤ 65535 ∧
    f.instructions.length = 2 :=
  ⟨⟨1, 2, 3, 4, 5, 6, 7, 8, 9, 10, ⟨1, [⟨0x8000, 0, [0, 0, 0, 3], []⟩]⟩,
    [.applyActions [.output 1 0], .gotoTable 3]⟩, by decide⟩

/-! ## Packets -/

/-- The encoding of `PacketIn` is struct ofp_packet_in with the data behind it. -/
theorem packetIn_conforms (p : PacketIn) (hm : p.mtch.Valid) :
    p.writeTo.err = none ∧ Spec.packetIn p.writeTo.out = some
      ([("buffer_id", .num p.buffer.toNat), ("total_len", .num p.length.toNat), ("reason", .num p.reason.toNat),
        ("table_id", .num p.table.toNat), ("cookie", .num p.cookie.toNat)], p.mtch.said, p.data) := by
  rw [PacketIn.out_eq]
  refine ⟨rfl, ?_⟩
  simp [Spec.packetIn, Spec.packetInHead, Match.conforms _ hm, -zeros_length]

/-- The encoding of `PacketOut` is struct ofp_packet_out with the data behind it. -/
theorem packetOut_conforms (p : PacketOut) (hv : ∀ a ∈ p.actions, a.Valid)
    (hs : (p.actions.map Action.size).sum ≤ 65535) :
    p.writeTo.err = none ∧ Spec.packetOut p.writeTo.out = some
      ([("buffer_id", .num p.buffer.toNat), ("in_port", .num p.inPort.toNat),
        ("actions_len", .num (p.actions.map Action.size).sum)], p.actions.map Action.said, p.data) := by
  rw [PacketOut.out_eq]
  refine ⟨rfl, ?_⟩
  rw [← Actions.bytes_length] at hs ⊢
  have hl := u16_ofNat_toNat hs
  have h8 : ∀ t, Spec.u16 8 (be p.buffer ++ (be p.inPort ++ t)) = Spec.u16 0 t := by
    intro t
    rw [show (8 : Nat) = 4 + (4 + 0) from rfl, Spec.u16_skip (by simp), Spec.u16_skip (by simp)]
  simp [Spec.packetOut, Spec.packetOutHead, h8, hl, Actions.conforms _ hv, -zeros_length]

example : ∃ p : PacketOut, (∀ a ∈ p.actions, a.Valid) ∧ (p.actions.map Action.size).sum = 32 ∧
    (Spec.packetOut p.writeTo.out).map (fun r => (r.2.1.length, r.2.2)) = some (2, [9, 9]) :=
  ⟨{ (default : PacketOut) with
      actions := [.output 1 0, .setField ⟨0x8000, 3, [1, 2, 3, 4, 5, 6], []⟩], data := [9, 9] }, by decide +kernel⟩

/-! ## Groups -/

/-- What a bucket says. -/
def bucketSaid (b : Bucket) : Spec.Record × List Spec.Action :=
  ([("len", .num (16 + (b.actions.map Action.size).sum)), ("weight", .num b.weight.toNat),
    ("watch_port", .num b.watchPort.toNat), ("watch_group", .num b.watchGroup.toNat)], b.actions.map Action.said)

theorem buckets_conform (bs : List Bucket) (hv : ∀ b ∈ bs, b.Valid) :
    Spec.buckets (Buckets.bytes bs) = some (bs.map bucketSaid) := by
  refine Spec.records_plain bs fun b hb => ?_
  obtain ⟨h1, h2⟩ := hv b hb
  have hl := u16_ofNat_toNat h2
  rw [Bucket.size, ← Actions.bytes_length] at hl
  refine ⟨?_, ?_, ?_⟩
  · rw [Bucket.bytes_length, Bucket.size]; omega
  · rw [Bucket.bytes_length, Bucket.size, ← Actions.bytes_length, Bucket.bytes_eq, Spec.u16_zero, hl]
  · rw [Bucket.bytes_eq]
    simp only [Spec.bucket, Spec.read_u16, hl]
    simp [Actions.conforms _ h1, bucketSaid, Actions.bytes_length, -zeros_length]

/-- The encoding of `GroupMod` is struct ofp_group_mod with its buckets. -/
theorem groupMod_conforms (g : GroupMod) (hv : ∀ b ∈ g.buckets, b.Valid) :
    g.writeTo.err = none ∧ Spec.groupMod g.writeTo.out = some
      ([("command", .num g.command.toNat), ("type", .num g.type.toNat), ("group_id", .num g.group.toNat)],
        g.buckets.map bucketSaid) := by
  rw [GroupMod.out_eq]
  refine ⟨rfl, ?_⟩
  simp [Spec.groupMod, buckets_conform _ hv, -zeros_length]

/-- The encodings of any number of `GroupDescStats` are a multipart body of struct ofp_group_desc
entries. -/
theorem groupDescStats_conforms (gs : List GroupDescStats) (hv : ∀ g ∈ gs, ∀ b ∈ g.buckets, b.Valid)
    (hs : ∀ g ∈ gs, 8 + (g.buckets.map Bucket.size).sum ≤ 65535) :
    (∀ g ∈ gs, g.writeTo.err = none) ∧
    Spec.list 0 1 Spec.groupDesc (gs.flatMap fun g => g.writeTo.out) = some (gs.map fun g =>
      ([("length", .num (8 + (g.buckets.map Bucket.size).sum)), ("type", .num g.type.toNat),
        ("group_id", .num g.group.toNat)], g.buckets.map bucketSaid)) := by
  refine ⟨fun g _ => by rw [GroupDescStats.out_eq], Spec.records_plain gs fun g hg => ?_⟩
  have hl := u16_ofNat_toNat (hs g hg)
  rw [← Buckets.bytes_length] at hl
  rw [← Buckets.bytes_length, GroupDescStats.out_eq]
  refine ⟨?_, ?_, ?_⟩
  · simp
  · simp only [List.append_assoc, Spec.u16_zero, hl]; simp; omega
  · simp only [Spec.groupDesc, List.append_assoc, Spec.read_u16, hl]
    simp [buckets_conform _ (hv g hg), -zeros_length]

example : ∃ g : GroupDescStats, (∀ b ∈ g.buckets, b.Valid) ∧ 8 + (g.buckets.map Bucket.size).sum ≤ 65535 ∧
    g.buckets.length = 2 :=
  ⟨{ (default : GroupDescStats) with buckets := [⟨1, 2, 3, [.output 1 0]⟩, ⟨4, 5, 6, [.group 9]⟩] }, by decide⟩

/-- The encodings of any number of `GroupStats` are a multipart body of struct ofp_group_stats
entries. -/
theorem groupStats_conforms (gs : List GroupStats) (hs : ∀ g ∈ gs, 40 + 16 * g.bucketStats.length ≤ 65535) :
    (∀ g ∈ gs, g.writeTo.err = none) ∧
    Spec.list 0 1 Spec.groupStats (gs.flatMap fun g => g.writeTo.out) = some (gs.map fun g =>
      ([("length", .num (40 + 16 * g.bucketStats.length)), ("group_id", .num g.group.toNat),
        ("ref_count", .num g.refCount.toNat), ("packet_count", .num g.packetCount.toNat),
        ("byte_count", .num g.byteCount.toNat), ("duration_sec", .num g.durationSec.toNat),
        ("duration_nsec", .num g.durationNSec.toNat)],
       g.bucketStats.map fun c =>
        [("packet_count", .num c.packetCount.toNat), ("byte_count", .num c.byteCount.toNat)])) := by
  refine ⟨fun g _ => by rw [GroupStats.out_eq], Spec.records_plain gs fun g hg => ?_⟩
  have hl := u16_ofNat_toNat (hs g hg)
  have hb := BucketCounters.bytes_length g.bucketStats
  have hc : Spec.array 16 (Spec.struct Spec.bucketCounter) (BucketCounters.bytes g.bucketStats) =
      some (g.bucketStats.map fun c =>
        [("packet_count", .num c.packetCount.toNat), ("byte_count", .num c.byteCount.toNat)]) :=
    Spec.chunks_each (by omega) _ fun c _ => ⟨by simp [BucketCounter.writeTo, Enc.writeTo, Enc.gather],
      Spec.struct_of (by simp [BucketCounter.writeTo, Enc.writeTo, Enc.gather, Spec.bucketCounter])⟩
  rw [GroupStats.out_eq, hb]
  refine ⟨?_, ?_, ?_⟩
  · simp
  · simp only [Spec.u16_zero, hl]; simp [hb]; omega
  · simp only [Spec.groupStats, Spec.read_u16, hl]
    simp [hc, -zeros_length]

/-! ## Meters -/

/-- What a meter band says. -/
def bandSaid : MeterBand → String × Spec.Record
  | .drop r b => ("OFPMBT_DROP", [("rate", .num r.toNat), ("burst_size", .num b.toNat)])
  | .dscpRemark r b p =>
    ("OFPMBT_DSCP_REMARK", [("rate", .num r.toNat), ("burst_size", .num b.toNat), ("prec_level", .num p.toNat)])
  | .experimenter r b e =>
    ("OFPMBT_EXPERIMENTER", [("rate", .num r.toNat), ("burst_size", .num b.toNat), ("experimenter", .num e.toNat)])

theorem bands_conform (bs : List MeterBand) : Spec.bands (MeterBands.bytes bs) = some (bs.map bandSaid) := by
  refine Spec.records_plain bs fun b _ => ⟨?_, ?_, ?_⟩
  · rw [MeterBand.bytes_length]; omega
  · rw [MeterBand.bytes_length]
    cases b <;> simp [MeterBand.bytes, MeterBand.writeTo, Enc.writeTo, Enc.gather, meterBandHeader]
  · have hd : ∀ (t l : UInt16) (x : Bytes), (be t ++ (be l ++ x)).drop 4 = x := by
      intro t l x; rw [← List.append_assoc, List.drop_left' (by simp)]
    cases b <;>
    · simp only [MeterBand.bytes, MeterBand.writeTo, Enc.writeTo, Enc.gather, meterBandHeader, MeterBand.type,
        List.append_nil, List.append_assoc, Spec.band, Spec.u16_zero, hd]
      simp [Spec.bandStructs, Spec.struct, bandSaid, List.lookup, -zeros_length]

/-- The encoding of `MeterMod` is struct ofp_meter_mod with its bands. -/
theorem meterMod_conforms (m : MeterMod) : m.writeTo.err = none ∧ Spec.meterMod m.writeTo.out = some
    ([("command", .num m.command.toNat), ("flags", .num m.flags.toNat), ("meter_id", .num m.meter.toNat)],
      m.bands.map bandSaid) := by
  rw [MeterMod.out_eq]
  refine ⟨rfl, ?_⟩
  simp [Spec.meterMod, bands_conform]

/-- The encodings of any number of `MeterConfig` are a multipart body of struct ofp_meter_config
entries. -/
theorem meterConfig_conforms (ms : List MeterConfig) (hs : ∀ m ∈ ms, 8 + 16 * m.bands.length ≤ 65535) :
    (∀ m ∈ ms, m.writeTo.err = none) ∧
    Spec.list 0 1 Spec.meterConfig (ms.flatMap fun m => m.writeTo.out) = some (ms.map fun m =>
      ([("length", .num (8 + 16 * m.bands.length)), ("flags", .num m.flags.toNat), ("meter_id", .num m.meter.toNat)],
        m.bands.map bandSaid)) := by
  refine ⟨fun m _ => by rw [MeterConfig.out_eq], Spec.records_plain ms fun m hm => ?_⟩
  have hl := u16_ofNat_toNat (hs m hm)
  have hb := MeterBands.bytes_length m.bands
  rw [MeterConfig.out_eq, hb]
  refine ⟨?_, ?_, ?_⟩
  · simp
  · simp only [Spec.u16_zero, hl]; simp [hb]; omega
  · simp only [Spec.meterConfig, Spec.read_u16, hl]
    simp [bands_conform]

/-- The encodings of any number of `MeterStats` are a multipart body of struct ofp_meter_stats
entries. -/
theorem meterStats_conforms (ms : List MeterStats) (hs : ∀ m ∈ ms, 40 + 16 * m.bandStats.length ≤ 65535) :
    (∀ m ∈ ms, m.writeTo.err = none) ∧
    Spec.list 4 1 Spec.meterStats (ms.flatMap fun m => m.writeTo.out) = some (ms.map fun m =>
      ([("meter_id", .num m.meter.toNat), ("len", .num (40 + 16 * m.bandStats.length)),
        ("flow_count", .num m.flowCount.toNat), ("packet_in_count", .num m.packetInCount.toNat),
        ("byte_in_count", .num m.byteInCount.toNat), ("duration_sec", .num m.durationSec.toNat),
        ("duration_nsec", .num m.durationNSec.toNat)],
       m.bandStats.map fun c =>
        [("packet_band_count", .num c.packetBandCount.toNat), ("byte_band_count", .num c.byteBandCount.toNat)])) := by
  refine ⟨fun m _ => by rw [MeterStats.out_eq], Spec.records_plain ms fun m hm => ?_⟩
  have hl := u16_ofNat_toNat (hs m hm)
  have hb := MeterBandStatss.bytes_length m.bandStats
  have hc : Spec.array 16 (Spec.struct Spec.meterBandStats) (MeterBandStatss.bytes m.bandStats) =
      some (m.bandStats.map fun c =>
        [("packet_band_count", .num c.packetBandCount.toNat), ("byte_band_count", .num c.byteBandCount.toNat)]) :=
    Spec.chunks_each (by omega) _ fun c _ => ⟨by simp [MeterBandStats.writeTo, Enc.writeTo, Enc.gather],
      Spec.struct_of (by simp [MeterBandStats.writeTo, Enc.writeTo, Enc.gather, Spec.meterBandStats])⟩
  have h4 : ∀ t, Spec.u16 4 (be m.meter ++ t) = Spec.u16 0 t := by
    intro t; rw [show (4 : Nat) = 4 + 0 from rfl, Spec.u16_skip (by simp)]
  rw [MeterStats.out_eq, hb]
  refine ⟨?_, ?_, ?_⟩
  · simp; omega
  · simp only [List.append_assoc, h4, Spec.u16_zero, hl]; simp [hb]; omega
  · simp only [Spec.meterStats, List.append_assoc, Spec.read_u32, Spec.read_u16, hl]
    simp [hc, -zeros_length]

/-! ## Queues -/

/-- What a queue property says. -/
def queuePropSaid : QueueProp → String × Spec.Record × Bytes
  | .minRate r => ("OFPQT_MIN_RATE", [("rate", .num r.toNat)], [])
  | .maxRate r => ("OFPQT_MAX_RATE", [("rate", .num r.toNat)], [])
  | .experimenter e d => ("OFPQT_EXPERIMENTER", [("experimenter", .num e.toNat)], d)

/-- What a queue says. -/
def packetQueueSaid (q : PacketQueue) : Spec.Record × List (String × Spec.Record × Bytes) :=
  ([("queue_id", .num q.queue.toNat), ("port", .num q.port.toNat),
    ("len", .num (16 + (q.properties.map QueueProp.size).sum))], q.properties.map queuePropSaid)

theorem queueProps_conform (ps : List QueueProp) (hv : ∀ p ∈ ps, p.Valid) :
    Spec.list 2 1 Spec.queueProp (QueueProps.bytes ps) = some (ps.map queuePropSaid) := by
  refine Spec.records_plain ps fun p hp => ⟨?_, ?_, ?_⟩
  · rw [QueueProp.bytes_length]; cases p <;> simp [QueueProp.size]; omega
  · rw [QueueProp.bytes_length]
    cases p with
    | experimenter e d =>
      have := u16_ofNat_toNat (hv _ hp)
      simp only [QueueProp.size] at this
      simp only [QueueProp.bytes, QueueProp.writeTo, Enc.writeTo, Enc.gather, List.append_assoc, Spec.u16_two]
      rw [show (16 : UInt16) + UInt16.ofNat d.length = UInt16.ofNat (16 + d.length) by simp, this, QueueProp.size]
    | _ => simp [QueueProp.bytes, QueueProp.writeTo, Enc.writeTo, Enc.gather, QueueProp.size]
  · have hd : ∀ (t l : UInt16) (x : Bytes), (be t ++ (be l ++ (zeros 4 ++ x))).drop 8 = x := by
      intro t l x; rw [← List.append_assoc, ← List.append_assoc, List.drop_left' (by simp)]
    cases p <;>
    · simp only [QueueProp.bytes, QueueProp.writeTo, Enc.writeTo, Enc.gather, QueueProp.type,
        List.append_nil, List.append_assoc, Spec.queueProp, Spec.u16_zero, hd]
      simp [Spec.queuePropStructs, queuePropSaid, List.lookup, -zeros_length]

/-- The encoding of `QueueGetConfigReply` is struct ofp_queue_get_config_reply with its queues and
their properties. -/
theorem queueGetConfigReply_conforms (q : QueueGetConfigReply) (hv : ∀ p ∈ q.queues, p.Valid) :
    q.writeTo.err = none ∧ Spec.queueGetConfigReply q.writeTo.out = some
      ([("port", .num q.port.toNat)], q.queues.map packetQueueSaid) := by
  rw [QueueGetConfigReply.out_eq]
  refine ⟨rfl, ?_⟩
  have h : Spec.list 8 1 Spec.packetQueue (PacketQueues.bytes q.queues) =
      some (q.queues.map packetQueueSaid) := by
    refine Spec.records_plain q.queues fun p hp => ?_
    obtain ⟨h1, h2⟩ := hv p hp
    have hl := u16_ofNat_toNat h2
    rw [PacketQueue.size, ← QueueProps.bytes_length, Nat.add_comm] at hl
    have hq := queueProps_conform _ h1
    have h8 : ∀ t, Spec.u16 8 (be p.queue ++ (be p.port ++ t)) = Spec.u16 0 t := by
      intro t
      rw [show (8 : Nat) = 4 + (4 + 0) from rfl, Spec.u16_skip (by simp), Spec.u16_skip (by simp)]
    refine ⟨?_, ?_, ?_⟩
    · rw [PacketQueue.bytes_length, PacketQueue.size]; omega
    · rw [PacketQueue.bytes_length, PacketQueue.size, ← QueueProps.bytes_length, PacketQueue.bytes_eq, h8,
        Spec.u16_zero, hl, Nat.add_comm]
    · rw [PacketQueue.bytes_eq]
      simp only [Spec.packetQueue, Spec.read_u16, Spec.read_u32, hl]
      simp [hq, packetQueueSaid, ← QueueProps.bytes_length, Nat.add_comm, -zeros_length]
  simp [h, Spec.queueGetConfigReply, -zeros_length]

/-! ## Ports and descriptions -/

/-- What a port says. -/
def portSaid (p : Port) : Spec.Record :=
  [("port_no", .num p.portNo.toNat), ("hw_addr", .bytes p.hwAddr), ("name", .bytes p.name),
   ("config", .num p.config.toNat), ("state", .num p.state.toNat), ("curr", .num p.curr.toNat),
   ("advertised", .num p.advertised.toNat), ("supported", .num p.supported.toNat), ("peer", .num p.peer.toNat),
   ("curr_speed", .num p.currSpeed.toNat), ("max_speed", .num p.maxSpeed.toNat)]

theorem port_read (p : Port) (hw : p.hwAddr.length = 6) (hn : Spec.Text 16 p.name) :
    Spec.read Spec.port p.bytes = some (portSaid p, []) := by
  rw [Port.bytes, Port.out_eq]
  simp only [Spec.port, Spec.read_u32, Spec.read_pad, Spec.read_raw hw, Spec.read_text hn]
  simp [portSaid, -zeros_length]

/-- The encodings of any number of `Port`s are a multipart body of struct ofp_port entries. -/
theorem ports_conform (ps : List Port) (hw : ∀ p ∈ ps, p.hwAddr.length = 6) (hn : ∀ p ∈ ps, Spec.Text 16 p.name) :
    (∀ p ∈ ps, p.writeTo.err = none) ∧
    Spec.array 64 (Spec.struct Spec.port) (ps.flatMap fun p => p.writeTo.out) =
      some (ps.map portSaid) :=
  ⟨fun p _ => by rw [Port.out_eq],
   Spec.chunks_each (by omega) ps fun p hp =>
    ⟨by have := p.bytes_length; rw [hw p hp] at this; exact this,
     Spec.struct_of (port_read p (hw p hp) (hn p hp))⟩⟩

/-- The encoding of `PortStatus` is struct ofp_port_status. -/
theorem portStatus_conforms (p : PortStatus) (hw : p.port.hwAddr.length = 6) (hn : Spec.Text 16 p.port.name) :
    p.writeTo.err = none ∧ Spec.struct (Spec.portStatus ++ Spec.port) p.writeTo.out = some
      (("reason", .num p.reason.toNat) :: portSaid p.port) := by
  have h := port_read p.port hw hn
  rw [PortStatus.out_eq]
  refine ⟨rfl, Spec.struct_of ?_⟩
  simp [Spec.portStatus, h, -zeros_length]

example : ∃ p : Port, p.hwAddr.length = 6 ∧ Spec.Text 16 p.name ∧ p.name = [101, 116, 104, 48] :=
  ⟨{ (default : Port) with hwAddr := [1, 2, 3, 4, 5, 6], name := [101, 116, 104, 48] }, by decide⟩

/-- The encoding of `PortMod` is struct ofp_port_mod. -/
theorem portMod_conforms (p : PortMod) (hw : p.hwAddr.length = 6) :
    p.writeTo.err = none ∧ Spec.struct Spec.portMod p.writeTo.out = some
      [("port_no", .num p.portNo.toNat), ("hw_addr", .bytes p.hwAddr), ("config", .num p.config.toNat),
       ("mask", .num p.mask.toNat), ("advertise", .num p.advertise.toNat)] := by
  rw [PortMod.out_eq]
  refine ⟨rfl, Spec.struct_of ?_⟩
  simp only [Spec.portMod, Spec.read_u32, Spec.read_pad, Spec.read_raw hw]
  simp [-zeros_length]

/-- The encoding of `Description` is struct ofp_desc. -/
theorem description_conforms (d : Description) (h1 : Spec.Text 256 d.manufacturer) (h2 : Spec.Text 256 d.hardware)
    (h3 : Spec.Text 256 d.software) (h4 : Spec.Text 32 d.serialNum) (h5 : Spec.Text 256 d.datapath) :
    d.writeTo.err = none ∧ Spec.struct Spec.desc d.writeTo.out = some
      [("mfr_desc", .bytes d.manufacturer), ("hw_desc", .bytes d.hardware), ("sw_desc", .bytes d.software),
       ("serial_num", .bytes d.serialNum), ("dp_desc", .bytes d.datapath)] := by
  rw [Description.out_eq]
  refine ⟨rfl, Spec.struct_of ?_⟩
  have h5' := Spec.read_text (n := "dp_desc") (ms := []) h5 []
  rw [List.append_nil] at h5'
  simp only [Spec.desc, Spec.read_text h1, Spec.read_text h2, Spec.read_text h3, Spec.read_text h4, h5']
  simp

/-! ## Errors, echoes, multipart requests -/

/-- The encoding of `Error` is struct ofp_error_msg with the data behind it. -/
theorem error_conforms (e : OfpError) : e.writeTo.err = none ∧ Spec.read Spec.errorMsg e.writeTo.out = some
    ([("type", .num e.type.toNat), ("code", .num e.code.toNat)], e.data) := by
  simp [OfpError.writeTo, Enc.writeTo, Enc.gather, Spec.errorMsg]

/-- The encoding of `ErrorExperimenter` is struct ofp_error_experimenter_msg, of type
OFPET_EXPERIMENTER, with the data behind it. -/
theorem errorExperimenter_conforms (e : ErrorExperimenter) : e.writeTo.err = none ∧
    Spec.read Spec.errorExperimenterMsg e.writeTo.out = some
      ([("type", .num 0xffff), ("exp_type", .num e.expType.toNat), ("experimenter", .num e.experimenter.toNat)],
        e.data) := by
  simp [ErrorExperimenter.writeTo, Enc.writeTo, Enc.gather, Spec.errorExperimenterMsg]

/-- The encoding of an echo request or reply is its data. -/
theorem echo_conforms (q : EchoRequest) (p : EchoReply) :
    q.writeTo.err = none ∧ q.writeTo.out = q.data ∧ p.writeTo.err = none ∧ p.writeTo.out = p.data := by
  simp [EchoRequest.writeTo, EchoReply.writeTo, Enc.writeTo, Enc.gather]

/-- The encoding of `NewMultipartRequest(t, body)` is struct ofp_multipart_request with the
encoding of the body behind it. -/
theorem multipartRequest_conforms (t : UInt16) (body : Wr) (hb : body.err = none) :
    (newMultipartRequest t (some body)).writeTo.err = none ∧
    Spec.read Spec.multipart (newMultipartRequest t (some body)).writeTo.out = some
      ([("type", .num t.toNat), ("flags", .num 0)], body.out) := by
  obtain ⟨o, n, e⟩ := body
  subst hb
  simp [newMultipartRequest, MultipartRequest.writeTo, MBody.elem, Enc.writeTo, Enc.gather, Spec.multipart,
    -zeros_length]

/-- Without a body it is the struct alone. -/
theorem multipartRequest_nil_conforms (t : UInt16) :
    (newMultipartRequest t none).writeTo.err = none ∧
    Spec.read Spec.multipart (newMultipartRequest t none).writeTo.out = some
      ([("type", .num t.toNat), ("flags", .num 0)], []) := by
  simp [newMultipartRequest, MultipartRequest.writeTo, MBody.elem, Enc.writeTo, Enc.gather, Spec.multipart,
    -zeros_length]

/-! ## Hello -/

/-- The protocol versions that a version bitmap announces: bit `v % 32` of word `v / 32`. -/
def versions (ws : List Nat) (v : Nat) : Bool := (ws.getD (v / 32) 0).testBit (v % 32)

/-- The encoding of `Hello` is struct ofp_hello: its elements are those of the message, and every
version bitmap announces the versions that the message's does.  (The words need not be the same,
see `hello_words_false`.) -/
theorem hello_conforms_partial (h : Hello) (hv : ∀ e ∈ h.elements, e.Valid) :
    h.writeTo.err = none ∧ ∃ es, Spec.hello h.writeTo.out = some es ∧
      es.map versions = h.elements.map fun | .versionBitmap ws => versions (ws.map UInt32.toNat) := by
  have he := h.writeTo_eq
  rw [he]
  refine ⟨rfl, h.elements.map (fun | .versionBitmap ws => (paddedWords ws).map UInt32.toNat), ?_, ?_⟩
  · refine Spec.records_each (rc := HelloElem.bytes) h.elements fun e hx => ?_
    have hve := hv e hx
    cases e with
    | versionBitmap ws =>
    have hl := u16_ofNat_toNat hve
    simp only [HelloElem.size] at hl
    have ho := paddedWords_odd ws
    have hlen := HelloElem.bytes_length (.versionBitmap ws)
    simp only [HelloElem.size] at hlen
    refine ⟨⟨⟨[], by simp⟩, by rw [hlen]; omega, by rw [hlen]; omega, ?_⟩, ?_⟩
    · rw [hlen, HelloElem.bytes_eq, Spec.u16_two, hl]
    · rw [HelloElem.bytes_eq]
      have hd : ∀ (t l : UInt16) (x : Bytes), (be t ++ (be l ++ x)).drop 4 = x := by
        intro t l x; rw [← List.append_assoc, List.drop_left' (by simp)]
      unfold Spec.helloElem
      rw [Spec.u16_zero, if_pos (show (1 : UInt16).toNat = 1 from rfl), hd]
      exact Spec.chunks_each (by omega) _ fun w _ => ⟨by simp, by simp [getBE_be, Wire.toNat]⟩
  · rw [List.map_map]
    refine List.map_congr_left fun e _ => ?_
    cases e with
    | versionBitmap ws =>
    funext v
    simp only [Function.comp, versions, paddedWords]
    split
    · rw [List.map_append]
      rcases Nat.lt_trichotomy (v / 32) ws.length with hlt | heq | hgt
      · simp [List.getElem?_append_left, hlt]
      · simp [heq]
      · have h1 : (List.map UInt32.toNat ws ++ List.map UInt32.toNat [0])[v / 32]? = none :=
          List.getElem?_eq_none (by simp; omega)
        have h2 : (List.map UInt32.toNat ws)[v / 32]? = none := List.getElem?_eq_none (by simp; omega)
        simp only [List.getD_eq_getElem?_getD, h1, h2]
    · rfl

/-- The bitmap announces version 4 and no other below 32. -/
example : versions [16] 4 = true ∧ (∀ v < 32, versions [16] v = true → v = 4) ∧
    (HelloElem.versionBitmap [16, 0]).Valid ∧ versions [16, 0, 0] 36 = false := by decide

/-- A bitmap of an even number of words reaches the peer with one word more. -/
theorem hello_words_false : ∃ h : Hello, h.writeTo.err = none ∧ h.elements = [.versionBitmap [16, 0]] ∧
    Spec.hello h.writeTo.out = some [[16, 0, 0]] := by
  refine ⟨⟨[.versionBitmap [16, 0]]⟩, by decide, rfl, by decide⟩

/-! ## Table features -/

/-- What a property of table features says. -/
def tablePropSaid : TableProp → Spec.TableProp
  | .instructions m ts =>
    .ids (if m then "OFPTFPT_INSTRUCTIONS_MISS" else "OFPTFPT_INSTRUCTIONS") (ts.map UInt16.toNat)
  | .nextTables m ts => .tables (if m then "OFPTFPT_NEXT_TABLES_MISS" else "OFPTFPT_NEXT_TABLES") (ts.map UInt8.toNat)
  | .writeActions m ts =>
    .ids (if m then "OFPTFPT_WRITE_ACTIONS_MISS" else "OFPTFPT_WRITE_ACTIONS") (ts.map UInt16.toNat)
  | .applyActions m ts =>
    .ids (if m then "OFPTFPT_APPLY_ACTIONS_MISS" else "OFPTFPT_APPLY_ACTIONS") (ts.map UInt16.toNat)
  | .matches xs => .oxmIds "OFPTFPT_MATCH" (xs.map oxmIdSaid)
  | .wildcards xs => .oxmIds "OFPTFPT_WILDCARDS" (xs.map oxmIdSaid)
  | .writeSetField m xs =>
    .oxmIds (if m then "OFPTFPT_WRITE_SETFIELD_MISS" else "OFPTFPT_WRITE_SETFIELD") (xs.map oxmIdSaid)
  | .applySetField m xs =>
    .oxmIds (if m then "OFPTFPT_APPLY_SETFIELD_MISS" else "OFPTFPT_APPLY_SETFIELD") (xs.map oxmIdSaid)
  | .experimenter m e t d =>
    .experimenter (if m then "OFPTFPT_EXPERIMENTER_MISS" else "OFPTFPT_EXPERIMENTER")
      [("experimenter", .num e.toNat), ("exp_type", .num t.toNat)] d
where
  /-- The OXM header of a field. -/
  oxmIdSaid (x : XM) : Nat × Nat × Bool × Nat :=
    (x.cls.toNat, x.type.toNat, !x.mask.isEmpty, x.value.length + x.mask.length)

theorem typeCodes_read (ts : List UInt16) :
    Spec.array 4 Spec.typeId (ts.flatMap fun a => be a ++ be (4 : UInt16)) = some (ts.map UInt16.toNat) :=
  Spec.chunks_each (by omega) ts fun t _ => by
    refine ⟨by simp, ?_⟩
    have h : be t ++ be (4 : UInt16) = be t ++ (be (4 : UInt16) ++ []) := by simp
    rw [Spec.typeId, h, Spec.u16_two, Spec.u16_zero, if_pos (show (4 : UInt16).toNat = 4 from rfl)]

theorem oxmIds_read (xs : List XM) (h : ∀ x ∈ xs, x.Plain) :
    Spec.array 4 Spec.oxmId (xs.flatMap XM.bytes) = some (xs.map tablePropSaid.oxmIdSaid) :=
  Spec.chunks_each (by omega) xs fun x hx => by
    have hp := h x hx
    obtain ⟨c, t, v, m⟩ := x
    obtain ⟨h1, h2, h3⟩ := hp
    simp only at h1 h2 h3
    subst h1 h2
    have ht : (t <<< 1).toNat = 2 * t.toNat := by
      rw [UInt8.toNat_shiftLeft]
      simp [Nat.shiftLeft_eq]; omega
    rw [XM.bytes_eq]
    have h3' : List.drop 3 (be c ++ (be (t <<< 1) ++ be (0 : UInt8))) = be (0 : UInt8) := by
      rw [← List.append_assoc, List.drop_left' (by simp)]
    simp [Spec.oxmId, tablePropSaid.oxmIdSaid, Spec.u8, Spec.u16, getBE_be, Wire.toNat, ht, h3']
    decide

/-- One property of table features, framed as the specification says. -/
theorem tableProp_framed (p : TableProp) (hx : ∀ x ∈ p.fields, x.Plain) (hl : p.size ≤ 65535) :
    ∃ r, Spec.Framed 2 8 p.bytes r ∧ Spec.tableProp r = some (tablePropSaid p) := by
  have hu := u16_ofNat_toNat hl
  have key : ∀ (t : UInt16) (n : Nat) (body : Bytes), n = 4 + body.length → (UInt16.ofNat n).toNat = n →
      Spec.Framed 2 8 (be t ++ (be (UInt16.ofNat n) ++ (body ++ zeros (padLen n))))
        (be t ++ (be (UInt16.ofNat n) ++ body)) := by
    intro t n body hn hn'
    refine ⟨⟨zeros (padLen n), by simp⟩, ?_, by simp; omega, ?_⟩
    · simp [padLen]; omega
    · rw [Spec.u16_two, hn']; simp; omega
  have hd : ∀ (t l : UInt16) (x : Bytes), (be t ++ (be l ++ x)).drop 4 = x := by
    intro t l x; rw [← List.append_assoc, List.drop_left' (by simp)]
  have hL (xs : List XM) (hx : ∀ x ∈ xs, x.Plain) : (xs.flatMap XM.bytes).length = 4 * xs.length := by
    induction xs with
    | nil => rfl
    | cons x xs ih =>
      have h1 : (XM.headerBytes x.header).length = 4 := by simp [XM.headerBytes]
      rw [List.flatMap_cons, List.length_append, (hx x (by simp)).bytes, h1,
        ih (fun y hy => hx y (by simp [hy])), List.length_cons]
      omega
  have hX : ∀ (t : UInt16) (xs : List XM) (name : String), (∀ x ∈ xs, x.Plain) →
      (UInt16.ofNat (4 + 4 * xs.length)).toNat = 4 + 4 * xs.length →
      Spec.tablePropTypes.lookup t.toNat = some (name, 2) →
      ∃ r, Spec.Framed 2 8 (writeTablePropXM t xs).out r ∧
        Spec.tableProp r = some (.oxmIds name (xs.map tablePropSaid.oxmIdSaid)) := by
    intro t xs name hx hu hn
    refine ⟨be t ++ (be (UInt16.ofNat (4 + 4 * xs.length)) ++ xs.flatMap XM.bytes), ?_, ?_⟩
    · rw [writeTablePropXM_eq]
      exact key t _ _ (by rw [hL xs hx]) hu
    · simp only [Spec.tableProp, Spec.u16_zero, hd, hn]
      simp [oxmIds_read xs hx]
  have hT : ∀ (t : UInt16) (ts : List UInt16) (name : String),
      Spec.tablePropTypes.lookup t.toNat = some (name, 0) →
      Spec.tableProp (be t ++ (be (UInt16.ofNat (4 + 4 * ts.length)) ++ typeCodes ts)) =
        some (.ids name (ts.map UInt16.toNat)) := by
    intro t ts name hn
    simp only [Spec.tableProp, Spec.u16_zero, hd, hn]
    simp [typeCodes, typeCodes_read]
  have hW : ∀ (t : UInt16) (ts : List UInt16), (UInt16.ofNat (4 + 4 * ts.length)).toNat = 4 + 4 * ts.length →
      Spec.Framed 2 8 (writeTablePropActions t ts).out
        (be t ++ (be (UInt16.ofNat (4 + 4 * ts.length)) ++ typeCodes ts)) := by
    intro t ts hu
    have := key t (4 + 4 * ts.length) (typeCodes ts) (by rw [typeCodes_length]) hu
    simpa [writeTablePropActions, Enc.writeTo, Enc.gather, tablePropHeader,
      -UInt16.toNat_ofNat', -UInt16.ofNat_add, typeCodes] using this
  cases p with
  | instructions m ts =>
    refine ⟨be (TableProp.instructions m ts).type ++ (be (UInt16.ofNat (4 + 4 * ts.length)) ++ typeCodes ts), ?_, ?_⟩
    · simp only [TableProp.size] at hu
      have := key (TableProp.instructions m ts).type (4 + 4 * ts.length) (typeCodes ts) (by rw [typeCodes_length]) hu
      simpa [TableProp.bytes, TableProp.writeTo, Enc.writeTo, Enc.writeSliceTo, Enc.gather, tablePropHeader,
        -UInt16.toNat_ofNat', -UInt16.ofNat_add, hu, typeCodes] using this
    · exact hT _ _ _ (by cases m <;> simp only [TableProp.type, tablePropType] <;> decide)
  | nextTables m ts =>
    refine ⟨be (TableProp.nextTables m ts).type ++ (be (UInt16.ofNat (4 + ts.length)) ++ ts), ?_, ?_⟩
    · have := key (TableProp.nextTables m ts).type (4 + ts.length) ts rfl hu
      simpa [TableProp.bytes, TableProp.writeTo, Enc.writeTo, Enc.gather, tablePropHeader,
        -UInt16.toNat_ofNat', -UInt16.ofNat_add] using this
    · have hn : Spec.tablePropTypes.lookup (TableProp.nextTables m ts).type.toNat =
          some (if m then "OFPTFPT_NEXT_TABLES_MISS" else "OFPTFPT_NEXT_TABLES", 1) := by
        cases m <;> simp only [TableProp.type, tablePropType] <;> decide
      simp only [Spec.tableProp, Spec.u16_zero, hd, hn]
      rfl
  | writeActions m ts => exact ⟨_, hW _ _ hu, hT _ _ _ (by cases m <;> simp only [TableProp.type, tablePropType] <;> decide)⟩
  | applyActions m ts => exact ⟨_, hW _ _ hu, hT _ _ _ (by cases m <;> simp only [TableProp.type, tablePropType] <;> decide)⟩
  | «matches» xs => exact hX _ xs _ hx hu (by simp only [TableProp.type]; decide)
  | wildcards xs => exact hX _ xs _ hx hu (by simp only [TableProp.type]; decide)
  | writeSetField m xs => exact hX _ xs _ hx hu (by cases m <;> simp only [TableProp.type, tablePropType] <;> decide)
  | applySetField m xs => exact hX _ xs _ hx hu (by cases m <;> simp only [TableProp.type, tablePropType] <;> decide)
  | experimenter m e t d =>
    refine ⟨be (TableProp.experimenter m e t d).type ++ (be (UInt16.ofNat (12 + d.length)) ++ (be e ++ (be t ++ d))), ?_, ?_⟩
    · have := key (TableProp.experimenter m e t d).type (12 + d.length) (be e ++ (be t ++ d)) (by simp; omega) hu
      have h12 : 4 + d.length + 8 = 12 + d.length := by omega
      simp only [TableProp.size] at hu
      simpa [TableProp.bytes, TableProp.writeTo, Enc.writeTo, Enc.gather, tablePropHeader, h12, hu,
        -UInt16.toNat_ofNat', -UInt16.ofNat_add] using this
    · have hn : Spec.tablePropTypes.lookup (TableProp.experimenter m e t d).type.toNat =
          some (if m then "OFPTFPT_EXPERIMENTER_MISS" else "OFPTFPT_EXPERIMENTER", 3) := by
        cases m <;> simp only [TableProp.type, tablePropType] <;> decide
      simp only [Spec.tableProp, Spec.u16_zero, hd, hn]
      simp [tablePropSaid]

/-- The encoding of a `TableFeatures` whose OXM properties list the fields without values is
struct ofp_table_features.  (A field listed with a value is not, see `tableFeatures_oxm_false`.) -/
theorem tableFeatures_conforms_partial (t : TableFeatures) (hn : Spec.Text 32 t.name)
    (hp : ∀ p ∈ t.properties, (∀ x ∈ p.fields, x.Plain) ∧ p.size ≤ 65535)
    (hl : 64 + (TableProps.bytes t.properties).length ≤ 65535) :
    t.writeTo.err = none ∧ Spec.tableFeatures t.writeTo.out = some
      ([("length", .num t.writeTo.out.length), ("table_id", .num t.table.toNat), ("name", .bytes t.name),
        ("metadata_match", .num t.metadataMatch.toNat), ("metadata_write", .num t.metadataWrite.toNat),
        ("config", .num t.config.toNat), ("max_entries", .num t.maxEntries.toNat)],
       t.properties.map tablePropSaid) := by
  have hu := u16_ofNat_toNat hl
  have hps : Spec.list 2 8 Spec.tableProp (TableProps.bytes t.properties) = some (t.properties.map tablePropSaid) := by
    have h : ∀ p : TableProp, ∃ r, p ∈ t.properties → Spec.Framed 2 8 p.bytes r ∧ Spec.tableProp r = some (tablePropSaid p) := by
      intro p
      rcases Decidable.em (p ∈ t.properties) with hm | hm
      · obtain ⟨r, hr⟩ := tableProp_framed p (hp p hm).1 (hp p hm).2
        exact ⟨r, fun _ => hr⟩
      · exact ⟨[], fun h => absurd h hm⟩
    obtain ⟨rc, hrc⟩ := Classical.axiomOfChoice h
    exact Spec.records_each (rc := rc) t.properties fun p hm => hrc p hm
  rw [TableFeatures.out_eq]
  refine ⟨rfl, ?_⟩
  generalize TableProps.bytes t.properties = bs at *
  simp only [Spec.tableFeatures, Spec.read_u16, Spec.read_u8, Spec.read_pad, Spec.read_u64, Spec.read_u32,
    Spec.read_text hn, hu]
  simp [Spec.read, hps]
  omega

example : ∃ t : TableFeatures, Spec.Text 32 t.name ∧ t.name ≠ [] ∧ t.properties.length = 4 ∧
    (∀ p ∈ t.properties, (∀ x ∈ p.fields, x.Plain) ∧ p.size ≤ 65535) ∧
    64 + (TableProps.bytes t.properties).length ≤ 65535 ∧
    ((Spec.tableFeatures t.writeTo.out).map (·.2)) = some [.ids "OFPTFPT_INSTRUCTIONS" [1, 4],
      .tables "OFPTFPT_NEXT_TABLES_MISS" [2, 3, 5], .oxmIds "OFPTFPT_MATCH" [(0x8000, 3, false, 0)],
      .experimenter "OFPTFPT_EXPERIMENTER" [("experimenter", .num 7), ("exp_type", .num 8)] [1]] :=
  ⟨{ (default : TableFeatures) with
      name := [65, 66],
      properties := [.instructions false [1, 4], .nextTables true [2, 3, 5], .matches [⟨0x8000, 3, [], []⟩],
        .experimenter false 7 8 [1]] }, by decide +kernel⟩

/-- A field listed with a value: the length of the property leaves it out, and the peer cannot
read the message. -/
theorem tableFeatures_oxm_false : ∃ t : TableFeatures, t.writeTo.err = none ∧
    t.properties = [.wildcards [{ cls := 0x8000, type := 0, value := [0, 0, 0, 1], mask := [] }]] ∧
    Spec.tableFeatures t.writeTo.out = none := by
  refine ⟨{ (default : TableFeatures) with
    properties := [.wildcards [{ cls := 0x8000, type := 0, value := [0, 0, 0, 1], mask := [] }]] }, by decide, rfl, ?_⟩
  decide

/-! ## Messages -/

/-- A message of a stream: the members of its header and its body. -/
def message (b : Bytes) : Option (Spec.Record × Bytes) := Spec.read Spec.header b

/-- What a request with the body `b` says. -/
def requestSaid (q : Request) (b : Bytes) : Spec.Record × Bytes :=
  ([("version", .num q.header.version.toNat), ("type", .num q.header.type.toNat),
    ("length", .num (8 + b.length)), ("xid", .num q.header.transaction.toNat)], b)

/-- Requests written one after another onto a stream are, for a peer that takes it apart at the
length members of struct ofp_header, these messages, in their order and each with its body. -/
theorem stream_conforms (qs : List (Request × Bytes))
    (h : ∀ p ∈ qs, p.1.body.Yields p.2 ∧ 8 + p.2.length ≤ 65535) :
    Spec.list 2 1 message (serialise (qs.map (·.1))) = some (qs.map fun p => requestSaid p.1 p.2) := by
  rw [serialise, foldl_recorder qs h, List.nil_append, ← List.flatMap_def]
  refine Spec.records_plain qs fun p hp => ?_
  have hu := u16_ofNat_toNat (h p hp).2
  refine ⟨by simp [Header.bytes_length]; omega, ?_, ?_⟩
  · simp only [Header.bytes, List.append_assoc]
    rw [Spec.u16_skip (k := 1) (by simp) 1, Spec.u16_skip (k := 1) (by simp) 0, Spec.u16_zero, hu]
    simp
    omega
  · simp only [Header.bytes, List.append_assoc, message, Spec.header, Spec.read_u8, Spec.read_u16, Spec.read_u32, hu]
    simp [Spec.read, requestSaid]

example : ∃ qs : List (Request × Bytes), qs.length = 2 ∧
    (∀ p ∈ qs, p.1.body.Yields p.2 ∧ 8 + p.2.length ≤ 65535) ∧
    (Spec.list 2 1 message (serialise (qs.map (·.1)))).map (·.map (·.2)) = some [[9, 8], []] :=
  ⟨[(newRequest 2 (some fun _ => ⟨[9, 8], 2, none⟩), [9, 8]), (newRequest 3 none, [])], rfl,
   by intro p hp; simp only [List.mem_cons, List.not_mem_nil, or_false] at hp
      rcases hp with rfl | rfl <;> exact ⟨by first | rfl | exact ⟨rfl, rfl⟩, by decide⟩,
   by decide +kernel⟩

end Verif.Props
