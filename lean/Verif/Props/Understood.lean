import Verif.Understood
import Verif.Props.Conforms

/-!
C92: what a peer sends by the specification, the library understands.  For every byte string that
the readers of `Verif/Spec/Structs.lean` accept, whatever its padding, the library's decoder
succeeds and the value it gives says what the reader read.  `hello` and the messages with lists of
buckets, bands, queues and properties are not understood; for these see the theorems in `_false`.
-/

namespace Verif.Props

/-- What `rd` reads by the specification, the decoder understands: whatever the receiver held
before, and whatever follows. -/
def Understands {σ ν : Type} (dec : Step σ) (rd : Bytes → Option ν) (said : σ → ν) : Prop :=
  ∀ b v, rd b = some v → ∃ x, Decodes dec b x ∧ said x = v

/-- As `Understands`, for messages that extend to the end of the input. -/
def UnderstandsAll {σ ν : Type} (dec : Step σ) (rd : Bytes → Option ν) (said : σ → ν) : Prop :=
  ∀ b v, rd b = some v → ∃ x, DecodesAll dec b x ∧ said x = v

/-- The condition on matches: no field has a mask of no bytes. -/
def NoEmptyMask (m : Spec.Match) : Prop := ∀ o ∈ m.fields, o.mask ≠ some []

instance : DecidablePred NoEmptyMask := fun m => by unfold NoEmptyMask; infer_instance

instance : DecidablePred Spec.Action.Known := fun a => by
  refine decidable_of_iff (a.name ≠ "OFPAT_POP_PBB" ∧ (a.field.bind Spec.Oxm.mask) ≠ some []) ?_
  unfold Spec.Action.Known
  cases a.field <;> simp

instance : DecidablePred Spec.Instruction.Known := fun i => by unfold Spec.Instruction.Known; infer_instance

private theorem reads {α : Type} {o : Option α} {P : α → Prop} [DecidablePred P]
    (h : o.any (fun v => decide (P v)) = true) : ∃ v, o = some v ∧ P v := by
  cases o <;> simp_all

/-! ## Structs of a fixed size -/

/-- Struct ofp_header, read by the specification or by `Header.ReadFrom`. -/
theorem header_understood : Understands Header.readFrom (Spec.struct Spec.header) fun x =>
      [("version", .num x.version.toNat), ("type", .num x.type.toNat), ("length", .num x.length.toNat),
       ("xid", .num x.transaction.toNat)] :=
  Spec.struct_understood header_relays
    (fun x => ⟨by simp [Header.writeTo, Header.elems, Enc.writeTo, Enc.gather],
      Spec.struct_of (by simp [Header.writeTo, Header.elems, Enc.writeTo, Enc.gather, Spec.header])⟩) (by decide)

/-- Struct ofp_switch_features, read by the specification or by `SwitchFeatures.ReadFrom`. -/
theorem switchFeatures_understood : Understands SwitchFeatures.readFrom (Spec.struct Spec.switchFeatures) fun x =>
      [("datapath_id", .num x.datapathID.toNat), ("n_buffers", .num x.numBuffers.toNat),
       ("n_tables", .num x.numTables.toNat), ("auxiliary_id", .num x.auxiliaryID.toNat),
       ("capabilities", .num x.capabilities.toNat), ("reserved", .num x.reserved.toNat)] :=
  Spec.struct_understood switchFeatures_relays switchFeatures_conforms (by decide)

/-- Struct ofp_switch_config, read by the specification or by `SwitchConfig.ReadFrom`. -/
theorem switchConfig_understood : Understands SwitchConfig.readFrom (Spec.struct Spec.switchConfig) fun x =>
      [("flags", .num x.flags.toNat), ("miss_send_len", .num x.missSendLength.toNat)] :=
  Spec.struct_understood switchConfig_relays switchConfig_conforms (by decide)

/-- Struct ofp_multipart_reply (the body follows), read by the specification or by `MultipartReply.ReadFrom`. -/
theorem multipartReply_understood : Understands MultipartReply.readFrom (Spec.struct Spec.multipart) fun x =>
      [("type", .num x.type.toNat), ("flags", .num x.flags.toNat)] :=
  Spec.struct_understood multipartReply_relays multipartReply_conforms (by decide)

/-- Struct ofp_experimenter_multipart_header, read by the specification or by `ExperimenterMultipartHeader.ReadFrom`. -/
theorem experimenterMultipartHeader_understood : Understands ExperimenterMultipartHeader.readFrom (Spec.struct Spec.experimenterMultipartHeader) fun x =>
      [("experimenter", .num x.experimenter.toNat), ("exp_type", .num x.expType.toNat)] :=
  Spec.struct_understood experimenterMultipartHeader_relays experimenterMultipartHeader_conforms (by decide)

/-- Struct ofp_experimenter_header, read by the specification or by `Experimenter.ReadFrom`. -/
theorem experimenter_understood : Understands Experimenter.readFrom (Spec.struct Spec.experimenterHeader) fun x =>
      [("experimenter", .num x.experimenter.toNat), ("exp_type", .num x.expType.toNat)] :=
  Spec.struct_understood experimenter_relays experimenter_conforms (by decide)

/-- Struct ofp_role_request, read by the specification or by `RoleRequest.ReadFrom`. -/
theorem roleRequest_understood : Understands RoleRequest.readFrom (Spec.struct Spec.roleRequest) fun x =>
      [("role", .num x.role.toNat), ("generation_id", .num x.generationID.toNat)] :=
  Spec.struct_understood roleRequest_relays roleRequest_conforms (by decide)

example : Spec.struct Spec.roleRequest [0, 0, 0, 2, 0xde, 0xad, 0xbe, 0xef, 0, 0, 0, 0, 0, 0, 0, 7] =
    some [("role", .num 2), ("generation_id", .num 7)] := by decide

/-- Struct ofp_async_config, read by the specification or by `AsyncConfig.ReadFrom`. -/
theorem asyncConfig_understood : Understands AsyncConfig.readFrom (Spec.struct Spec.asyncConfig) fun x =>
      [("packet_in_mask[0]", .num x.packetInMask.1.toNat),
       ("packet_in_mask[1]", .num x.packetInMask.2.toNat),
       ("port_status_mask[0]", .num x.portStatusMask.1.toNat),
       ("port_status_mask[1]", .num x.portStatusMask.2.toNat),
       ("flow_removed_mask[0]", .num x.flowRemovedMask.1.toNat),
       ("flow_removed_mask[1]", .num x.flowRemovedMask.2.toNat)] :=
  Spec.struct_understood asyncConfig_relays asyncConfig_conforms (by decide)

/-- Struct ofp_table_mod, read by the specification or by `TableMod.ReadFrom`. -/
theorem tableMod_understood : Understands TableMod.readFrom (Spec.struct Spec.tableMod) fun x =>
      [("table_id", .num x.table.toNat), ("config", .num x.config.toNat)] :=
  Spec.struct_understood tableMod_relays tableMod_conforms (by decide)

/-- Struct ofp_table_stats, read by the specification or by `TableStats.ReadFrom`. -/
theorem tableStats_understood : Understands TableStats.readFrom (Spec.struct Spec.tableStats) fun x =>
      [("table_id", .num x.table.toNat), ("active_count", .num x.activeCount.toNat),
       ("lookup_count", .num x.lookupCount.toNat), ("matched_count", .num x.matchedCount.toNat)] :=
  Spec.struct_understood tableStats_relays tableStats_conforms (by decide)

/-- Struct ofp_port_stats_request, read by the specification or by `PortStatsRequest.ReadFrom`. -/
theorem portStatsRequest_understood : Understands PortStatsRequest.readFrom (Spec.struct Spec.portStatsRequest) fun x =>
      [("port_no", .num x.portNo.toNat)] :=
  Spec.struct_understood portStatsRequest_relays portStatsRequest_conforms (by decide)

/-- Struct ofp_port_stats, read by the specification or by `PortStats.ReadFrom`. -/
theorem portStats_understood : Understands PortStats.readFrom (Spec.struct Spec.portStats) fun x =>
      [("port_no", .num x.portNo.toNat), ("rx_packets", .num x.rxPackets.toNat),
       ("tx_packets", .num x.txPackets.toNat), ("rx_bytes", .num x.rxBytes.toNat),
       ("tx_bytes", .num x.txBytes.toNat), ("rx_dropped", .num x.rxDropped.toNat),
       ("tx_dropped", .num x.txDropped.toNat), ("rx_errors", .num x.rxErrors.toNat),
       ("tx_errors", .num x.txErrors.toNat), ("rx_frame_err", .num x.rxFrameErr.toNat),
       ("rx_over_err", .num x.rxOverErr.toNat), ("rx_crc_err", .num x.rxCrcErr.toNat),
       ("collisions", .num x.collisions.toNat), ("duration_sec", .num x.durationSec.toNat),
       ("duration_nsec", .num x.durationNSec.toNat)] :=
  Spec.struct_understood portStats_relays portStats_conforms (by decide)

/-- Struct ofp_meter_multipart_request, read by the specification or by `MeterConfigRequest.ReadFrom`. -/
theorem meterConfigRequest_understood : Understands MeterConfigRequest.readFrom (Spec.struct Spec.meterMultipartRequest) fun x =>
      [("meter_id", .num x.meter.toNat)] :=
  Spec.struct_understood meterConfigRequest_relays meterConfigRequest_conforms (by decide)

/-- Struct ofp_meter_multipart_request, read by the specification or by `MeterStatsRequest.ReadFrom`. -/
theorem meterStatsRequest_understood : Understands MeterStatsRequest.readFrom (Spec.struct Spec.meterMultipartRequest) fun x =>
      [("meter_id", .num x.meter.toNat)] :=
  Spec.struct_understood meterStatsRequest_relays meterStatsRequest_conforms (by decide)

/-- Struct ofp_meter_features, read by the specification or by `MeterFeatures.ReadFrom`. -/
theorem meterFeatures_understood : Understands MeterFeatures.readFrom (Spec.struct Spec.meterFeatures) fun x =>
      [("max_meter", .num x.maxMeter.toNat), ("band_types", .num x.bandTypes.toNat),
       ("capabilities", .num x.capabilities.toNat), ("max_bands", .num x.maxBands.toNat),
       ("max_color", .num x.maxColor.toNat)] :=
  Spec.struct_understood meterFeatures_relays meterFeatures_conforms (by decide)

/-- Struct ofp_group_stats_request, read by the specification or by `GroupStatsRequest.ReadFrom`. -/
theorem groupStatsRequest_understood : Understands GroupStatsRequest.readFrom (Spec.struct Spec.groupStatsRequest) fun x =>
      [("group_id", .num x.group.toNat)] :=
  Spec.struct_understood groupStatsRequest_relays groupStatsRequest_conforms (by decide)

/-- Struct ofp_group_features, read by the specification or by `GroupFeatures.ReadFrom`. -/
theorem groupFeatures_understood : Understands GroupFeatures.readFrom (Spec.struct Spec.groupFeatures) fun x =>
      [("types", .num x.types.toNat), ("capabilities", .num x.capabilities.toNat),
       ("max_groups[0]", .num x.maxGroups.1.toNat), ("max_groups[1]", .num x.maxGroups.2.1.toNat),
       ("max_groups[2]", .num x.maxGroups.2.2.1.toNat), ("max_groups[3]", .num x.maxGroups.2.2.2.toNat),
       ("actions[0]", .num x.actions.1.toNat), ("actions[1]", .num x.actions.2.1.toNat),
       ("actions[2]", .num x.actions.2.2.1.toNat), ("actions[3]", .num x.actions.2.2.2.toNat)] :=
  Spec.struct_understood groupFeatures_relays groupFeatures_conforms (by decide)

/-- Struct ofp_queue_stats_request, read by the specification or by `QueueStatsRequest.ReadFrom`. -/
theorem queueStatsRequest_understood : Understands QueueStatsRequest.readFrom (Spec.struct Spec.queueStatsRequest) fun x =>
      [("port_no", .num x.port.toNat), ("queue_id", .num x.queue.toNat)] :=
  Spec.struct_understood queueStatsRequest_relays queueStatsRequest_conforms (by decide)

/-- Struct ofp_queue_stats, read by the specification or by `QueueStats.ReadFrom`. -/
theorem queueStats_understood : Understands QueueStats.readFrom (Spec.struct Spec.queueStats) fun x =>
      [("port_no", .num x.port.toNat), ("queue_id", .num x.queue.toNat),
       ("tx_bytes", .num x.txBytes.toNat), ("tx_packets", .num x.txPackets.toNat),
       ("tx_errors", .num x.txErrors.toNat), ("duration_sec", .num x.durationSec.toNat),
       ("duration_nsec", .num x.durationNSec.toNat)] :=
  Spec.struct_understood queueStats_relays queueStats_conforms (by decide)

/-- Struct ofp_queue_get_config_request, read by the specification or by `QueueGetConfigRequest.ReadFrom`. -/
theorem queueGetConfigRequest_understood : Understands QueueGetConfigRequest.readFrom (Spec.struct Spec.queueGetConfigRequest) fun x =>
      [("port", .num x.port.toNat)] :=
  Spec.struct_understood queueGetConfigRequest_relays queueGetConfigRequest_conforms (by decide)

/-- Struct ofp_aggregate_stats_reply, read by the specification or by `AggregateStats.ReadFrom`. -/
theorem aggregateStats_understood : Understands AggregateStats.readFrom (Spec.struct Spec.aggregateStatsReply) fun x =>
      [("packet_count", .num x.packetCount.toNat), ("byte_count", .num x.byteCount.toNat),
       ("flow_count", .num x.flowCount.toNat)] :=
  Spec.struct_understood aggregateStats_relays aggregateStats_conforms (by decide)

/-- Struct ofp_bucket_counter, read by the specification or by `BucketCounter.ReadFrom`. -/
theorem bucketCounter_understood : Understands BucketCounter.readFrom (Spec.struct Spec.bucketCounter) fun x =>
      [("packet_count", .num x.packetCount.toNat), ("byte_count", .num x.byteCount.toNat)] :=
  Spec.struct_understood bucketCounter_relays
    (fun x => by constructor <;> simp [BucketCounter.writeTo, Enc.writeTo, Enc.gather, Spec.bucketCounter, Spec.struct])
    (by decide)

/-- Struct ofp_meter_band_stats, read by the specification or by `MeterBandStats.ReadFrom`. -/
theorem meterBandStats_understood : Understands MeterBandStats.readFrom (Spec.struct Spec.meterBandStats) fun x =>
      [("packet_band_count", .num x.packetBandCount.toNat), ("byte_band_count", .num x.byteBandCount.toNat)] :=
  Spec.struct_understood meterBandStats_relays
    (fun x => by constructor <;> simp [MeterBandStats.writeTo, Enc.writeTo, Enc.gather, Spec.meterBandStats, Spec.struct])
    (by decide)

/-! ## Matches, actions, instructions -/

/-- A match without empty masks. -/
theorem match_understood_partial (b : Bytes) (v : Spec.Match) (h : Spec.matchAt b = some (v, [])) (hm : NoEmptyMask v) :
    ∃ m, Decodes Match.readFrom b m ∧ m.said = v := by
  obtain ⟨x, p, h1, h2, rfl, h3⟩ := matchAt_inv h hm
  rw [List.append_nil]
  exact ⟨x, (match_reserved x h1 p h3).1, h2⟩

/-- A masked field, and padding that is not zero. -/
example : Spec.matchAt [0, 1, 0, 12, 0x80, 0, 5, 4, 1, 2, 3, 4, 9, 9, 9, 9] =
    some (⟨1, [⟨0x8000, 2, [1, 2], some [3, 4]⟩]⟩, []) ∧ NoEmptyMask ⟨1, [⟨0x8000, 2, [1, 2], some [3, 4]⟩]⟩ := by
  decide +kernel

/-- A list of actions other than OFPAT_POP_PBB and without empty masks. -/
theorem actions_understood_partial (b : Bytes) (vs : List Spec.Action) (h : Spec.actions b = some vs)
    (hk : ∀ v ∈ vs, v.Known) : ∃ as, DecodesAll Actions.readFrom b as ∧ as.map Action.said = vs := by
  obtain ⟨xs, h1, h2, h3⟩ := actions_inv h hk
  exact ⟨xs, (actions_reserved xs h1 b h3).1, h2⟩

/-- An output and a set-field action, and padding that is not zero. -/
example : ∃ v, Spec.actions ([0, 0, 0, 16, 0, 0, 0, 3, 0, 128, 1, 2, 3, 4, 5, 6] ++
      [0, 25, 0, 16, 0x80, 0, 0, 4, 0, 0, 0, 7, 9, 9, 9, 9]) = some v ∧ (∀ a ∈ v, a.Known) ∧
    v.map Spec.Action.name = ["OFPAT_OUTPUT", "OFPAT_SET_FIELD"] :=
  reads (by decide +kernel)

/-- A list of instructions with such actions. -/
theorem instructions_understood_partial (b : Bytes) (vs : List Spec.Instruction) (h : Spec.instructions b = some vs)
    (hk : ∀ v ∈ vs, v.Known) :
    ∃ is, DecodesAllFrom Instructions.readFrom [] b is ∧ is.map Instruction.said = vs := by
  obtain ⟨xs, h1, h2, h3⟩ := instructions_inv h hk
  exact ⟨xs, (instructions_reserved xs h1 b h3).1, h2⟩

example : ∃ v, Spec.instructions ([0, 1, 0, 8, 5, 9, 9, 9] ++ ([0, 4, 0, 24, 9, 9, 9, 9] ++
      [0, 0, 0, 16, 0, 0, 0, 3, 0, 128, 1, 2, 3, 4, 5, 6])) = some v ∧ (∀ i ∈ v, i.Known) ∧
    v.map Spec.Instruction.name = ["OFPIT_GOTO_TABLE", "OFPIT_APPLY_ACTIONS"] :=
  reads (by decide +kernel)

/-! ## Flows -/

/-- Struct ofp_flow_mod. -/
theorem flowMod_understood_partial (b : Bytes) (v : Spec.Record × Spec.Match × List Spec.Instruction)
    (h : Spec.withFlow Spec.flowModHead b = some v) (hm : NoEmptyMask v.2.1) (hk : ∀ i ∈ v.2.2, i.Known) :
    ∃ f, DecodesAll FlowMod.readFrom b f ∧ flowModSaid f = v := by
  unfold Spec.withFlow at h
  simp only [Option.bind_eq_bind, Option.bind_eq_some_iff, Option.pure_def, Option.some.injEq, Prod.exists] at h
  obtain ⟨r, b', hr, m, b'', hma, is, his, rfl⟩ := h
  obtain ⟨x, q, m1, m2, rfl, m3⟩ := matchAt_inv hma hm
  obtain ⟨xs, i1, i2, i3⟩ := instructions_inv his hk
  obtain ⟨v1, _, _, rfl, hr1, rfl⟩ := Spec.read_u64_inv hr
  obtain ⟨v2, _, _, rfl, hr2, rfl⟩ := Spec.read_u64_inv hr1
  obtain ⟨v3, _, _, rfl, hr3, rfl⟩ := Spec.read_u8_inv hr2
  obtain ⟨v4, _, _, rfl, hr4, rfl⟩ := Spec.read_u8_inv hr3
  obtain ⟨v5, _, _, rfl, hr5, rfl⟩ := Spec.read_u16_inv hr4
  obtain ⟨v6, _, _, rfl, hr6, rfl⟩ := Spec.read_u16_inv hr5
  obtain ⟨v7, _, _, rfl, hr7, rfl⟩ := Spec.read_u16_inv hr6
  obtain ⟨v8, _, _, rfl, hr8, rfl⟩ := Spec.read_u32_inv hr7
  obtain ⟨v9, _, _, rfl, hr9, rfl⟩ := Spec.read_u32_inv hr8
  obtain ⟨v10, _, _, rfl, hr10, rfl⟩ := Spec.read_u32_inv hr9
  obtain ⟨v11, _, _, rfl, hr11, rfl⟩ := Spec.read_u16_inv hr10
  obtain ⟨p12, _, rfl, hp12, hr12⟩ := Spec.read_pad_inv hr11
  obtain ⟨rfl, rfl⟩ := Spec.read_nil_inv hr12
  refine ⟨⟨v1, v2, v3, v4, v5, v6, v7, v8, v9, v10, v11, x, xs⟩, (flowMod_reserved _ m1 i1 _ ?_).1, ?_⟩
  · exact Loose.u64 (Loose.u64 (Loose.u8 (Loose.u8 (Loose.u16 (Loose.u16 (Loose.u16 (Loose.u32 (Loose.u32 (Loose.u32 (Loose.u16 (Loose.skip hp12 (Loose.append i3 m3))))))))))))
  · simp [flowModSaid, m2, i2]

example : ∃ v, Spec.withFlow Spec.flowModHead (zeros 38 ++ ([9, 9] ++ ([0, 1, 0, 12, 0x80, 0, 0, 4, 0, 0, 0, 7, 9, 9, 9, 9] ++
      [0, 1, 0, 8, 5, 9, 9, 9]))) = some v ∧ NoEmptyMask v.2.1 ∧ (∀ i ∈ v.2.2, i.Known) ∧
    v.2 = (⟨1, [⟨0x8000, 0, [0, 0, 0, 7], none⟩]⟩, [⟨"OFPIT_GOTO_TABLE", [("table_id", .num 5)], []⟩]) :=
  reads (by decide +kernel)

/-- Struct ofp_flow_removed. -/
theorem flowRemoved_understood_partial (b : Bytes) (v : Spec.Record × Spec.Match)
    (h : Spec.withMatch Spec.flowRemovedHead b = some v) (hm : NoEmptyMask v.2) :
    ∃ f, Decodes FlowRemoved.readFrom b f ∧
      ([("cookie", .num f.cookie.toNat), ("priority", .num f.priority.toNat), ("reason", .num f.reason.toNat),
        ("table_id", .num f.table.toNat), ("duration_sec", .num f.durationSec.toNat),
        ("duration_nsec", .num f.durationNSec.toNat), ("idle_timeout", .num f.idleTimeout.toNat),
        ("hard_timeout", .num f.hardTimeout.toNat), ("packet_count", .num f.packetCount.toNat),
        ("byte_count", .num f.byteCount.toNat)], f.mtch.said) = v := by
  obtain ⟨v, m⟩ := v
  unfold Spec.withMatch at h
  simp only [Option.bind_eq_bind, Option.bind_eq_some_iff, Option.pure_def, Prod.exists] at h
  obtain ⟨r, b', hr, m', b'', hma, h⟩ := h
  split at h
  · rename_i heq
    simp only [Prod.mk.injEq, Option.some.injEq] at heq h
    obtain ⟨rfl, rfl⟩ := heq
    obtain ⟨rfl, rfl⟩ := h
    obtain ⟨x, q, m1, m2, rfl, m3⟩ := matchAt_inv hma hm
    rw [List.append_nil] at hr
    obtain ⟨v1, _, _, rfl, hr1, rfl⟩ := Spec.read_u64_inv hr
    obtain ⟨v2, _, _, rfl, hr2, rfl⟩ := Spec.read_u16_inv hr1
    obtain ⟨v3, _, _, rfl, hr3, rfl⟩ := Spec.read_u8_inv hr2
    obtain ⟨v4, _, _, rfl, hr4, rfl⟩ := Spec.read_u8_inv hr3
    obtain ⟨v5, _, _, rfl, hr5, rfl⟩ := Spec.read_u32_inv hr4
    obtain ⟨v6, _, _, rfl, hr6, rfl⟩ := Spec.read_u32_inv hr5
    obtain ⟨v7, _, _, rfl, hr7, rfl⟩ := Spec.read_u16_inv hr6
    obtain ⟨v8, _, _, rfl, hr8, rfl⟩ := Spec.read_u16_inv hr7
    obtain ⟨v9, _, _, rfl, hr9, rfl⟩ := Spec.read_u64_inv hr8
    obtain ⟨v10, _, _, rfl, hr10, rfl⟩ := Spec.read_u64_inv hr9
    obtain ⟨rfl, rfl⟩ := Spec.read_nil_inv hr10
    refine ⟨⟨v1, v2, v3, v4, v5, v6, v7, v8, v9, v10, x⟩, (flowRemoved_reserved _ m1 _ ?_).1, ?_⟩
    · exact Loose.u64 (Loose.u16 (Loose.u8 (Loose.u8 (Loose.u32 (Loose.u32 (Loose.u16 (Loose.u16 (Loose.u64 (Loose.u64 (m3))))))))))
    · simp [m2]
  · simp at h

example : ∃ v, Spec.withMatch Spec.flowRemovedHead (zeros 40 ++ [0, 1, 0, 12, 0x80, 0, 0, 4, 0, 0, 0, 7, 9, 9, 9, 9]) =
    some v ∧ NoEmptyMask v.2 ∧ v.2.fields.length = 1 :=
  reads (by decide +kernel)

/-- Struct ofp_flow_stats_request. -/
theorem flowStatsRequest_understood_partial (b : Bytes) (v : Spec.Record × Spec.Match)
    (h : Spec.withMatch Spec.flowStatsRequestHead b = some v) (hm : NoEmptyMask v.2) :
    ∃ f, Decodes FlowStatsRequest.readFrom b f ∧
      ([("table_id", .num f.table.toNat), ("out_port", .num f.outPort.toNat), ("out_group", .num f.outGroup.toNat),
        ("cookie", .num f.cookie.toNat), ("cookie_mask", .num f.cookieMask.toNat)], f.mtch.said) = v := by
  obtain ⟨v, m⟩ := v
  unfold Spec.withMatch at h
  simp only [Option.bind_eq_bind, Option.bind_eq_some_iff, Option.pure_def, Prod.exists] at h
  obtain ⟨r, b', hr, m', b'', hma, h⟩ := h
  split at h
  · rename_i heq
    simp only [Prod.mk.injEq, Option.some.injEq] at heq h
    obtain ⟨rfl, rfl⟩ := heq
    obtain ⟨rfl, rfl⟩ := h
    obtain ⟨x, q, m1, m2, rfl, m3⟩ := matchAt_inv hma hm
    rw [List.append_nil] at hr
    obtain ⟨v1, _, _, rfl, hr1, rfl⟩ := Spec.read_u8_inv hr
    obtain ⟨p2, _, rfl, hp2, hr2⟩ := Spec.read_pad_inv hr1
    obtain ⟨v2, _, _, rfl, hr3, rfl⟩ := Spec.read_u32_inv hr2
    obtain ⟨v3, _, _, rfl, hr4, rfl⟩ := Spec.read_u32_inv hr3
    obtain ⟨p5, _, rfl, hp5, hr5⟩ := Spec.read_pad_inv hr4
    obtain ⟨v4, _, _, rfl, hr6, rfl⟩ := Spec.read_u64_inv hr5
    obtain ⟨v5, _, _, rfl, hr7, rfl⟩ := Spec.read_u64_inv hr6
    obtain ⟨rfl, rfl⟩ := Spec.read_nil_inv hr7
    refine ⟨⟨v1, v2, v3, v4, v5, x⟩, (flowStatsRequest_reserved _ m1 _ ?_).1, ?_⟩
    · exact Loose.u8 (Loose.skip hp2 (Loose.u32 (Loose.u32 (Loose.skip hp5 (Loose.u64 (Loose.u64 (m3)))))))
    · simp [m2]
  · simp at h

/-- Struct ofp_aggregate_stats_request. -/
theorem aggregateStatsRequest_understood_partial (b : Bytes) (v : Spec.Record × Spec.Match)
    (h : Spec.withMatch Spec.flowStatsRequestHead b = some v) (hm : NoEmptyMask v.2) :
    ∃ f, Decodes AggregateStatsRequest.readFrom b f ∧
      ([("table_id", .num f.table.toNat), ("out_port", .num f.outPort.toNat), ("out_group", .num f.outGroup.toNat),
        ("cookie", .num f.cookie.toNat), ("cookie_mask", .num f.cookieMask.toNat)], f.mtch.said) = v := by
  obtain ⟨v, m⟩ := v
  unfold Spec.withMatch at h
  simp only [Option.bind_eq_bind, Option.bind_eq_some_iff, Option.pure_def, Prod.exists] at h
  obtain ⟨r, b', hr, m', b'', hma, h⟩ := h
  split at h
  · rename_i heq
    simp only [Prod.mk.injEq, Option.some.injEq] at heq h
    obtain ⟨rfl, rfl⟩ := heq
    obtain ⟨rfl, rfl⟩ := h
    obtain ⟨x, q, m1, m2, rfl, m3⟩ := matchAt_inv hma hm
    rw [List.append_nil] at hr
    obtain ⟨v1, _, _, rfl, hr1, rfl⟩ := Spec.read_u8_inv hr
    obtain ⟨p2, _, rfl, hp2, hr2⟩ := Spec.read_pad_inv hr1
    obtain ⟨v2, _, _, rfl, hr3, rfl⟩ := Spec.read_u32_inv hr2
    obtain ⟨v3, _, _, rfl, hr4, rfl⟩ := Spec.read_u32_inv hr3
    obtain ⟨p5, _, rfl, hp5, hr5⟩ := Spec.read_pad_inv hr4
    obtain ⟨v4, _, _, rfl, hr6, rfl⟩ := Spec.read_u64_inv hr5
    obtain ⟨v5, _, _, rfl, hr7, rfl⟩ := Spec.read_u64_inv hr6
    obtain ⟨rfl, rfl⟩ := Spec.read_nil_inv hr7
    refine ⟨⟨v1, v2, v3, v4, v5, x⟩, (aggregateStatsRequest_reserved _ m1 _ ?_).1, ?_⟩
    · exact Loose.u8 (Loose.skip hp2 (Loose.u32 (Loose.u32 (Loose.skip hp5 (Loose.u64 (Loose.u64 (m3)))))))
    · simp [m2]
  · simp at h

example : ∃ v, Spec.withMatch Spec.flowStatsRequestHead (1 :: [9, 9, 9] ++ (zeros 28 ++
      [0, 1, 0, 12, 0x80, 0, 0, 4, 0, 0, 0, 7, 9, 9, 9, 9])) =
    some v ∧ NoEmptyMask v.2 ∧ v.2.fields.length = 1 :=
  reads (by decide +kernel)

/-- Struct ofp_flow_stats, an entry of a multipart body: its length is that of the entry. -/
theorem flowStats_understood_partial (b : Bytes) (v : Spec.Record × Spec.Match × List Spec.Instruction)
    (hl : Spec.u16 0 b = b.length)
    (h : Spec.withFlow Spec.flowStatsHead b = some v) (hm : NoEmptyMask v.2.1) (hk : ∀ i ∈ v.2.2, i.Known) :
    ∃ f, Decodes FlowStats.readFrom b f ∧ flowStatsSaid b.length f = v := by
  unfold Spec.withFlow at h
  simp only [Option.bind_eq_bind, Option.bind_eq_some_iff, Option.pure_def, Option.some.injEq, Prod.exists] at h
  obtain ⟨r, b', hr, m, b'', hma, is, his, rfl⟩ := h
  obtain ⟨x, q, m1, m2, rfl, m3⟩ := matchAt_inv hma hm
  obtain ⟨xs, i1, i2, i3⟩ := instructions_inv his hk
  obtain ⟨n, _, _, rfl, hr1, rfl⟩ := Spec.read_u16_inv hr
  obtain ⟨v1, _, _, rfl, hr2, rfl⟩ := Spec.read_u8_inv hr1
  obtain ⟨p3, _, rfl, hp3, hr3⟩ := Spec.read_pad_inv hr2
  obtain ⟨v2, _, _, rfl, hr4, rfl⟩ := Spec.read_u32_inv hr3
  obtain ⟨v3, _, _, rfl, hr5, rfl⟩ := Spec.read_u32_inv hr4
  obtain ⟨v4, _, _, rfl, hr6, rfl⟩ := Spec.read_u16_inv hr5
  obtain ⟨v5, _, _, rfl, hr7, rfl⟩ := Spec.read_u16_inv hr6
  obtain ⟨v6, _, _, rfl, hr8, rfl⟩ := Spec.read_u16_inv hr7
  obtain ⟨v7, _, _, rfl, hr9, rfl⟩ := Spec.read_u16_inv hr8
  obtain ⟨p10, _, rfl, hp10, hr10⟩ := Spec.read_pad_inv hr9
  obtain ⟨v8, _, _, rfl, hr11, rfl⟩ := Spec.read_u64_inv hr10
  obtain ⟨v9, _, _, rfl, hr12, rfl⟩ := Spec.read_u64_inv hr11
  obtain ⟨v10, _, _, rfl, hr13, rfl⟩ := Spec.read_u64_inv hr12
  obtain ⟨rfl, rfl⟩ := Spec.read_nil_inv hr13
  rw [Spec.u16_zero] at hl
  have hlt := n.toNat_lt
  have hL : (FlowStats.writeTo ⟨v1, v2, v3, v4, v5, v6, v7, v8, v9, v10, x, xs⟩).out.length = n.toNat := by
    have e1 := (match_packet_layout x m1).length
    have e2 := (instructions_packet_layout xs i1).length
    have e3 := m3.length
    have e4 := i3.length
    rw [hl, FlowStats.out_eq]
    simp [e1, e2, e3, e4]
    omega
  refine ⟨⟨v1, v2, v3, v4, v5, v6, v7, v8, v9, v10, x, xs⟩, (flowStats_reserved _ m1 i1 (by omega) _ ?_).1, ?_⟩
  · rw [List.append_assoc]
    exact Loose.num16 hL.symm (Loose.u8 (Loose.skip hp3 (Loose.u32 (Loose.u32 (Loose.u16 (Loose.u16 (Loose.u16 (Loose.u16 (Loose.skip hp10 (Loose.u64 (Loose.u64 (Loose.u64 (Loose.append i3 m3)))))))))))))
  · simp only [flowStatsSaid, m2, i2, ← hl]

example : ∃ b v, Spec.withFlow Spec.flowStatsHead b = some v ∧ Spec.u16 0 b = b.length ∧ NoEmptyMask v.2.1 ∧
    (∀ i ∈ v.2.2, i.Known) ∧ v.2 = (⟨1, [⟨0x8000, 0, [0, 0, 0, 7], none⟩]⟩,
      [⟨"OFPIT_GOTO_TABLE", [("table_id", .num 5)], []⟩]) :=
  ⟨[0, 72, 1, 9] ++ (zeros 44 ++ ([0, 1, 0, 12, 0x80, 0, 0, 4, 0, 0, 0, 7, 9, 9, 9, 9] ++ [0, 1, 0, 8, 5, 9, 9, 9])), reads (by decide +kernel)⟩

/-! ## Packets -/

/-- Struct ofp_packet_in. -/
theorem packetIn_understood_partial (b : Bytes) (v : Spec.Record × Spec.Match × Bytes)
    (h : Spec.packetIn b = some v) (hm : NoEmptyMask v.2.1) :
    ∃ p, DecodesAll PacketIn.readFrom b p ∧
      ([("buffer_id", .num p.buffer.toNat), ("total_len", .num p.length.toNat), ("reason", .num p.reason.toNat),
        ("table_id", .num p.table.toNat), ("cookie", .num p.cookie.toNat)], p.mtch.said, p.data) = v := by
  unfold Spec.packetIn at h
  simp only [Option.bind_eq_bind, Option.bind_eq_some_iff, Option.pure_def, Option.some.injEq, Prod.exists] at h
  obtain ⟨r, b', hr, m, b'', hma, _, data, hd, rfl⟩ := h
  obtain ⟨x, q, m1, m2, rfl, m3⟩ := matchAt_inv hma hm
  obtain ⟨pd, data, rfl, hpd, hd⟩ := Spec.read_pad_inv hd
  obtain ⟨rfl, rfl⟩ := Spec.read_nil_inv hd
  obtain ⟨v1, _, _, rfl, hr1, rfl⟩ := Spec.read_u32_inv hr
  obtain ⟨v2, _, _, rfl, hr2, rfl⟩ := Spec.read_u16_inv hr1
  obtain ⟨v3, _, _, rfl, hr3, rfl⟩ := Spec.read_u8_inv hr2
  obtain ⟨v4, _, _, rfl, hr4, rfl⟩ := Spec.read_u8_inv hr3
  obtain ⟨v5, b', _, rfl, hr5, rfl⟩ := Spec.read_u64_inv hr4
  obtain ⟨rfl, rfl⟩ := Spec.read_nil_inv hr5
  refine ⟨⟨v1, v2, v3, v4, v5, x, data⟩, (packetIn_reserved _ m1 _ ?_).1, by simp only [m2]⟩
  · have hE := Loose.bytes (s := data) Loose.nil
    rw [List.append_nil] at hE
    exact Loose.u32 (Loose.u16 (Loose.u8 (Loose.u8 (Loose.u64 (Loose.append (Loose.skip hpd hE) m3)))))

example : ∃ v, Spec.packetIn (zeros 16 ++ ([0, 1, 0, 12, 0x80, 0, 0, 4, 0, 0, 0, 7, 9, 9, 9, 9] ++ [8, 8, 1, 2, 3])) =
    some v ∧ NoEmptyMask v.2.1 ∧ v.2.2 = [1, 2, 3] :=
  reads (by decide +kernel)

/-- Struct ofp_packet_out. -/
theorem packetOut_understood_partial (b : Bytes) (v : Spec.Record × List Spec.Action × Bytes)
    (h : Spec.packetOut b = some v) (hk : ∀ a ∈ v.2.1, a.Known) :
    ∃ p, DecodesAll PacketOut.readFrom b p ∧
      ([("buffer_id", .num p.buffer.toNat), ("in_port", .num p.inPort.toNat),
        ("actions_len", .num (p.actions.map Action.size).sum)], p.actions.map Action.said, p.data) = v := by
  unfold Spec.packetOut at h
  simp only [Option.bind_eq_bind, Option.bind_eq_some_iff, Option.pure_def, Prod.exists] at h
  obtain ⟨r, b', hr, h⟩ := h
  split at h
  · rename_i hle
    simp only [Option.bind_eq_some_iff, Option.some.injEq] at h
    obtain ⟨as, has, rfl⟩ := h
    obtain ⟨v1, _, _, rfl, hr1, rfl⟩ := Spec.read_u32_inv hr
    obtain ⟨v2, _, _, rfl, hr2, rfl⟩ := Spec.read_u32_inv hr1
    obtain ⟨n, _, _, rfl, hr3, rfl⟩ := Spec.read_u16_inv hr2
    obtain ⟨p4, b', rfl, hp4, hr4⟩ := Spec.read_pad_inv hr3
    obtain ⟨rfl, rfl⟩ := Spec.read_nil_inv hr4
    have hn : Spec.u16 8 (be v1 ++ (be v2 ++ (be n ++ (p4 ++ b')))) = n.toNat := by
      have := Spec.u16_zero n (p4 ++ b')
      simp only [Spec.u16, List.drop_zero] at this ⊢
      rw [← this]
      simp [List.drop_append, List.drop_of_length_le]
    rw [hn] at hle has hk ⊢
    obtain ⟨xs, x1, x2, x3⟩ := actions_inv has hk
    obtain ⟨y1, y2⟩ := actions_length x1 x3
    have hlt := n.toNat_lt
    have hb : b' = b'.take n.toNat ++ b'.drop n.toNat := by simp
    have ht : (b'.take n.toNat).length = n.toNat := by simp; omega
    refine ⟨⟨v1, v2, xs, b'.drop n.toNat⟩, (packetOut_reserved _ x1 (by simp only; omega) _ ?_).1, ?_⟩
    · have hE := Loose.bytes (s := b'.drop n.toNat) Loose.nil
      rw [List.append_nil] at hE
      have hA := Loose.append hE x3
      rw [← hb] at hA
      exact Loose.u32 (Loose.u32 (Loose.num16 (by simp only; omega) (Loose.skip hp4 (hA))))
    · simp [x2, y2, ht]
  · simp at h

example : ∃ v, Spec.packetOut (zeros 8 ++ ([0, 16, 9, 9, 9, 9, 9, 9] ++
      ([0, 0, 0, 16, 0, 0, 0, 3, 0, 128, 1, 2, 3, 4, 5, 6] ++ [1, 2, 3]))) = some v ∧ (∀ a ∈ v.2.1, a.Known) ∧
    v.2.1.length = 1 ∧ v.2.2 = [1, 2, 3] :=
  reads (by decide +kernel)

/-! ## Groups -/

private theorem bucket_inv (b : Bytes) (v : Spec.Record × List Spec.Action) (h : Spec.bucket b = some v)
    (hk : ∀ a ∈ v.2, a.Known) (hl : Spec.u16 0 b = b.length) :
    ∃ x : Bucket, ((∀ a ∈ x.actions, a.Valid) ∧ x.writeTo.out.length ≤ 65535) ∧ bucketSaid x = v ∧
      Loose b (BucketPacket x) := by
  unfold Spec.bucket at h
  simp only [Option.bind_eq_bind, Option.bind_eq_some_iff, Option.pure_def, Option.some.injEq, Prod.exists] at h
  obtain ⟨r, b', hr, as, has, rfl⟩ := h
  obtain ⟨xs, x1, x2, x3⟩ := actions_inv has hk
  obtain ⟨y1, y2⟩ := actions_length x1 x3
  obtain ⟨n, _, _, rfl, hr1, rfl⟩ := Spec.read_u16_inv hr
  obtain ⟨v1, _, _, rfl, hr2, rfl⟩ := Spec.read_u16_inv hr1
  obtain ⟨v2, _, _, rfl, hr3, rfl⟩ := Spec.read_u32_inv hr2
  obtain ⟨v3, _, _, rfl, hr4, rfl⟩ := Spec.read_u32_inv hr3
  obtain ⟨p5, b', rfl, hp5, hr5⟩ := Spec.read_pad_inv hr4
  obtain ⟨rfl, rfl⟩ := Spec.read_nil_inv hr5
  rw [Spec.u16_zero] at hl
  have hlt := n.toNat_lt
  have hn : n.toNat = 16 + b'.length := by rw [hl]; simp; omega
  refine ⟨⟨v1, v2, v3, xs⟩, ⟨x1, ?_⟩, ?_, ?_⟩
  · have := Bucket.bytes_length ⟨v1, v2, v3, xs⟩
    rw [Bucket.bytes] at this
    rw [this, Bucket.size, y2]; omega
  · simp [bucketSaid, x2, y2, hn]
  · exact Loose.num16 (by simp only; omega) (Loose.u16 (Loose.u32 (Loose.u32 (Loose.skip hp5 (x3)))))

private theorem buckets_inv {b : Bytes} {vs : List (Spec.Record × List Spec.Action)} (h : Spec.buckets b = some vs)
    (hk : ∀ v ∈ vs, ∀ a ∈ v.2, a.Known) :
    ∃ xs : List Bucket, (∀ x ∈ xs, (∀ a ∈ x.actions, a.Valid) ∧ x.writeTo.out.length ≤ 65535) ∧
      xs.map bucketSaid = vs ∧ Loose b (xs.flatMap BucketPacket) :=
  Spec.list_inv (P := fun v => ∀ a ∈ v.2, a.Known) bucket_inv h hk

/-- Struct ofp_bucket, an entry of a list of buckets: its length is that of the entry. -/
theorem bucket_understood_partial (b : Bytes) (v : Spec.Record × List Spec.Action) (h : Spec.bucket b = some v)
    (hl : Spec.u16 0 b = b.length) (hk : ∀ a ∈ v.2, a.Known) :
    ∃ x, Decodes Bucket.readFrom b x ∧ bucketSaid x = v := by
  obtain ⟨x, ⟨h1, h2⟩, h3, h4⟩ := bucket_inv b v h hk hl
  exact ⟨x, (bucket_reserved x h1 h2 b h4).1, h3⟩

/-- Struct ofp_group_mod; missing: the buckets, for which the decoder leaves those of the receiver
(`groupMod_understood_false`). -/
theorem groupMod_understood_partial (s : GroupMod) (b : Bytes) (v : Spec.Record × List (Spec.Record × List Spec.Action))
    (h : Spec.groupMod b = some v) (hk : ∀ c ∈ v.2, ∀ a ∈ c.2, a.Known) :
    ∃ g : GroupMod, DecodesAllFrom GroupMod.readFrom s b { g with buckets := s.buckets } ∧
      ([("command", .num g.command.toNat), ("type", .num g.type.toNat), ("group_id", .num g.group.toNat)],
        g.buckets.map bucketSaid) = v := by
  unfold Spec.groupMod at h
  simp only [Option.bind_eq_bind, Option.bind_eq_some_iff, Option.pure_def, Option.some.injEq, Prod.exists] at h
  obtain ⟨r, b', hr, bs, hbs, rfl⟩ := h
  obtain ⟨xs, x1, x2, x3⟩ := buckets_inv hbs hk
  obtain ⟨v1, _, _, rfl, hr1, rfl⟩ := Spec.read_u16_inv hr
  obtain ⟨v2, _, _, rfl, hr2, rfl⟩ := Spec.read_u8_inv hr1
  obtain ⟨p3, _, rfl, hp3, hr3⟩ := Spec.read_pad_inv hr2
  obtain ⟨v3, b', _, rfl, hr4, rfl⟩ := Spec.read_u32_inv hr3
  obtain ⟨rfl, rfl⟩ := Spec.read_nil_inv hr4
  refine ⟨⟨v1, v2, v3, xs⟩, groupMod_reserved_partial _ s x1 _ ?_, ?_⟩
  · exact Loose.u16 (Loose.u8 (Loose.skip hp3 (Loose.u32 (x3))))
  · simp [x2]

example : ∃ v, Spec.groupMod ([0, 0, 1, 9, 0, 0, 0, 1] ++ ([0, 32, 0, 1, 0, 0, 0, 2, 0, 0, 0, 3, 9, 9, 9, 9] ++
      [0, 0, 0, 16, 0, 0, 0, 3, 0, 128, 1, 2, 3, 4, 5, 6])) = some v ∧ (∀ c ∈ v.2, ∀ a ∈ c.2, a.Known) ∧
    v.2.map (fun c => c.2.map Spec.Action.name) = [["OFPAT_OUTPUT"]] :=
  reads (by decide +kernel)

/-- Struct ofp_group_desc, an entry of a multipart body; missing: the buckets. -/
theorem groupDescStats_understood_partial (s : GroupDescStats) (b : Bytes) (v : Spec.Record × List (Spec.Record × List Spec.Action))
    (h : Spec.groupDesc b = some v) (hl : Spec.u16 0 b = b.length) (hk : ∀ c ∈ v.2, ∀ a ∈ c.2, a.Known) :
    ∃ g : GroupDescStats, DecodesFrom GroupDescStats.readFrom s b { g with buckets := s.buckets } ∧
      ([("length", .num b.length), ("type", .num g.type.toNat), ("group_id", .num g.group.toNat)],
        g.buckets.map bucketSaid) = v := by
  unfold Spec.groupDesc at h
  simp only [Option.bind_eq_bind, Option.bind_eq_some_iff, Option.pure_def, Option.some.injEq, Prod.exists] at h
  obtain ⟨r, b', hr, bs, hbs, rfl⟩ := h
  obtain ⟨xs, x1, x2, x3⟩ := buckets_inv hbs hk
  obtain ⟨n, _, _, rfl, hr1, rfl⟩ := Spec.read_u16_inv hr
  obtain ⟨v2, _, _, rfl, hr2, rfl⟩ := Spec.read_u8_inv hr1
  obtain ⟨p3, _, rfl, hp3, hr3⟩ := Spec.read_pad_inv hr2
  obtain ⟨v3, b', _, rfl, hr4, rfl⟩ := Spec.read_u32_inv hr3
  obtain ⟨rfl, rfl⟩ := Spec.read_nil_inv hr4
  rw [Spec.u16_zero] at hl
  have hlt := n.toNat_lt
  have hB : (Buckets.bytes xs).length = b'.length := by
    rw [x3.length]
    exact (Layout.flatMap (enc := Bucket.bytes) xs fun x hx => bucket_packet_layout x ⟨(x1 x hx).1, by
      rw [← Bucket.bytes_length]; exact (x1 x hx).2⟩).length
  have hL : (GroupDescStats.writeTo ⟨v2, v3, xs⟩).out.length = n.toNat := by
    rw [hl, GroupDescStats.out_eq]; simp [hB]; omega
  refine ⟨⟨v2, v3, xs⟩, groupDescStats_reserved_partial _ s (fun x hx => (x1 x hx).1) (by omega) _ ?_, ?_⟩
  · exact Loose.num16 hL.symm (Loose.u8 (Loose.skip hp3 (Loose.u32 (x3))))
  · simp only [x2, ← hl]

example : ∃ b v, Spec.groupDesc b = some v ∧ Spec.u16 0 b = b.length ∧ (∀ c ∈ v.2, ∀ a ∈ c.2, a.Known) ∧
    v.2.map (fun c => c.2.map Spec.Action.name) = [["OFPAT_OUTPUT"]] :=
  ⟨[0, 40, 1, 9, 0, 0, 0, 1] ++ ([0, 32, 0, 1, 0, 0, 0, 2, 0, 0, 0, 3, 9, 9, 9, 9] ++
      [0, 0, 0, 16, 0, 0, 0, 3, 0, 128, 1, 2, 3, 4, 5, 6]), reads (by decide +kernel)⟩

private theorem chunks_inv {α β : Type} {k : Nat} {f : Bytes → Option β} {g : α → β} {w : α → Bytes}
    (h1 : ∀ b y, f b = some y → ∃ x, g x = y ∧ b = w x) :
    ∀ (fuel : Nat) (b : Bytes) (bs : List Bytes) (ys : List β), Spec.chunksFuel k fuel b = some bs →
      Spec.each f bs = some ys → ∃ xs : List α, xs.map g = ys ∧ b = xs.flatMap w := by
  intro fuel b bs
  induction bs generalizing fuel b with
  | nil =>
    intro ys h h2
    have hb : b = [] := by
      cases fuel with
      | zero => simp only [Spec.chunksFuel] at h; split at h <;> simp_all
      | succ n =>
        simp only [Spec.chunksFuel] at h
        split at h
        · assumption
        · split at h
          · simp at h
          · simp at h
    simp only [Spec.each, Option.some.injEq] at h2
    exact ⟨[], by simpa using h2, by simpa using hb⟩
  | cons c cs ih =>
    intro ys h h2
    cases fuel with
    | zero => simp only [Spec.chunksFuel] at h; split at h <;> simp at h
    | succ n =>
      simp only [Spec.chunksFuel] at h
      split at h
      · simp at h
      split at h
      · simp only [Option.map_eq_some_iff, List.cons.injEq] at h
        obtain ⟨bs', h3, rfl, rfl⟩ := h
        obtain ⟨y, ys', rfl, hy, hys⟩ := Spec.each_cons_inv h2
        obtain ⟨x, rfl, hx⟩ := h1 _ _ hy
        obtain ⟨xs, rfl, hxs⟩ := ih _ _ _ h3 hys
        refine ⟨x :: xs, rfl, ?_⟩
        rw [List.flatMap_cons, ← hx, ← hxs, List.take_append_drop]
      · simp at h

private theorem array_inv {α β : Type} {k : Nat} {f : Bytes → Option β} {g : α → β} {w : α → Bytes}
    (h1 : ∀ b y, f b = some y → ∃ x, g x = y ∧ b = w x) {b : Bytes} {ys : List β}
    (h : Spec.array k f b = some ys) : ∃ xs : List α, xs.map g = ys ∧ b = xs.flatMap w := by
  unfold Spec.array at h
  rw [Option.bind_eq_some_iff] at h
  obtain ⟨bs, h2, h3⟩ := h
  exact chunks_inv h1 _ _ _ _ h2 h3

private theorem sixteens {α : Type} (xs : List α) : (xs.map fun _ => 16).sum = 16 * xs.length := by
  induction xs with
  | nil => rfl
  | cons x xs ih => rw [List.map_cons, List.sum_cons, ih, List.length_cons]; omega

private theorem pair_inv {m n : String} {α : Type} {mk : UInt64 → UInt64 → α} {g : α → Spec.Record} {w : α → Bytes}
    (hg : ∀ x y, g (mk x y) = [(m, .num x.toNat), (n, .num y.toNat)]) (hw : ∀ x y, w (mk x y) = be x ++ be y)
    (b : Bytes) (v : Spec.Record) (h : Spec.struct [.num m 8, .num n 8] b = some v) : ∃ x, g x = v ∧ b = w x := by
  unfold Spec.struct at h
  split at h
  · rename_i hr
    simp only [Option.some.injEq] at h
    subst h
    obtain ⟨x, _, _, rfl, hr1, rfl⟩ := Spec.read_u64_inv hr
    obtain ⟨y, _, _, rfl, hr2, rfl⟩ := Spec.read_u64_inv hr1
    obtain ⟨rfl, rfl⟩ := Spec.read_nil_inv hr2
    exact ⟨mk x y, hg x y, by rw [hw]; simp⟩
  · simp at h

/-- Struct ofp_group_stats, an entry of a multipart body; missing: the counters of the buckets. -/
theorem groupStats_understood_partial (s : GroupStats) (b : Bytes) (v : Spec.Record × List Spec.Record)
    (h : Spec.groupStats b = some v) (hl : Spec.u16 0 b = b.length) :
    ∃ g : GroupStats, DecodesFrom GroupStats.readFrom s b { g with bucketStats := s.bucketStats } ∧
      ([("length", .num b.length), ("group_id", .num g.group.toNat),
        ("ref_count", .num g.refCount.toNat), ("packet_count", .num g.packetCount.toNat),
        ("byte_count", .num g.byteCount.toNat), ("duration_sec", .num g.durationSec.toNat),
        ("duration_nsec", .num g.durationNSec.toNat)],
        g.bucketStats.map fun c => [("packet_count", .num c.packetCount.toNat), ("byte_count", .num c.byteCount.toNat)])
        = v := by
  unfold Spec.groupStats at h
  simp only [Option.bind_eq_bind, Option.bind_eq_some_iff, Option.pure_def, Option.some.injEq, Prod.exists] at h
  obtain ⟨r, b', hr, cs, hcs, rfl⟩ := h
  obtain ⟨xs, rfl, rfl⟩ := array_inv (pair_inv (mk := BucketCounter.mk)
    (g := fun c => [("packet_count", .num c.packetCount.toNat), ("byte_count", .num c.byteCount.toNat)])
    (w := fun c => be c.packetCount ++ be c.byteCount) (fun _ _ => rfl) (fun _ _ => rfl)) hcs
  obtain ⟨n, _, _, rfl, hr1, rfl⟩ := Spec.read_u16_inv hr
  obtain ⟨p2, _, rfl, hp2, hr2⟩ := Spec.read_pad_inv hr1
  obtain ⟨v1, _, _, rfl, hr3, rfl⟩ := Spec.read_u32_inv hr2
  obtain ⟨v2, _, _, rfl, hr4, rfl⟩ := Spec.read_u32_inv hr3
  obtain ⟨p5, _, rfl, hp5, hr5⟩ := Spec.read_pad_inv hr4
  obtain ⟨v3, _, _, rfl, hr6, rfl⟩ := Spec.read_u64_inv hr5
  obtain ⟨v4, _, _, rfl, hr7, rfl⟩ := Spec.read_u64_inv hr6
  obtain ⟨v5, _, _, rfl, hr8, rfl⟩ := Spec.read_u32_inv hr7
  obtain ⟨v6, b', _, rfl, hr9, rfl⟩ := Spec.read_u32_inv hr8
  obtain ⟨rfl, rfl⟩ := Spec.read_nil_inv hr9
  rw [Spec.u16_zero] at hl
  have hlt := n.toNat_lt
  have hn : n.toNat = 40 + 16 * xs.length := by
    rw [hl]; simp [sixteens]; omega
  refine ⟨⟨v1, v2, v3, v4, v5, v6, xs⟩, groupStats_reserved_partial _ s (by simp only; omega) _ ?_, ?_⟩
  · have hE := Loose.bytes (s := xs.flatMap fun c => be c.packetCount ++ be c.byteCount) Loose.nil
    rw [List.append_nil] at hE
    exact Loose.num16 hn (Loose.skip hp2 (Loose.u32 (Loose.u32 (Loose.skip hp5 (Loose.u64 (Loose.u64 (Loose.u32 (Loose.u32 (hE)))))))))
  · simp only [← hl]

example : ∃ b v, Spec.groupStats b = some v ∧ Spec.u16 0 b = b.length ∧ v.2.length = 2 :=
  ⟨[0, 72, 9, 9] ++ zeros 68, reads (by decide +kernel)⟩

/-! ## Meters -/

private theorem band_inv (b : Bytes) (v : String × Spec.Record) (h : Spec.band b = some v) (_ : True)
    (hl : Spec.u16 2 b = b.length) : ∃ x : MeterBand, True ∧ bandSaid x = v ∧ Loose b (MeterBandPacket x) := by
  unfold Spec.band at h
  simp only [Option.bind_eq_bind, Option.bind_eq_some_iff, Option.pure_def, Option.some.injEq, Prod.exists] at h
  obtain ⟨name, ms, hn, r, hr, rfl⟩ := h
  have hms := lookup_mem hn
  have h4 : 4 ≤ b.length := by
    apply Classical.byContradiction
    intro hc
    rw [List.drop_of_length_le (by omega)] at hr
    simp only [Spec.bandStructs, List.mem_cons, Prod.mk.injEq, List.not_mem_nil, or_false] at hms
    rcases hms with ⟨_, _, rfl⟩ | ⟨_, _, rfl⟩ | ⟨_, _, rfl⟩ <;> simp [Spec.struct, Spec.read] at hr
  obtain ⟨t, l, b', rfl, ht, hl', hd⟩ := Spec.head_inv h4
  rw [ht] at hn hms
  rw [hl'] at hl
  rw [hd] at hr
  unfold Spec.struct at hr
  split at hr
  · rename_i hr'
    simp only [Option.some.injEq] at hr
    subst hr
    simp only [Spec.bandStructs, List.mem_cons, Prod.mk.injEq, List.not_mem_nil, or_false] at hms
    rcases hms with ⟨hk, rfl, rfl⟩ | ⟨hk, rfl, rfl⟩ | ⟨hk, rfl, rfl⟩
    · obtain ⟨v1, _, _, rfl, hr1, rfl⟩ := Spec.read_u32_inv hr'
      obtain ⟨v2, _, _, rfl, hr2, rfl⟩ := Spec.read_u32_inv hr1
      obtain ⟨p, _, rfl, hp, hr3⟩ := Spec.read_pad_inv hr2
      obtain ⟨rfl, rfl⟩ := Spec.read_nil_inv hr3
      refine ⟨.drop v1 v2, trivial, rfl, ?_⟩
      exact Loose.num16 hk (Loose.num16 (by rw [hl]; simp [hp]) (Loose.u32 (Loose.u32 (Loose.skip hp Loose.nil))))
    · obtain ⟨v1, _, _, rfl, hr1, rfl⟩ := Spec.read_u32_inv hr'
      obtain ⟨v2, _, _, rfl, hr2, rfl⟩ := Spec.read_u32_inv hr1
      obtain ⟨v3, _, _, rfl, hr3, rfl⟩ := Spec.read_u8_inv hr2
      obtain ⟨p, _, rfl, hp, hr4⟩ := Spec.read_pad_inv hr3
      obtain ⟨rfl, rfl⟩ := Spec.read_nil_inv hr4
      refine ⟨.dscpRemark v1 v2 v3, trivial, rfl, ?_⟩
      exact Loose.num16 hk (Loose.num16 (by rw [hl]; simp [hp])
        (Loose.u32 (Loose.u32 (Loose.u8 (Loose.skip hp Loose.nil)))))
    · obtain ⟨v1, _, _, rfl, hr1, rfl⟩ := Spec.read_u32_inv hr'
      obtain ⟨v2, _, _, rfl, hr2, rfl⟩ := Spec.read_u32_inv hr1
      obtain ⟨v3, _, _, rfl, hr3, rfl⟩ := Spec.read_u32_inv hr2
      obtain ⟨rfl, rfl⟩ := Spec.read_nil_inv hr3
      refine ⟨.experimenter v1 v2 v3, trivial, rfl, ?_⟩
      exact Loose.num16 hk (Loose.num16 (by rw [hl]; simp) (Loose.u32 (Loose.u32 (Loose.u32 Loose.nil))))
  · simp at hr

private theorem bands_inv {b : Bytes} {vs : List (String × Spec.Record)} (h : Spec.bands b = some vs) :
    ∃ xs : List MeterBand, xs.map bandSaid = vs ∧ Loose b (xs.flatMap MeterBandPacket) := by
  obtain ⟨xs, _, h1, h2⟩ := Spec.list_inv (P := fun _ => True) band_inv h (by simp)
  exact ⟨xs, h1, h2⟩

private theorem bands_length (xs : List MeterBand) : width (xs.flatMap MeterBandPacket) = 16 * xs.length := by
  rw [width_flatMap, ← sixteens xs]
  congr 1
  refine List.map_congr_left fun x _ => ?_
  cases x <;> rfl

/-- A meter band of a list, decoded into the value that the factory makes for its type. -/
theorem meterBand_understood (b : Bytes) (v : String × Spec.Record) (h : Spec.band b = some v)
    (hl : Spec.u16 2 b = b.length) :
    ∃ x, (∀ s : MeterBand, s.type = x.type → DecodesFrom MeterBand.readFrom s b x) ∧ bandSaid x = v := by
  obtain ⟨x, _, h2, h3⟩ := band_inv b v h trivial hl
  exact ⟨x, (meterBand_reserved x b h3).1, h2⟩

example : ∃ b, Spec.band b = some ("OFPMBT_DSCP_REMARK", [("rate", .num 5), ("burst_size", .num 6), ("prec_level", .num 7)]) ∧
    Spec.u16 2 b = b.length := ⟨[0, 2, 0, 16, 0, 0, 0, 5, 0, 0, 0, 6, 7, 9, 9, 9], by decide, by decide⟩

/-- Struct ofp_meter_mod; missing: the bands, for which the decoder leaves those of the receiver. -/
theorem meterMod_understood_partial (s : MeterMod) (b : Bytes) (v : Spec.Record × List (String × Spec.Record))
    (h : Spec.meterMod b = some v) :
    ∃ m : MeterMod, DecodesAllFrom MeterMod.readFrom s b { m with bands := s.bands } ∧
      ([("command", .num m.command.toNat), ("flags", .num m.flags.toNat), ("meter_id", .num m.meter.toNat)], m.bands.map bandSaid) = v := by
  unfold Spec.meterMod at h
  simp only [Option.bind_eq_bind, Option.bind_eq_some_iff, Option.pure_def, Option.some.injEq, Prod.exists] at h
  obtain ⟨r, b', hr, bs, hbs, rfl⟩ := h
  obtain ⟨xs, x1, x2⟩ := bands_inv hbs
  obtain ⟨v1, _, _, rfl, hr1, rfl⟩ := Spec.read_u16_inv hr
  obtain ⟨v2, _, _, rfl, hr2, rfl⟩ := Spec.read_u16_inv hr1
  obtain ⟨v3, b', _, rfl, hr3, rfl⟩ := Spec.read_u32_inv hr2
  obtain ⟨rfl, rfl⟩ := Spec.read_nil_inv hr3
  refine ⟨⟨v1, v2, v3, xs⟩, meterMod_reserved_partial _ s _ ?_, by simp only [x1]⟩
  exact Loose.u16 (Loose.u16 (Loose.u32 (x2)))

example : ∃ v, Spec.meterMod ([0, 0, 0, 1, 0, 0, 0, 1] ++ [0, 2, 0, 16, 0, 0, 0, 5, 0, 0, 0, 6, 7, 9, 9, 9]) = some v ∧
    v.2.map Prod.fst = ["OFPMBT_DSCP_REMARK"] :=
  reads (by decide +kernel)

/-- Struct ofp_meter_config, an entry of a multipart body; missing: the bands. -/
theorem meterConfig_understood_partial (s : MeterConfig) (b : Bytes) (v : Spec.Record × List (String × Spec.Record))
    (h : Spec.meterConfig b = some v) (hl : Spec.u16 0 b = b.length) :
    ∃ m : MeterConfig, DecodesFrom MeterConfig.readFrom s b { m with bands := s.bands } ∧
      ([("length", .num b.length), ("flags", .num m.flags.toNat), ("meter_id", .num m.meter.toNat)], m.bands.map bandSaid) = v := by
  unfold Spec.meterConfig at h
  simp only [Option.bind_eq_bind, Option.bind_eq_some_iff, Option.pure_def, Option.some.injEq, Prod.exists] at h
  obtain ⟨r, b', hr, bs, hbs, rfl⟩ := h
  obtain ⟨xs, x1, x2⟩ := bands_inv hbs
  obtain ⟨n, _, _, rfl, hr1, rfl⟩ := Spec.read_u16_inv hr
  obtain ⟨v2, _, _, rfl, hr2, rfl⟩ := Spec.read_u16_inv hr1
  obtain ⟨v3, b', _, rfl, hr3, rfl⟩ := Spec.read_u32_inv hr2
  obtain ⟨rfl, rfl⟩ := Spec.read_nil_inv hr3
  rw [Spec.u16_zero] at hl
  have hlt := n.toNat_lt
  have hn : n.toNat = 8 + 16 * xs.length := by
    have := x2.length
    rw [bands_length] at this
    rw [hl]; simp; omega
  refine ⟨⟨v2, v3, xs⟩, meterConfig_reserved_partial _ s (by simp only; omega) _ ?_, by simp only [x1, ← hl]⟩
  exact Loose.num16 hn (Loose.u16 (Loose.u32 (x2)))

example : ∃ b v, Spec.meterConfig b = some v ∧ Spec.u16 0 b = b.length ∧ v.2.map Prod.fst = ["OFPMBT_DSCP_REMARK"] :=
  ⟨[0, 24, 0, 1, 0, 0, 0, 1] ++ [0, 2, 0, 16, 0, 0, 0, 5, 0, 0, 0, 6, 7, 9, 9, 9], reads (by decide +kernel)⟩

/-- Struct ofp_meter_stats, an entry of a multipart body; missing: the counters of the bands. -/
theorem meterStats_understood_partial (s : MeterStats) (b : Bytes) (v : Spec.Record × List Spec.Record)
    (h : Spec.meterStats b = some v) (hl : Spec.u16 4 b = b.length) :
    ∃ m : MeterStats, DecodesFrom MeterStats.readFrom s b { m with bandStats := s.bandStats } ∧
      ([("meter_id", .num m.meter.toNat), ("len", .num b.length),
        ("flow_count", .num m.flowCount.toNat), ("packet_in_count", .num m.packetInCount.toNat),
        ("byte_in_count", .num m.byteInCount.toNat), ("duration_sec", .num m.durationSec.toNat),
        ("duration_nsec", .num m.durationNSec.toNat)], m.bandStats.map fun c =>
          [("packet_band_count", .num c.packetBandCount.toNat), ("byte_band_count", .num c.byteBandCount.toNat)])
        = v := by
  unfold Spec.meterStats at h
  simp only [Option.bind_eq_bind, Option.bind_eq_some_iff, Option.pure_def, Option.some.injEq, Prod.exists] at h
  obtain ⟨r, b', hr, cs, hcs, rfl⟩ := h
  obtain ⟨xs, rfl, rfl⟩ := array_inv (pair_inv (mk := MeterBandStats.mk)
    (g := fun c => [("packet_band_count", .num c.packetBandCount.toNat),
      ("byte_band_count", .num c.byteBandCount.toNat)])
    (w := fun c => be c.packetBandCount ++ be c.byteBandCount) (fun _ _ => rfl) (fun _ _ => rfl)) hcs
  obtain ⟨v1, _, _, rfl, hr1, rfl⟩ := Spec.read_u32_inv hr
  obtain ⟨n, _, _, rfl, hr2, rfl⟩ := Spec.read_u16_inv hr1
  obtain ⟨p3, _, rfl, hp3, hr3⟩ := Spec.read_pad_inv hr2
  obtain ⟨v2, _, _, rfl, hr4, rfl⟩ := Spec.read_u32_inv hr3
  obtain ⟨v3, _, _, rfl, hr5, rfl⟩ := Spec.read_u64_inv hr4
  obtain ⟨v4, _, _, rfl, hr6, rfl⟩ := Spec.read_u64_inv hr5
  obtain ⟨v5, _, _, rfl, hr7, rfl⟩ := Spec.read_u32_inv hr6
  obtain ⟨v6, b', _, rfl, hr8, rfl⟩ := Spec.read_u32_inv hr7
  obtain ⟨rfl, rfl⟩ := Spec.read_nil_inv hr8
  rw [show Spec.u16 4 = Spec.u16 (4 + 0) from rfl, Spec.u16_skip (k := 4) (by simp), Spec.u16_zero] at hl
  have hlt := n.toNat_lt
  have hn : n.toNat = 40 + 16 * xs.length := by
    rw [hl]; simp [sixteens]; omega
  refine ⟨⟨v1, v2, v3, v4, v5, v6, xs⟩, meterStats_reserved_partial _ s (by simp only; omega) _ ?_, ?_⟩
  · have hE := Loose.bytes (s := xs.flatMap fun c => be c.packetBandCount ++ be c.byteBandCount) Loose.nil
    rw [List.append_nil] at hE
    exact Loose.u32 (Loose.num16 hn (Loose.skip hp3 (Loose.u32 (Loose.u64 (Loose.u64 (Loose.u32 (Loose.u32 (hE))))))))
  · simp only [← hl]

example : ∃ b v, Spec.meterStats b = some v ∧ Spec.u16 4 b = b.length ∧ v.2.length = 1 :=
  ⟨[0, 0, 0, 1, 0, 56, 9, 9, 9, 9, 9, 9] ++ zeros 44, reads (by decide +kernel)⟩

/-! ## Queues -/

private theorem queueProp_inv (b : Bytes) (v : String × Spec.Record × Bytes) (h : Spec.queueProp b = some v) (_ : True)
    (hl : Spec.u16 2 b = b.length) :
    ∃ x : QueueProp, x.Valid ∧ queuePropSaid x = v ∧ Loose b (QueuePropPacket x) := by
  unfold Spec.queueProp at h
  simp only [Option.bind_eq_bind, Option.bind_eq_some_iff, Option.pure_def, Prod.exists] at h
  obtain ⟨name, ms, hn, r, data, hr, h⟩ := h
  split at h
  · rename_i hdt
    simp only [Option.some.injEq] at h
    subst h
    have hms := lookup_mem hn
    have h8 : 8 ≤ b.length := by
      apply Classical.byContradiction
      intro hc
      rw [List.drop_of_length_le (by omega)] at hr
      simp only [Spec.queuePropStructs, List.mem_cons, Prod.mk.injEq, List.not_mem_nil, or_false] at hms
      rcases hms with ⟨_, _, rfl⟩ | ⟨_, _, rfl⟩ | ⟨_, _, rfl⟩ <;> simp [Spec.read] at hr
    have hlt := Spec.u16_lt 2 b
    obtain ⟨t, l, b', rfl, ht, hl', hd⟩ := Spec.head_inv (b := b) (by omega)
    rw [ht] at hn hms hdt
    rw [hl'] at hl hlt
    have hd8 : (be t ++ (be l ++ b')).drop 8 = b'.drop 4 := by
      have := congrArg (List.drop 4) hd
      rwa [List.drop_drop] at this
    rw [hd8] at hr
    have hb : b' = b'.take 4 ++ b'.drop 4 := by simp
    have h4 : (b'.take 4).length = 4 := by simp at h8 ⊢; omega
    generalize b'.take 4 = p at hb h4
    generalize b'.drop 4 = c at hb hr
    subst hb
    simp only [Spec.queuePropStructs, List.mem_cons, Prod.mk.injEq, List.not_mem_nil, or_false] at hms
    rcases hms with ⟨hk, rfl, rfl⟩ | ⟨hk, rfl, rfl⟩ | ⟨hk, rfl, rfl⟩
    · obtain ⟨v1, _, _, rfl, hr1, rfl⟩ := Spec.read_u16_inv hr
      obtain ⟨q, c, rfl, hq, hr2⟩ := Spec.read_pad_inv hr1
      obtain ⟨rfl, rfl⟩ := Spec.read_nil_inv hr2
      obtain rfl : c = [] := by
        rcases hdt with h | h
        · omega
        · exact h
      refine ⟨.minRate v1, by simp [QueueProp.Valid, QueueProp.size], rfl, ?_⟩
      exact Loose.num16 hk (Loose.num16 (by rw [hl]; simp [hq, h4])
        (Loose.skip h4 (Loose.u16 (Loose.skip hq Loose.nil))))
    · obtain ⟨v1, _, _, rfl, hr1, rfl⟩ := Spec.read_u16_inv hr
      obtain ⟨q, c, rfl, hq, hr2⟩ := Spec.read_pad_inv hr1
      obtain ⟨rfl, rfl⟩ := Spec.read_nil_inv hr2
      obtain rfl : c = [] := by
        rcases hdt with h | h
        · omega
        · exact h
      refine ⟨.maxRate v1, by simp [QueueProp.Valid, QueueProp.size], rfl, ?_⟩
      exact Loose.num16 hk (Loose.num16 (by rw [hl]; simp [hq, h4])
        (Loose.skip h4 (Loose.u16 (Loose.skip hq Loose.nil))))
    · obtain ⟨v1, _, _, rfl, hr1, rfl⟩ := Spec.read_u32_inv hr
      obtain ⟨q, c, rfl, hq, hr2⟩ := Spec.read_pad_inv hr1
      obtain ⟨rfl, rfl⟩ := Spec.read_nil_inv hr2
      have hn : l.toNat = 16 + c.length := by rw [hl]; simp [hq, h4]; omega
      refine ⟨.experimenter v1 c, by simp only [QueueProp.Valid, QueueProp.size]; omega, rfl, ?_⟩
      have hE := Loose.bytes (s := c) Loose.nil
      rw [List.append_nil] at hE
      exact Loose.num16 hk (Loose.num16 hn (Loose.skip h4 (Loose.u32 (Loose.skip hq hE))))
  · simp at h

/-- A queue property of a list, decoded into the value that the factory makes for its type. -/
theorem queueProp_understood (b : Bytes) (v : String × Spec.Record × Bytes) (h : Spec.queueProp b = some v)
    (hl : Spec.u16 2 b = b.length) :
    ∃ x, (∀ s : QueueProp, s.type = x.type → DecodesFrom QueueProp.readFrom s b x) ∧ queuePropSaid x = v := by
  obtain ⟨x, h1, h2, h3⟩ := queueProp_inv b v h trivial hl
  exact ⟨x, (queueProp_reserved x (by
    have := QueueProp.bytes_length x
    rw [QueueProp.bytes] at this
    rw [this]; exact h1) b h3).1, h2⟩

example : ∃ b, Spec.queueProp b = some ("OFPQT_MAX_RATE", [("rate", .num 100)], []) ∧ Spec.u16 2 b = b.length :=
  ⟨[0, 2, 0, 16, 9, 9, 9, 9, 0, 100, 1, 2, 3, 4, 5, 6], by decide, by decide⟩

private theorem packetQueue_inv (b : Bytes) (v : Spec.Record × List (String × Spec.Record × Bytes)) (h : Spec.packetQueue b = some v) (_ : True)
    (hl : Spec.u16 8 b = b.length) :
    ∃ x : PacketQueue, x.writeTo.out.length ≤ 65535 ∧ packetQueueSaid x = v ∧ Loose b (PacketQueuePacket x) := by
  have hlt := Spec.u16_lt 8 b
  unfold Spec.packetQueue at h
  simp only [Option.bind_eq_bind, Option.bind_eq_some_iff, Option.pure_def, Option.some.injEq, Prod.exists] at h
  obtain ⟨r, b', hr, ps, hps, rfl⟩ := h
  obtain ⟨xs, x1, x2, x3⟩ := Spec.list_inv (P := fun _ => True) queueProp_inv hps (by simp)
  obtain ⟨v1, _, _, rfl, hr1, rfl⟩ := Spec.read_u32_inv hr
  obtain ⟨v2, _, _, rfl, hr2, rfl⟩ := Spec.read_u32_inv hr1
  obtain ⟨n, _, _, rfl, hr3, rfl⟩ := Spec.read_u16_inv hr2
  obtain ⟨p4, b', rfl, hp4, hr4⟩ := Spec.read_pad_inv hr3
  obtain ⟨rfl, rfl⟩ := Spec.read_nil_inv hr4
  have hu : Spec.u16 8 (be v1 ++ (be v2 ++ (be n ++ (p4 ++ b')))) = n.toNat := by
    have := Spec.u16_zero n (p4 ++ b')
    simp only [Spec.u16, List.drop_zero] at this ⊢
    rw [← this]
    simp [List.drop_append, List.drop_of_length_le]
  rw [hu] at hl hlt
  have hP : (QueueProps.bytes xs).length = b'.length := by
    rw [x3.length]
    exact (Layout.flatMap (enc := QueueProp.bytes) xs fun x hx => (queueProp_packet_layout x (x1 x hx)).2).length
  have hn : n.toNat = 16 + b'.length := by rw [hl]; simp; omega
  have hL : (PacketQueue.writeTo ⟨v1, v2, xs⟩).out.length = n.toNat := by
    have := PacketQueue.bytes_length ⟨v1, v2, xs⟩
    rw [PacketQueue.bytes] at this
    rw [this, PacketQueue.size, ← QueueProps.bytes_length, hP, hn]
  refine ⟨⟨v1, v2, xs⟩, by omega, ?_, ?_⟩
  · rw [QueueProps.bytes_length] at hP
    simp [packetQueueSaid, x2, hP, hn]
  · exact Loose.u32 (Loose.u32 (Loose.num16 hL.symm (Loose.skip hp4 (x3))))

/-- Struct ofp_packet_queue, an entry of a list; missing: the properties, for which the decoder
leaves those of the receiver. -/
theorem packetQueue_understood_partial (s : PacketQueue) (b : Bytes) (v : Spec.Record × List (String × Spec.Record × Bytes))
    (h : Spec.packetQueue b = some v) (hl : Spec.u16 8 b = b.length) :
    ∃ q : PacketQueue, DecodesFrom PacketQueue.readFrom s b { q with properties := s.properties } ∧
      packetQueueSaid q = v := by
  obtain ⟨x, h1, h2, h3⟩ := packetQueue_inv b v h trivial hl
  exact ⟨x, packetQueue_reserved_partial x s h1 b h3, h2⟩

example : ∃ b v, Spec.packetQueue b = some v ∧ Spec.u16 8 b = b.length ∧ v.2.map Prod.fst = ["OFPQT_MAX_RATE"] :=
  ⟨[0, 0, 0, 1, 0, 0, 0, 2, 0, 32, 9, 9, 9, 9, 9, 9] ++ [0, 2, 0, 16, 9, 9, 9, 9, 0, 100, 1, 2, 3, 4, 5, 6], reads (by decide +kernel)⟩

/-- Struct ofp_queue_get_config_reply; missing: the queues. -/
theorem queueGetConfigReply_understood_partial (s : QueueGetConfigReply) (b : Bytes)
    (v : Spec.Record × List (Spec.Record × List (String × Spec.Record × Bytes))) (h : Spec.queueGetConfigReply b = some v) :
    ∃ q : QueueGetConfigReply, DecodesAllFrom QueueGetConfigReply.readFrom s b { q with queues := s.queues } ∧
      ([("port", .num q.port.toNat)], q.queues.map packetQueueSaid) = v := by
  unfold Spec.queueGetConfigReply at h
  simp only [Option.bind_eq_bind, Option.bind_eq_some_iff, Option.pure_def, Option.some.injEq, Prod.exists] at h
  obtain ⟨r, b', hr, qs, hqs, rfl⟩ := h
  obtain ⟨xs, x1, x2, x3⟩ := Spec.list_inv (P := fun _ => True) packetQueue_inv hqs (by simp)
  obtain ⟨v1, _, _, rfl, hr1, rfl⟩ := Spec.read_u32_inv hr
  obtain ⟨p2, b', rfl, hp2, hr2⟩ := Spec.read_pad_inv hr1
  obtain ⟨rfl, rfl⟩ := Spec.read_nil_inv hr2
  refine ⟨⟨v1, xs⟩, queueGetConfigReply_reserved_partial _ s x1 _ ?_, by simp only [x2]⟩
  exact Loose.u32 (Loose.skip hp2 (x3))

example : ∃ v, Spec.queueGetConfigReply ([0, 0, 0, 1, 9, 9, 9, 9] ++ ([0, 0, 0, 1, 0, 0, 0, 2, 0, 32, 9, 9, 9, 9, 9, 9] ++
      [0, 2, 0, 16, 9, 9, 9, 9, 0, 100, 1, 2, 3, 4, 5, 6])) = some v ∧
    v.2.map (fun q => q.2.map Prod.fst) = [["OFPQT_MAX_RATE"]] :=
  reads (by decide +kernel)

/-! ## Ports and descriptions -/

/-- A string in an array of characters: what is in front of the first null. -/
def cstr (s : Bytes) : Bytes := s.takeWhile (· ≠ 0)

theorem read_raw_inv {n : String} {k : Nat} {ms : List Spec.Member} {b t : Bytes} {r : Spec.Record}
    (h : Spec.read (.raw n k :: ms) b = some (r, t)) : ∃ c b' r', b = c ++ b' ∧ c.length = k ∧
      Spec.read ms b' = some (r', t) ∧ r = (n, .bytes c) :: r' := by
  simp only [Spec.read] at h
  split at h
  · rename_i hk
    simp only [Option.map_eq_some_iff, Prod.exists, Prod.mk.injEq] at h
    obtain ⟨r', t', h, rfl, rfl⟩ := h
    exact ⟨b.take k, b.drop k, r', by simp, by simp [hk], h, rfl⟩
  · simp at h

theorem read_text_inv {n : String} {k : Nat} {ms : List Spec.Member} {b t : Bytes} {r : Spec.Record}
    (h : Spec.read (.text n k :: ms) b = some (r, t)) : ∃ c b' r', b = c ++ b' ∧ c.length = k ∧
      Spec.read ms b' = some (r', t) ∧ r = (n, .bytes (cstr c)) :: r' := by
  simp only [Spec.read] at h
  split at h
  · rename_i hk
    simp only [Option.map_eq_some_iff, Prod.exists, Prod.mk.injEq] at h
    obtain ⟨r', t', h, rfl, rfl⟩ := h
    exact ⟨b.take k, b.drop k, r', by simp, by simp [hk], h, rfl⟩
  · simp at h

private theorem struct_inv {ms : List Spec.Member} {b : Bytes} {r : Spec.Record} (h : Spec.struct ms b = some r) :
    Spec.read ms b = some (r, []) := by
  unfold Spec.struct at h
  split at h
  · simp_all
  · simp at h

private theorem port_inv {b : Bytes} {v : Spec.Record} (h : Spec.read Spec.port b = some (v, [])) :
    ∃ p : Port, (∀ s, Reads Port.readFrom s b p) ∧ portSaid { p with name := cstr p.name } = v := by
  unfold Spec.port at h
  obtain ⟨v0, _, _, rfl, h1, rfl⟩ := Spec.read_u32_inv h
  obtain ⟨v1, _, rfl, p1, h2⟩ := Spec.read_pad_inv h1
  obtain ⟨v2, _, _, rfl, p2, h3, rfl⟩ := read_raw_inv h2
  obtain ⟨v3, _, rfl, p3, h4⟩ := Spec.read_pad_inv h3
  obtain ⟨v4, _, _, rfl, p4, h5, rfl⟩ := read_text_inv h4
  obtain ⟨v5, _, _, rfl, h6, rfl⟩ := Spec.read_u32_inv h5
  obtain ⟨v6, _, _, rfl, h7, rfl⟩ := Spec.read_u32_inv h6
  obtain ⟨v7, _, _, rfl, h8, rfl⟩ := Spec.read_u32_inv h7
  obtain ⟨v8, _, _, rfl, h9, rfl⟩ := Spec.read_u32_inv h8
  obtain ⟨v9, _, _, rfl, h10, rfl⟩ := Spec.read_u32_inv h9
  obtain ⟨v10, _, _, rfl, h11, rfl⟩ := Spec.read_u32_inv h10
  obtain ⟨v11, _, _, rfl, h12, rfl⟩ := Spec.read_u32_inv h11
  obtain ⟨v12, _, _, rfl, h13, rfl⟩ := Spec.read_u32_inv h12
  obtain ⟨rfl, rfl⟩ := Spec.read_nil_inv h13
  refine ⟨⟨v0, v2, v4, v5, v6, v7, v8, v9, v10, v11, v12⟩, fun s => ?_, rfl⟩
  unfold Port.readFrom
  refine Reads.withLocal (l' := v4) ?_
  refine Reads.always (f := fun s : Port × Bytes => ({ s.1 with name := s.2 }, s.2))
    (s' := (⟨v0, v2, s.name, v5, v6, v7, v8, v9, v10, v11, v12⟩, v4)) ?_
  unfold Port.fields
  refine Reads.assignCons ?_
  refine Reads.cons (Reads.num _) <| Reads.cons (Reads.skip p1) <| Reads.cons (Reads.bin p2) <|
    Reads.cons (Reads.skip p3) <| Reads.cons (Reads.bin p4) ?_
  readsPad

/-- Struct ofp_port; the decoded name is the array of sixteen characters, so a user has to cut it at
the first null (`port_understood_false`). -/
theorem port_understood_partial : Understands Port.readFrom (Spec.struct Spec.port) fun p =>
    portSaid { p with name := cstr p.name } := fun b v h => by
  obtain ⟨p, h1, h2⟩ := port_inv (struct_inv h)
  exact ⟨p, Reads.decodes h1, h2⟩

example : ∃ v, Spec.struct Spec.port ([0, 0, 0, 1, 9, 9, 9, 9, 1, 2, 3, 4, 5, 6, 9, 9] ++ ([101, 116, 104, 48, 0, 9] ++ zeros 42)) =
    some v ∧ v.lookup "name" = some (.bytes [101, 116, 104, 48]) :=
  reads (by decide +kernel)

/-- Struct ofp_port_status, with the same proviso. -/
theorem portStatus_understood_partial :
    Understands PortStatus.readFrom (Spec.struct (Spec.portStatus ++ Spec.port)) fun p =>
      ("reason", .num p.reason.toNat) :: portSaid { p.port with name := cstr p.port.name } := fun b v h => by
  have h := struct_inv h
  simp only [Spec.portStatus, List.cons_append, List.nil_append] at h
  obtain ⟨v0, _, _, rfl, h1, rfl⟩ := Spec.read_u8_inv h
  obtain ⟨v1, _, rfl, p1, h2⟩ := Spec.read_pad_inv h1
  obtain ⟨q, hq, h3⟩ := port_inv h2
  refine ⟨⟨v0, q⟩, Reads.decodes fun s => ?_, by simp only [h3]⟩
  unfold PortStatus.readFrom
  exact Reads.cons (Reads.num _) (Reads.cons (Reads.skip p1) (Reads.last (Reads.sub (hq _))))

/-- Struct ofp_port_mod, for a receiver that holds a hardware address; missing: the others, as the
zero value (`portMod_understood_false`). -/
theorem portMod_understood_partial (s : PortMod) (hs : s.hwAddr.length = 6) (b : Bytes) (v : Spec.Record)
    (h : Spec.struct Spec.portMod b = some v) :
    ∃ p, DecodesFrom PortMod.readFrom s b p ∧
      [("port_no", .num p.portNo.toNat), ("hw_addr", .bytes p.hwAddr), ("config", .num p.config.toNat),
       ("mask", .num p.mask.toNat), ("advertise", .num p.advertise.toNat)] = v := by
  have h := struct_inv h
  unfold Spec.portMod at h
  obtain ⟨v0, _, _, rfl, h1, rfl⟩ := Spec.read_u32_inv h
  obtain ⟨v1, _, rfl, p1, h2⟩ := Spec.read_pad_inv h1
  obtain ⟨v2, _, _, rfl, p2, h3, rfl⟩ := read_raw_inv h2
  obtain ⟨v3, _, rfl, p3, h4⟩ := Spec.read_pad_inv h3
  obtain ⟨v4, _, _, rfl, h5, rfl⟩ := Spec.read_u32_inv h4
  obtain ⟨v5, _, _, rfl, h6, rfl⟩ := Spec.read_u32_inv h5
  obtain ⟨v6, _, _, rfl, h7, rfl⟩ := Spec.read_u32_inv h6
  obtain ⟨v7, _, rfl, p7, h8⟩ := Spec.read_pad_inv h7
  obtain ⟨rfl, rfl⟩ := Spec.read_nil_inv h8
  refine ⟨⟨v0, v2, v4, v5, v6⟩, Reads.decodesFrom ?_, rfl⟩
  unfold PortMod.readFrom
  refine Reads.cons (Reads.num _) <| Reads.cons (Reads.skip p1) <|
    Reads.cons (Reads.dyn (Reads.bin (by simp [p2, hs]))) <| Reads.cons (Reads.skip p3) ?_
  readsPad

example : ∃ v, Spec.struct Spec.portMod ([0, 0, 0, 1, 9, 9, 9, 9, 1, 2, 3, 4, 5, 6, 9, 9] ++ zeros 16) = some v ∧
    v.lookup "hw_addr" = some (.bytes [1, 2, 3, 4, 5, 6]) :=
  reads (by decide +kernel)

/-- Struct ofp_desc; the decoded strings are the arrays of characters, as for ports. -/
theorem description_understood_partial : Understands Description.readFrom (Spec.struct Spec.desc) fun d =>
    [("mfr_desc", .bytes (cstr d.manufacturer)), ("hw_desc", .bytes (cstr d.hardware)),
     ("sw_desc", .bytes (cstr d.software)), ("serial_num", .bytes (cstr d.serialNum)),
     ("dp_desc", .bytes (cstr d.datapath))] := fun b v h => by
  have h := struct_inv h
  unfold Spec.desc at h
  obtain ⟨v0, _, _, rfl, p0, h1, rfl⟩ := read_text_inv h
  obtain ⟨v1, _, _, rfl, p1, h2, rfl⟩ := read_text_inv h1
  obtain ⟨v2, _, _, rfl, p2, h3, rfl⟩ := read_text_inv h2
  obtain ⟨v3, _, _, rfl, p3, h4, rfl⟩ := read_text_inv h3
  obtain ⟨v4, _, _, rfl, p4, h5, rfl⟩ := read_text_inv h4
  obtain ⟨rfl, rfl⟩ := Spec.read_nil_inv h5
  refine ⟨⟨v0, v1, v2, v3, v4⟩, Reads.decodes fun s => ?_, rfl⟩
  unfold Description.readFrom
  refine Reads.withLocal (l' := ⟨v0, v1, v2, v3, v4⟩) ?_
  exact Reads.cons (Reads.bin p0) <| Reads.cons (Reads.bin p1) <| Reads.cons (Reads.bin p2) <|
    Reads.cons (Reads.bin p3) <| Reads.cons (Reads.bin p4) <| Reads.last Reads.assign

/-! ## Messages with data -/

/-- Struct ofp_error_msg and its data. -/
theorem error_understood : UnderstandsAll OfpError.readFrom (Spec.read Spec.errorMsg) fun e =>
    ([("type", .num e.type.toNat), ("code", .num e.code.toNat)], e.data) := by
  rintro b ⟨r, t⟩ h
  unfold Spec.errorMsg at h
  obtain ⟨v0, _, _, rfl, h1, rfl⟩ := Spec.read_u16_inv h
  obtain ⟨v1, t, _, rfl, h2, rfl⟩ := Spec.read_u16_inv h1
  obtain ⟨rfl, rfl⟩ := Spec.read_nil_inv h2
  have ho : (OfpError.writeTo ⟨v0, v1, t⟩).out = be v0 ++ (be v1 ++ t) := by
    simp [OfpError.writeTo, Enc.writeTo, Enc.gather]
  refine ⟨⟨v0, v1, t⟩, ?_, rfl⟩
  have := (error_roundtrip ⟨v0, v1, t⟩).2.2
  rwa [ho] at this

/-- Struct ofp_error_experimenter_msg and its data. -/
theorem errorExperimenter_understood (b : Bytes) (v : Spec.Record × Bytes)
    (h : Spec.read Spec.errorExperimenterMsg b = some v) (ht : Spec.u16 0 b = 0xffff) :
    ∃ e, DecodesAll ErrorExperimenter.readFrom b e ∧
      ([("type", .num 0xffff), ("exp_type", .num e.expType.toNat), ("experimenter", .num e.experimenter.toNat)],
        e.data) = v := by
  obtain ⟨r, t⟩ := v
  unfold Spec.errorExperimenterMsg at h
  obtain ⟨v0, _, _, rfl, h1, rfl⟩ := Spec.read_u16_inv h
  obtain ⟨v1, _, _, rfl, h2, rfl⟩ := Spec.read_u16_inv h1
  obtain ⟨v2, t, _, rfl, h3, rfl⟩ := Spec.read_u32_inv h2
  obtain ⟨rfl, rfl⟩ := Spec.read_nil_inv h3
  rw [Spec.u16_zero] at ht
  refine ⟨⟨v1, v2, t⟩, ReadsAll.decodes fun s => ?_, by simp only [ht]⟩
  unfold ErrorExperimenter.readFrom
  exact ReadsAll.cons (Reads.num _) <| ReadsAll.cons (Reads.num _) <| ReadsAll.cons (Reads.num _) <|
    ReadsAll.last (ReadsAll.rest0 _)

example : ∃ b v, Spec.read Spec.errorExperimenterMsg b = some v ∧ Spec.u16 0 b = 0xffff ∧ v.2 = [7] :=
  ⟨[0xff, 0xff, 0, 1, 0, 0, 0, 2, 7], reads (by decide +kernel)⟩

/-- Echo requests and replies. -/
theorem echo_understood : UnderstandsAll EchoRequest.readFrom some (fun e => e.data) ∧
    UnderstandsAll EchoReply.readFrom some (fun e => e.data) := by
  refine ⟨fun b v h => ?_, fun b v h => ?_⟩ <;> cases h
  · obtain ⟨h1, h2, h3⟩ := echoRequest_roundtrip ⟨b⟩
    rw [h1] at h3
    exact ⟨⟨b⟩, h3, rfl⟩
  · obtain ⟨h1, h2, h3⟩ := echoReply_roundtrip ⟨b⟩
    rw [h1] at h3
    exact ⟨⟨b⟩, h3, rfl⟩

/-- Struct ofp_multipart_request, with its body left in a buffer. -/
theorem multipartRequest_understood (b : Bytes) (v : Spec.Record × Bytes) (h : Spec.read Spec.multipart b = some v) :
    ∃ m, DecodesAll MultipartRequest.readFrom b m ∧ m.body = .buffer v.2 ∧
      [("type", .num m.type.toNat), ("flags", .num m.flags.toNat)] = v.1 := by
  obtain ⟨r, t⟩ := v
  unfold Spec.multipart at h
  obtain ⟨v0, _, _, rfl, h1, rfl⟩ := Spec.read_u16_inv h
  obtain ⟨v1, _, _, rfl, h2, rfl⟩ := Spec.read_u16_inv h1
  obtain ⟨p, t, rfl, hp, h3⟩ := Spec.read_pad_inv h2
  obtain ⟨rfl, rfl⟩ := Spec.read_nil_inv h3
  refine ⟨⟨v0, v1, .buffer t⟩, ReadsAll.decodes fun s => ?_, rfl, rfl⟩
  unfold MultipartRequest.readFrom
  exact ReadsAll.cons (Reads.num _) <| ReadsAll.cons (Reads.num _) <| ReadsAll.cons (Reads.skip hp) <|
    ReadsAll.last (ReadsAll.rest _)

/-! ## What is not understood -/

/-- The value that a decoder gives is the one that it gives for some receiver and source. -/
theorem decodes_val {σ : Type} {dec : Step σ} {b : Bytes} {x : σ} (h : Decodes dec b x) (s : σ) :
    (dec s (.src b [] .eof false)).val = x ∧ (dec s (.src b [] .eof false)).err = none :=
  have := h s (.src b [] .eof false) [] rfl (by simp [Rd.content])
  ⟨this.1, this.2.2.1⟩

theorem decodesAll_val {σ : Type} {dec : Step σ} {b : Bytes} {x : σ} (h : DecodesAll dec b x) (s : σ) :
    (dec s (.src b [] .eof false)).val = x ∧ (dec s (.src b [] .eof false)).err = none :=
  have := h s (.src b [] .eof false) rfl (by simp [Rd.content])
  ⟨this.1, this.2.2.1⟩

/-- The action OFPAT_POP_PBB stops the program that decodes it. -/
theorem actions_understood_false : ∃ b : Bytes, Spec.actions b = some [⟨"OFPAT_POP_PBB", [], none⟩] ∧
    (Actions.readFrom [] (.src b [] .eof false)).err = some .panic ∧ ¬ ∃ as, DecodesAll Actions.readFrom b as := by
  have h : (Actions.readFrom [] (.src [0, 27, 0, 8, 0, 0, 0, 0] [] .eof false)).err = some .panic := by decide +kernel
  refine ⟨[0, 27, 0, 8, 0, 0, 0, 0], by decide +kernel, h, fun ⟨as, h1⟩ => ?_⟩
  rw [(decodesAll_val h1 []).2] at h
  simp at h

/-- A mask of no bytes becomes no mask. -/
theorem match_understood_false : ∃ (b : Bytes) (v : Spec.Match), Spec.matchAt b = some (v, []) ∧
    v.fields = [⟨0x8000, 0, [], some []⟩] ∧ ∀ m, Decodes Match.readFrom b m → m.said ≠ v := by
  refine ⟨[0, 1, 0, 8, 0x80, 0, 1, 0], ⟨1, [⟨0x8000, 0, [], some []⟩]⟩, by decide +kernel, rfl, fun m h => ?_⟩
  have := (decodes_val h default).1
  subst this
  decide +kernel

/-- The buckets of a group modification are lost. -/
theorem groupMod_understood_false : ¬ UnderstandsAll GroupMod.readFrom Spec.groupMod fun g =>
      ([("command", .num g.command.toNat), ("type", .num g.type.toNat), ("group_id", .num g.group.toNat)],
        g.buckets.map bucketSaid) := by
  intro h
  obtain ⟨v, hv⟩ := Option.isSome_iff_exists.1 (show Option.isSome (Spec.groupMod ([0, 0, 0, 0, 0, 0, 0, 1] ++ ([0, 16, 0, 0] ++ zeros 12))) = true by decide +kernel)
  obtain ⟨g, h1, rfl⟩ := h _ v hv
  have := (decodesAll_val h1 ⟨0, 0, 0, []⟩).1
  subst this
  exact absurd hv (by decide +kernel)

/-- Bands, queues and the elements of hello messages likewise. -/
theorem meterMod_understood_false : ¬ UnderstandsAll MeterMod.readFrom Spec.meterMod fun m =>
      ([("command", .num m.command.toNat), ("flags", .num m.flags.toNat), ("meter_id", .num m.meter.toNat)],
        m.bands.map bandSaid) := by
  intro h
  obtain ⟨v, hv⟩ := Option.isSome_iff_exists.1 (show Option.isSome (Spec.meterMod ([0, 0, 0, 0, 0, 0, 0, 1] ++ ([0, 1, 0, 16] ++ zeros 12))) = true by decide +kernel)
  obtain ⟨g, h1, rfl⟩ := h _ v hv
  have := (decodesAll_val h1 ⟨0, 0, 0, []⟩).1
  subst this
  exact absurd hv (by decide +kernel)

theorem queueGetConfigReply_understood_false :
    ¬ UnderstandsAll QueueGetConfigReply.readFrom Spec.queueGetConfigReply fun q =>
      ([("port", .num q.port.toNat)], q.queues.map packetQueueSaid) := by
  intro h
  obtain ⟨v, hv⟩ := Option.isSome_iff_exists.1 (show Option.isSome (Spec.queueGetConfigReply ([0, 0, 0, 1, 0, 0, 0, 0] ++ ([0, 0, 0, 1, 0, 0, 0, 1, 0, 16] ++ zeros 6))) = true by decide +kernel)
  obtain ⟨g, h1, rfl⟩ := h _ v hv
  have := (decodesAll_val h1 ⟨0, []⟩).1
  subst this
  exact absurd (congrArg (Option.map fun v => v.2.length) hv) (by decide +kernel)

theorem hello_understood_false : ¬ UnderstandsAll Hello.readFrom Spec.hello fun h =>
      h.elements.map fun | .versionBitmap ws => ws.map UInt32.toNat := by
  intro h
  obtain ⟨v, hv⟩ := Option.isSome_iff_exists.1 (show Option.isSome (Spec.hello [0, 1, 0, 8, 0, 0, 0, 16]) = true by decide +kernel)
  obtain ⟨g, h1, rfl⟩ := h _ v hv
  have := (decodesAll_val h1 ⟨[]⟩).1
  subst this
  exact absurd hv (by decide +kernel)

/-- The name of a port comes with the nulls behind it. -/
theorem port_understood_false : ¬ Understands Port.readFrom (Spec.struct Spec.port) portSaid := by
  intro h
  obtain ⟨v, hv⟩ := Option.isSome_iff_exists.1 (show Option.isSome (Spec.struct Spec.port (zeros 16 ++ ([101, 116, 104, 48] ++ zeros 44))) = true by decide +kernel)
  obtain ⟨g, h1, rfl⟩ := h _ v hv
  have := (decodes_val h1 default).1
  subst this
  exact absurd hv (by decide +kernel)

/-- The zero value of a port modification takes no hardware address. -/
theorem portMod_understood_false : ¬ Understands PortMod.readFrom (Spec.struct Spec.portMod) fun p =>
      [("port_no", .num p.portNo.toNat), ("hw_addr", .bytes p.hwAddr), ("config", .num p.config.toNat),
       ("mask", .num p.mask.toNat), ("advertise", .num p.advertise.toNat)] := by
  intro h
  obtain ⟨v, hv⟩ := Option.isSome_iff_exists.1 (show Option.isSome (Spec.struct Spec.portMod (zeros 32)) = true by decide +kernel)
  obtain ⟨g, h1, rfl⟩ := h _ v hv
  have := (decodes_val h1 PortMod.zero).1
  subst this
  exact absurd hv (by decide +kernel)

end Verif.Props
