import Verif.Ofp.Fixed

/-!
# Property C30: fixed-size messages

For every message: the exact packet layout, the round trip (on any stream, whatever
follows and whatever the target held), the behaviour on truncated input, and that any
byte string of the right size decodes independently of the previous contents of the
target (C42).
-/

namespace Verif.Props

open Verif

/-- C30. -/
theorem aggregateStats_layout (x : AggregateStats) :
    Layout x.writeTo.out [
      .num 8 x.packetCount.toNat, .num 8 x.byteCount.toNat, .num 4 x.flowCount.toNat, .pad 4] := by
  simp [AggregateStats.writeTo, Enc.writeTo, Enc.gather]

/-- C30. -/
theorem aggregateStats_roundtrip (x : AggregateStats) :
    Encodes x.writeTo ∧ Decodes AggregateStats.readFrom x.writeTo.out x :=
  ⟨by simp [Encodes, AggregateStats.writeTo, Enc.writeTo, Enc.gather], Reads.decodes x.reads⟩

/-- C30, C40. -/
theorem aggregateStats_fixed : FixedSize AggregateStats.readFrom 24 := AggregateStats.flat.fixed

/-- C42. -/
theorem aggregateStats_overwrites : Overwrites AggregateStats.readFrom 24 := fun bs h =>
  let ⟨x, hx⟩ := AggregateStats.readsAny bs h
  ⟨x, Reads.decodes hx⟩

/-- C30. -/
theorem switchFeatures_layout (x : SwitchFeatures) :
    Layout x.writeTo.out [
      .num 8 x.datapathID.toNat, .num 4 x.numBuffers.toNat, .num 1 x.numTables.toNat,
      .num 1 x.auxiliaryID.toNat, .pad 2, .num 4 x.capabilities.toNat, .num 4 x.reserved.toNat] := by
  simp [SwitchFeatures.writeTo, Enc.writeTo, Enc.gather]

/-- C30. -/
theorem switchFeatures_roundtrip (x : SwitchFeatures) :
    Encodes x.writeTo ∧ Decodes SwitchFeatures.readFrom x.writeTo.out x :=
  ⟨by simp [Encodes, SwitchFeatures.writeTo, Enc.writeTo, Enc.gather], Reads.decodes x.reads⟩

/-- C30, C40. -/
theorem switchFeatures_fixed : FixedSize SwitchFeatures.readFrom 24 := SwitchFeatures.flat.fixed

/-- C42. -/
theorem switchFeatures_overwrites : Overwrites SwitchFeatures.readFrom 24 := fun bs h =>
  let ⟨x, hx⟩ := SwitchFeatures.readsAny bs h
  ⟨x, Reads.decodes hx⟩

/-- C30. -/
theorem switchConfig_layout (x : SwitchConfig) :
    Layout x.writeTo.out [
      .num 2 x.flags.toNat, .num 2 x.missSendLength.toNat] := by
  simp [SwitchConfig.writeTo, Enc.writeTo, Enc.gather]

/-- C30. -/
theorem switchConfig_roundtrip (x : SwitchConfig) :
    Encodes x.writeTo ∧ Decodes SwitchConfig.readFrom x.writeTo.out x :=
  ⟨by simp [Encodes, SwitchConfig.writeTo, Enc.writeTo, Enc.gather], Reads.decodes x.reads⟩

/-- C30, C40. -/
theorem switchConfig_fixed : FixedSize SwitchConfig.readFrom 4 := SwitchConfig.flat.fixed

/-- C42. -/
theorem switchConfig_overwrites : Overwrites SwitchConfig.readFrom 4 := fun bs h =>
  let ⟨x, hx⟩ := SwitchConfig.readsAny bs h
  ⟨x, Reads.decodes hx⟩

/-- C30. -/
theorem multipartReply_layout (x : MultipartReply) :
    Layout x.writeTo.out [
      .num 2 x.type.toNat, .num 2 x.flags.toNat, .pad 4] := by
  simp [MultipartReply.writeTo, Enc.writeTo, Enc.gather]

/-- C30. -/
theorem multipartReply_roundtrip (x : MultipartReply) :
    Encodes x.writeTo ∧ Decodes MultipartReply.readFrom x.writeTo.out x :=
  ⟨by simp [Encodes, MultipartReply.writeTo, Enc.writeTo, Enc.gather], Reads.decodes x.reads⟩

/-- C30, C40. -/
theorem multipartReply_fixed : FixedSize MultipartReply.readFrom 8 := MultipartReply.flat.fixed

/-- C42. -/
theorem multipartReply_overwrites : Overwrites MultipartReply.readFrom 8 := fun bs h =>
  let ⟨x, hx⟩ := MultipartReply.readsAny bs h
  ⟨x, Reads.decodes hx⟩

/-- C30. -/
theorem experimenterMultipartHeader_layout (x : ExperimenterMultipartHeader) :
    Layout x.writeTo.out [
      .num 4 x.experimenter.toNat, .num 4 x.expType.toNat] := by
  simp [ExperimenterMultipartHeader.writeTo, Enc.writeTo, Enc.gather]

/-- C30. -/
theorem experimenterMultipartHeader_roundtrip (x : ExperimenterMultipartHeader) :
    Encodes x.writeTo ∧ Decodes ExperimenterMultipartHeader.readFrom x.writeTo.out x :=
  ⟨by simp [Encodes, ExperimenterMultipartHeader.writeTo, Enc.writeTo, Enc.gather], Reads.decodes x.reads⟩

/-- C30, C40. -/
theorem experimenterMultipartHeader_fixed : FixedSize ExperimenterMultipartHeader.readFrom 8 := ExperimenterMultipartHeader.flat.fixed

/-- C42. -/
theorem experimenterMultipartHeader_overwrites : Overwrites ExperimenterMultipartHeader.readFrom 8 := fun bs h =>
  let ⟨x, hx⟩ := ExperimenterMultipartHeader.readsAny bs h
  ⟨x, Reads.decodes hx⟩

/-- C30. -/
theorem experimenter_layout (x : Experimenter) :
    Layout x.writeTo.out [
      .num 4 x.experimenter.toNat, .num 4 x.expType.toNat] := by
  simp [Experimenter.writeTo, Enc.writeTo, Enc.gather]

/-- C30. -/
theorem experimenter_roundtrip (x : Experimenter) :
    Encodes x.writeTo ∧ Decodes Experimenter.readFrom x.writeTo.out x :=
  ⟨by simp [Encodes, Experimenter.writeTo, Enc.writeTo, Enc.gather], Reads.decodes x.reads⟩

/-- C30, C40. -/
theorem experimenter_fixed : FixedSize Experimenter.readFrom 8 := Experimenter.flat.fixed

/-- C42. -/
theorem experimenter_overwrites : Overwrites Experimenter.readFrom 8 := fun bs h =>
  let ⟨x, hx⟩ := Experimenter.readsAny bs h
  ⟨x, Reads.decodes hx⟩

/-- C30. -/
theorem roleRequest_layout (x : RoleRequest) :
    Layout x.writeTo.out [
      .num 4 x.role.toNat, .pad 4, .num 8 x.generationID.toNat] := by
  simp [RoleRequest.writeTo, Enc.writeTo, Enc.gather]

/-- C30. -/
theorem roleRequest_roundtrip (x : RoleRequest) :
    Encodes x.writeTo ∧ Decodes RoleRequest.readFrom x.writeTo.out x :=
  ⟨by simp [Encodes, RoleRequest.writeTo, Enc.writeTo, Enc.gather], Reads.decodes x.reads⟩

/-- C30, C40. -/
theorem roleRequest_fixed : FixedSize RoleRequest.readFrom 16 := RoleRequest.flat.fixed

/-- C42. -/
theorem roleRequest_overwrites : Overwrites RoleRequest.readFrom 16 := fun bs h =>
  let ⟨x, hx⟩ := RoleRequest.readsAny bs h
  ⟨x, Reads.decodes hx⟩

/-- C30. -/
theorem asyncConfig_layout (x : AsyncConfig) :
    Layout x.writeTo.out [
      .num 4 x.packetInMask.1.toNat, .num 4 x.packetInMask.2.toNat,
      .num 4 x.portStatusMask.1.toNat, .num 4 x.portStatusMask.2.toNat,
      .num 4 x.flowRemovedMask.1.toNat, .num 4 x.flowRemovedMask.2.toNat] := by
  simp [AsyncConfig.writeTo, Enc.writeTo, Enc.gather]

/-- C30. -/
theorem asyncConfig_roundtrip (x : AsyncConfig) :
    Encodes x.writeTo ∧ Decodes AsyncConfig.readFrom x.writeTo.out x :=
  ⟨by simp [Encodes, AsyncConfig.writeTo, Enc.writeTo, Enc.gather], Reads.decodes x.reads⟩

/-- C30, C40. -/
theorem asyncConfig_fixed : FixedSize AsyncConfig.readFrom 24 := AsyncConfig.flat.fixed

/-- C42. -/
theorem asyncConfig_overwrites : Overwrites AsyncConfig.readFrom 24 := fun bs h =>
  let ⟨x, hx⟩ := AsyncConfig.readsAny bs h
  ⟨x, Reads.decodes hx⟩

/-- C30. -/
theorem tableMod_layout (x : TableMod) :
    Layout x.writeTo.out [
      .num 1 x.table.toNat, .pad 3, .num 4 x.config.toNat] := by
  simp [TableMod.writeTo, Enc.writeTo, Enc.gather]

/-- C30. -/
theorem tableMod_roundtrip (x : TableMod) :
    Encodes x.writeTo ∧ Decodes TableMod.readFrom x.writeTo.out x :=
  ⟨by simp [Encodes, TableMod.writeTo, Enc.writeTo, Enc.gather], Reads.decodes x.reads⟩

/-- C30, C40. -/
theorem tableMod_fixed : FixedSize TableMod.readFrom 8 := TableMod.flat.fixed

/-- C42. -/
theorem tableMod_overwrites : Overwrites TableMod.readFrom 8 := fun bs h =>
  let ⟨x, hx⟩ := TableMod.readsAny bs h
  ⟨x, Reads.decodes hx⟩

/-- C30. -/
theorem tableStats_layout (x : TableStats) :
    Layout x.writeTo.out [
      .num 1 x.table.toNat, .pad 3, .num 4 x.activeCount.toNat, .num 8 x.lookupCount.toNat,
      .num 8 x.matchedCount.toNat] := by
  simp [TableStats.writeTo, Enc.writeTo, Enc.gather]

/-- C30. -/
theorem tableStats_roundtrip (x : TableStats) :
    Encodes x.writeTo ∧ Decodes TableStats.readFrom x.writeTo.out x :=
  ⟨by simp [Encodes, TableStats.writeTo, Enc.writeTo, Enc.gather], Reads.decodes x.reads⟩

/-- C30, C40. -/
theorem tableStats_fixed : FixedSize TableStats.readFrom 24 := TableStats.flat.fixed

/-- C42. -/
theorem tableStats_overwrites : Overwrites TableStats.readFrom 24 := fun bs h =>
  let ⟨x, hx⟩ := TableStats.readsAny bs h
  ⟨x, Reads.decodes hx⟩

/-- C30. -/
theorem portStatsRequest_layout (x : PortStatsRequest) :
    Layout x.writeTo.out [
      .num 4 x.portNo.toNat, .pad 4] := by
  simp [PortStatsRequest.writeTo, Enc.writeTo, Enc.gather]

/-- C30. -/
theorem portStatsRequest_roundtrip (x : PortStatsRequest) :
    Encodes x.writeTo ∧ Decodes PortStatsRequest.readFrom x.writeTo.out x :=
  ⟨by simp [Encodes, PortStatsRequest.writeTo, Enc.writeTo, Enc.gather], Reads.decodes x.reads⟩

/-- C30, C40. -/
theorem portStatsRequest_fixed : FixedSize PortStatsRequest.readFrom 8 := PortStatsRequest.flat.fixed

/-- C42. -/
theorem portStatsRequest_overwrites : Overwrites PortStatsRequest.readFrom 8 := fun bs h =>
  let ⟨x, hx⟩ := PortStatsRequest.readsAny bs h
  ⟨x, Reads.decodes hx⟩

/-- C30. -/
theorem portStats_layout (x : PortStats) :
    Layout x.writeTo.out [
      .num 4 x.portNo.toNat, .pad 4, .num 8 x.rxPackets.toNat, .num 8 x.txPackets.toNat,
      .num 8 x.rxBytes.toNat, .num 8 x.txBytes.toNat, .num 8 x.rxDropped.toNat,
      .num 8 x.txDropped.toNat, .num 8 x.rxErrors.toNat, .num 8 x.txErrors.toNat,
      .num 8 x.rxFrameErr.toNat, .num 8 x.rxOverErr.toNat, .num 8 x.rxCrcErr.toNat,
      .num 8 x.collisions.toNat, .num 4 x.durationSec.toNat, .num 4 x.durationNSec.toNat] := by
  simp [PortStats.writeTo, Enc.writeTo, Enc.gather]

/-- C30. -/
theorem portStats_roundtrip (x : PortStats) :
    Encodes x.writeTo ∧ Decodes PortStats.readFrom x.writeTo.out x :=
  ⟨by simp [Encodes, PortStats.writeTo, Enc.writeTo, Enc.gather], Reads.decodes x.reads⟩

/-- C30, C40. -/
theorem portStats_fixed : FixedSize PortStats.readFrom 112 := PortStats.flat.fixed

/-- C42. -/
theorem portStats_overwrites : Overwrites PortStats.readFrom 112 := fun bs h =>
  let ⟨x, hx⟩ := PortStats.readsAny bs h
  ⟨x, Reads.decodes hx⟩

/-- C30. -/
theorem meterConfigRequest_layout (x : MeterConfigRequest) :
    Layout x.writeTo.out [
      .num 4 x.meter.toNat, .pad 4] := by
  simp [MeterConfigRequest.writeTo, Enc.writeTo, Enc.gather]

/-- C30. -/
theorem meterConfigRequest_roundtrip (x : MeterConfigRequest) :
    Encodes x.writeTo ∧ Decodes MeterConfigRequest.readFrom x.writeTo.out x :=
  ⟨by simp [Encodes, MeterConfigRequest.writeTo, Enc.writeTo, Enc.gather], Reads.decodes x.reads⟩

/-- C30, C40. -/
theorem meterConfigRequest_fixed : FixedSize MeterConfigRequest.readFrom 8 := MeterConfigRequest.flat.fixed

/-- C42. -/
theorem meterConfigRequest_overwrites : Overwrites MeterConfigRequest.readFrom 8 := fun bs h =>
  let ⟨x, hx⟩ := MeterConfigRequest.readsAny bs h
  ⟨x, Reads.decodes hx⟩

/-- C30. -/
theorem meterFeatures_layout (x : MeterFeatures) :
    Layout x.writeTo.out [
      .num 4 x.maxMeter.toNat, .num 4 x.bandTypes.toNat, .num 4 x.capabilities.toNat,
      .num 1 x.maxBands.toNat, .num 1 x.maxColor.toNat, .pad 2] := by
  simp [MeterFeatures.writeTo, Enc.writeTo, Enc.gather]

/-- C30. -/
theorem meterFeatures_roundtrip (x : MeterFeatures) :
    Encodes x.writeTo ∧ Decodes MeterFeatures.readFrom x.writeTo.out x :=
  ⟨by simp [Encodes, MeterFeatures.writeTo, Enc.writeTo, Enc.gather], Reads.decodes x.reads⟩

/-- C30, C40. -/
theorem meterFeatures_fixed : FixedSize MeterFeatures.readFrom 16 := MeterFeatures.flat.fixed

/-- C42. -/
theorem meterFeatures_overwrites : Overwrites MeterFeatures.readFrom 16 := fun bs h =>
  let ⟨x, hx⟩ := MeterFeatures.readsAny bs h
  ⟨x, Reads.decodes hx⟩

/-- C30. -/
theorem meterBandStats_layout (x : MeterBandStats) :
    Layout x.writeTo.out [
      .num 8 x.packetBandCount.toNat, .num 8 x.byteBandCount.toNat] := by
  simp [MeterBandStats.writeTo, Enc.writeTo, Enc.gather]

/-- C30. -/
theorem meterBandStats_roundtrip (x : MeterBandStats) :
    Encodes x.writeTo ∧ Decodes MeterBandStats.readFrom x.writeTo.out x :=
  ⟨by simp [Encodes, MeterBandStats.writeTo, Enc.writeTo, Enc.gather], Reads.decodes x.reads⟩

/-- C30, C40. -/
theorem meterBandStats_fixed : FixedSize MeterBandStats.readFrom 16 := MeterBandStats.flat.fixed

/-- C42. -/
theorem meterBandStats_overwrites : Overwrites MeterBandStats.readFrom 16 := fun bs h =>
  let ⟨x, hx⟩ := MeterBandStats.readsAny bs h
  ⟨x, Reads.decodes hx⟩

/-- C30. -/
theorem meterStatsRequest_layout (x : MeterStatsRequest) :
    Layout x.writeTo.out [
      .num 4 x.meter.toNat, .pad 4] := by
  simp [MeterStatsRequest.writeTo, Enc.writeTo, Enc.gather]

/-- C30. -/
theorem meterStatsRequest_roundtrip (x : MeterStatsRequest) :
    Encodes x.writeTo ∧ Decodes MeterStatsRequest.readFrom x.writeTo.out x :=
  ⟨by simp [Encodes, MeterStatsRequest.writeTo, Enc.writeTo, Enc.gather], Reads.decodes x.reads⟩

/-- C30, C40. -/
theorem meterStatsRequest_fixed : FixedSize MeterStatsRequest.readFrom 8 := MeterStatsRequest.flat.fixed

/-- C42. -/
theorem meterStatsRequest_overwrites : Overwrites MeterStatsRequest.readFrom 8 := fun bs h =>
  let ⟨x, hx⟩ := MeterStatsRequest.readsAny bs h
  ⟨x, Reads.decodes hx⟩

/-- C30. -/
theorem groupStatsRequest_layout (x : GroupStatsRequest) :
    Layout x.writeTo.out [
      .num 4 x.group.toNat, .pad 4] := by
  simp [GroupStatsRequest.writeTo, Enc.writeTo, Enc.gather]

/-- C30. -/
theorem groupStatsRequest_roundtrip (x : GroupStatsRequest) :
    Encodes x.writeTo ∧ Decodes GroupStatsRequest.readFrom x.writeTo.out x :=
  ⟨by simp [Encodes, GroupStatsRequest.writeTo, Enc.writeTo, Enc.gather], Reads.decodes x.reads⟩

/-- C30, C40. -/
theorem groupStatsRequest_fixed : FixedSize GroupStatsRequest.readFrom 8 := GroupStatsRequest.flat.fixed

/-- C42. -/
theorem groupStatsRequest_overwrites : Overwrites GroupStatsRequest.readFrom 8 := fun bs h =>
  let ⟨x, hx⟩ := GroupStatsRequest.readsAny bs h
  ⟨x, Reads.decodes hx⟩

/-- C30. -/
theorem bucketCounter_layout (x : BucketCounter) :
    Layout x.writeTo.out [
      .num 8 x.packetCount.toNat, .num 8 x.byteCount.toNat] := by
  simp [BucketCounter.writeTo, Enc.writeTo, Enc.gather]

/-- C30. -/
theorem bucketCounter_roundtrip (x : BucketCounter) :
    Encodes x.writeTo ∧ Decodes BucketCounter.readFrom x.writeTo.out x :=
  ⟨by simp [Encodes, BucketCounter.writeTo, Enc.writeTo, Enc.gather], Reads.decodes x.reads⟩

/-- C30, C40. -/
theorem bucketCounter_fixed : FixedSize BucketCounter.readFrom 16 := BucketCounter.flat.fixed

/-- C42. -/
theorem bucketCounter_overwrites : Overwrites BucketCounter.readFrom 16 := fun bs h =>
  let ⟨x, hx⟩ := BucketCounter.readsAny bs h
  ⟨x, Reads.decodes hx⟩

/-- C30. -/
theorem groupFeatures_layout (x : GroupFeatures) :
    Layout x.writeTo.out [
      .num 4 x.types.toNat, .num 4 x.capabilities.toNat, .num 4 x.maxGroups.1.toNat,
      .num 4 x.maxGroups.2.1.toNat, .num 4 x.maxGroups.2.2.1.toNat,
      .num 4 x.maxGroups.2.2.2.toNat, .num 4 x.actions.1.toNat, .num 4 x.actions.2.1.toNat,
      .num 4 x.actions.2.2.1.toNat, .num 4 x.actions.2.2.2.toNat] := by
  simp [GroupFeatures.writeTo, Enc.writeTo, Enc.gather]

/-- C30. -/
theorem groupFeatures_roundtrip (x : GroupFeatures) :
    Encodes x.writeTo ∧ Decodes GroupFeatures.readFrom x.writeTo.out x :=
  ⟨by simp [Encodes, GroupFeatures.writeTo, Enc.writeTo, Enc.gather], Reads.decodes x.reads⟩

/-- C30, C40. -/
theorem groupFeatures_fixed : FixedSize GroupFeatures.readFrom 40 := GroupFeatures.flat.fixed

/-- C42. -/
theorem groupFeatures_overwrites : Overwrites GroupFeatures.readFrom 40 := fun bs h =>
  let ⟨x, hx⟩ := GroupFeatures.readsAny bs h
  ⟨x, Reads.decodes hx⟩

/-- C30. -/
theorem queueStatsRequest_layout (x : QueueStatsRequest) :
    Layout x.writeTo.out [
      .num 4 x.port.toNat, .num 4 x.queue.toNat] := by
  simp [QueueStatsRequest.writeTo, Enc.writeTo, Enc.gather]

/-- C30. -/
theorem queueStatsRequest_roundtrip (x : QueueStatsRequest) :
    Encodes x.writeTo ∧ Decodes QueueStatsRequest.readFrom x.writeTo.out x :=
  ⟨by simp [Encodes, QueueStatsRequest.writeTo, Enc.writeTo, Enc.gather], Reads.decodes x.reads⟩

/-- C30, C40. -/
theorem queueStatsRequest_fixed : FixedSize QueueStatsRequest.readFrom 8 := QueueStatsRequest.flat.fixed

/-- C42. -/
theorem queueStatsRequest_overwrites : Overwrites QueueStatsRequest.readFrom 8 := fun bs h =>
  let ⟨x, hx⟩ := QueueStatsRequest.readsAny bs h
  ⟨x, Reads.decodes hx⟩

/-- C30. -/
theorem queueStats_layout (x : QueueStats) :
    Layout x.writeTo.out [
      .num 4 x.port.toNat, .num 4 x.queue.toNat, .num 8 x.txBytes.toNat,
      .num 8 x.txPackets.toNat, .num 8 x.txErrors.toNat, .num 4 x.durationSec.toNat,
      .num 4 x.durationNSec.toNat] := by
  simp [QueueStats.writeTo, Enc.writeTo, Enc.gather]

/-- C30. -/
theorem queueStats_roundtrip (x : QueueStats) :
    Encodes x.writeTo ∧ Decodes QueueStats.readFrom x.writeTo.out x :=
  ⟨by simp [Encodes, QueueStats.writeTo, Enc.writeTo, Enc.gather], Reads.decodes x.reads⟩

/-- C30, C40. -/
theorem queueStats_fixed : FixedSize QueueStats.readFrom 40 := QueueStats.flat.fixed

/-- C42. -/
theorem queueStats_overwrites : Overwrites QueueStats.readFrom 40 := fun bs h =>
  let ⟨x, hx⟩ := QueueStats.readsAny bs h
  ⟨x, Reads.decodes hx⟩

/-- C30. -/
theorem queueGetConfigRequest_layout (x : QueueGetConfigRequest) :
    Layout x.writeTo.out [
      .num 4 x.port.toNat, .pad 4] := by
  simp [QueueGetConfigRequest.writeTo, Enc.writeTo, Enc.gather]

/-- C30. -/
theorem queueGetConfigRequest_roundtrip (x : QueueGetConfigRequest) :
    Encodes x.writeTo ∧ Decodes QueueGetConfigRequest.readFrom x.writeTo.out x :=
  ⟨by simp [Encodes, QueueGetConfigRequest.writeTo, Enc.writeTo, Enc.gather], Reads.decodes x.reads⟩

/-- C30, C40. -/
theorem queueGetConfigRequest_fixed : FixedSize QueueGetConfigRequest.readFrom 8 := QueueGetConfigRequest.flat.fixed

/-- C42. -/
theorem queueGetConfigRequest_overwrites : Overwrites QueueGetConfigRequest.readFrom 8 := fun bs h =>
  let ⟨x, hx⟩ := QueueGetConfigRequest.readsAny bs h
  ⟨x, Reads.decodes hx⟩

/-! ## Concrete messages -/

example :
    (AggregateStats.mk 0x80f161d242b3239 0x40474e555c636a71 0x787f868d).writeTo.out = [8, 15, 22,
    29, 36, 43, 50, 57, 64, 71, 78, 85, 92, 99, 106, 113, 120, 127, 134, 141, 0, 0, 0, 0] := by
  decide

example :
    (SwitchFeatures.mk 0x80f161d242b3239 0x40474e55 0x5c 0x63 0x6a71787f 0x868d949b).writeTo.out =
    [8, 15, 22, 29, 36, 43, 50, 57, 64, 71, 78, 85, 92, 99, 0, 0, 106, 113, 120, 127, 134, 141, 148,
    155] := by
  decide

example :
    (SwitchConfig.mk 0x80f 0x161d).writeTo.out = [8, 15, 22, 29] := by
  decide

example :
    (MultipartReply.mk 0x80f 0x161d).writeTo.out = [8, 15, 22, 29, 0, 0, 0, 0] := by
  decide

example :
    (ExperimenterMultipartHeader.mk 0x80f161d 0x242b3239).writeTo.out = [8, 15, 22, 29, 36, 43, 50,
    57] := by
  decide

example :
    (Experimenter.mk 0x80f161d 0x242b3239).writeTo.out = [8, 15, 22, 29, 36, 43, 50, 57] := by
  decide

example :
    (RoleRequest.mk 0x80f161d 0x242b323940474e55).writeTo.out = [8, 15, 22, 29, 0, 0, 0, 0, 36, 43,
    50, 57, 64, 71, 78, 85] := by
  decide

example :
    (AsyncConfig.mk (0x80f161d, 0x242b3239) (0x40474e55, 0x5c636a71) (0x787f868d,
    0x949ba2a9)).writeTo.out = [8, 15, 22, 29, 36, 43, 50, 57, 64, 71, 78, 85, 92, 99, 106, 113,
    120, 127, 134, 141, 148, 155, 162, 169] := by
  decide

example :
    (TableMod.mk 0x8 0xf161d24).writeTo.out = [8, 0, 0, 0, 15, 22, 29, 36] := by
  decide

example :
    (TableStats.mk 0x8 0xf161d24 0x2b323940474e555c 0x636a71787f868d94).writeTo.out = [8, 0, 0, 0,
    15, 22, 29, 36, 43, 50, 57, 64, 71, 78, 85, 92, 99, 106, 113, 120, 127, 134, 141, 148] := by
  decide

example :
    (PortStatsRequest.mk 0x80f161d).writeTo.out = [8, 15, 22, 29, 0, 0, 0, 0] := by
  decide

example :
    (PortStats.mk 0x80f161d 0x242b323940474e55 0x5c636a71787f868d 0x949ba2a9b0b7bec5
    0xccd3dae1e8eff602 0x910171e252c333a 0x41484f565d646b72 0x7980878e959ca3aa 0xb1b8bfc6cdd4dbe2
    0xe9f0f7030a11181f 0x262d343b42495057 0x5e656c737a81888f 0x969da4abb2b9c0c7 0xced5dce3
    0xeaf1f804).writeTo.out = [8, 15, 22, 29, 0, 0, 0, 0, 36, 43, 50, 57, 64, 71, 78, 85, 92, 99,
    106, 113, 120, 127, 134, 141, 148, 155, 162, 169, 176, 183, 190, 197, 204, 211, 218, 225, 232,
    239, 246, 2, 9, 16, 23, 30, 37, 44, 51, 58, 65, 72, 79, 86, 93, 100, 107, 114, 121, 128, 135,
    142, 149, 156, 163, 170, 177, 184, 191, 198, 205, 212, 219, 226, 233, 240, 247, 3, 10, 17, 24,
    31, 38, 45, 52, 59, 66, 73, 80, 87, 94, 101, 108, 115, 122, 129, 136, 143, 150, 157, 164, 171,
    178, 185, 192, 199, 206, 213, 220, 227, 234, 241, 248, 4] := by
  decide

example :
    (MeterConfigRequest.mk 0x80f161d).writeTo.out = [8, 15, 22, 29, 0, 0, 0, 0] := by
  decide

example :
    (MeterFeatures.mk 0x80f161d 0x242b3239 0x40474e55 0x5c 0x63).writeTo.out = [8, 15, 22, 29, 36,
    43, 50, 57, 64, 71, 78, 85, 92, 99, 0, 0] := by
  decide

example :
    (MeterBandStats.mk 0x80f161d242b3239 0x40474e555c636a71).writeTo.out = [8, 15, 22, 29, 36, 43,
    50, 57, 64, 71, 78, 85, 92, 99, 106, 113] := by
  decide

example :
    (MeterStatsRequest.mk 0x80f161d).writeTo.out = [8, 15, 22, 29, 0, 0, 0, 0] := by
  decide

example :
    (GroupStatsRequest.mk 0x80f161d).writeTo.out = [8, 15, 22, 29, 0, 0, 0, 0] := by
  decide

example :
    (BucketCounter.mk 0x80f161d242b3239 0x40474e555c636a71).writeTo.out = [8, 15, 22, 29, 36, 43,
    50, 57, 64, 71, 78, 85, 92, 99, 106, 113] := by
  decide

example :
    (GroupFeatures.mk 0x80f161d 0x242b3239 (0x40474e55, 0x5c636a71, 0x787f868d, 0x949ba2a9)
    (0xb0b7bec5, 0xccd3dae1, 0xe8eff602, 0x910171e)).writeTo.out = [8, 15, 22, 29, 36, 43, 50, 57,
    64, 71, 78, 85, 92, 99, 106, 113, 120, 127, 134, 141, 148, 155, 162, 169, 176, 183, 190, 197,
    204, 211, 218, 225, 232, 239, 246, 2, 9, 16, 23, 30] := by
  decide

example :
    (QueueStatsRequest.mk 0x80f161d 0x242b3239).writeTo.out = [8, 15, 22, 29, 36, 43, 50, 57] := by
  decide

example :
    (QueueStats.mk 0x80f161d 0x242b3239 0x40474e555c636a71 0x787f868d949ba2a9 0xb0b7bec5ccd3dae1
    0xe8eff602 0x910171e).writeTo.out = [8, 15, 22, 29, 36, 43, 50, 57, 64, 71, 78, 85, 92, 99, 106,
    113, 120, 127, 134, 141, 148, 155, 162, 169, 176, 183, 190, 197, 204, 211, 218, 225, 232, 239,
    246, 2, 9, 16, 23, 30] := by
  decide

example :
    (QueueGetConfigRequest.mk 0x80f161d).writeTo.out = [8, 15, 22, 29, 0, 0, 0, 0] := by
  decide

end Verif.Props
