import Verif.Spec.Wire

/-!
# Fixed-size messages of package ofp

A Go array `[n]uint32` is a tuple.
-/

namespace Verif

/-- `AggregateStats`, ofp/aggregate.go:83-92. -/
structure AggregateStats where
  packetCount : UInt64
  byteCount : UInt64
  flowCount : UInt32
  deriving DecidableEq, Repr, Inhabited

/-- `(AggregateStats) WriteTo`, ofp/aggregate.go:97-100. -/
def AggregateStats.writeTo (x : AggregateStats) : Wr :=
  Enc.writeTo [
    .bin (be x.packetCount), .bin (be x.byteCount), .bin (be x.flowCount), .bin (zeros 4)]

/-- `(AggregateStats) ReadFrom`, ofp/aggregate.go:104-107. -/
def AggregateStats.readFrom : Step AggregateStats :=
  Enc.readFrom [
    Enc.num (fun v s => { s with packetCount := v }),
    Enc.num (fun v s => { s with byteCount := v }),
    Enc.num (fun v s => { s with flowCount := v }), Enc.skip 4]

theorem AggregateStats.reads (x s : AggregateStats) : Reads AggregateStats.readFrom s x.writeTo.out x := by
  simp only [AggregateStats.writeTo, Enc.writeTo, Enc.gather, List.append_nil]
  unfold AggregateStats.readFrom
  reads

theorem AggregateStats.flat : Flat AggregateStats.readFrom 24 := by
  unfold AggregateStats.readFrom
  exact Flat.cons Flat.num <| Flat.cons Flat.num <| Flat.cons Flat.num <| Flat.cons Flat.skip <| Flat.nil

theorem AggregateStats.readsAny (bs : Bytes) (h : bs.length = 24) :
    ∃ x, ∀ s, Reads AggregateStats.readFrom s bs x := by
  exact ⟨⟨_, _, _⟩, fun s => by unfold AggregateStats.readFrom; readsAny⟩

/-- `SwitchFeatures`, ofp/switch.go:76-95. -/
structure SwitchFeatures where
  datapathID : UInt64
  numBuffers : UInt32
  numTables : UInt8
  auxiliaryID : UInt8
  capabilities : UInt32
  reserved : UInt32
  deriving DecidableEq, Repr, Inhabited

/-- `(SwitchFeatures) WriteTo`, ofp/switch.go:99-103. -/
def SwitchFeatures.writeTo (x : SwitchFeatures) : Wr :=
  Enc.writeTo [
    .bin (be x.datapathID), .bin (be x.numBuffers), .bin (be x.numTables),
    .bin (be x.auxiliaryID), .bin (zeros 2), .bin (be x.capabilities), .bin (be x.reserved)]

/-- `(SwitchFeatures) ReadFrom`, ofp/switch.go:107-111. -/
def SwitchFeatures.readFrom : Step SwitchFeatures :=
  Enc.readFrom [
    Enc.num (fun v s => { s with datapathID := v }),
    Enc.num (fun v s => { s with numBuffers := v }),
    Enc.num (fun v s => { s with numTables := v }),
    Enc.num (fun v s => { s with auxiliaryID := v }), Enc.skip 2,
    Enc.num (fun v s => { s with capabilities := v }),
    Enc.num (fun v s => { s with reserved := v })]

theorem SwitchFeatures.reads (x s : SwitchFeatures) : Reads SwitchFeatures.readFrom s x.writeTo.out x := by
  simp only [SwitchFeatures.writeTo, Enc.writeTo, Enc.gather, List.append_nil]
  unfold SwitchFeatures.readFrom
  reads

theorem SwitchFeatures.flat : Flat SwitchFeatures.readFrom 24 := by
  unfold SwitchFeatures.readFrom
  exact Flat.cons Flat.num <| Flat.cons Flat.num <| Flat.cons Flat.num <| Flat.cons Flat.num <| Flat.cons Flat.skip <| Flat.cons Flat.num <| Flat.cons Flat.num <| Flat.nil

theorem SwitchFeatures.readsAny (bs : Bytes) (h : bs.length = 24) :
    ∃ x, ∀ s, Reads SwitchFeatures.readFrom s bs x := by
  exact ⟨⟨_, _, _, _, _, _⟩, fun s => by unfold SwitchFeatures.readFrom; readsAny⟩

/-- `SwitchConfig`, ofp/switch.go:120-127. -/
structure SwitchConfig where
  flags : UInt16
  missSendLength : UInt16
  deriving DecidableEq, Repr, Inhabited

/-- `(SwitchConfig) WriteTo`, ofp/switch.go:131-133. -/
def SwitchConfig.writeTo (x : SwitchConfig) : Wr :=
  Enc.writeTo [
    .bin (be x.flags), .bin (be x.missSendLength)]

/-- `(SwitchConfig) ReadFrom`, ofp/switch.go:137-139. -/
def SwitchConfig.readFrom : Step SwitchConfig :=
  Enc.readFrom [
    Enc.num (fun v s => { s with flags := v }),
    Enc.num (fun v s => { s with missSendLength := v })]

theorem SwitchConfig.reads (x s : SwitchConfig) : Reads SwitchConfig.readFrom s x.writeTo.out x := by
  simp only [SwitchConfig.writeTo, Enc.writeTo, Enc.gather, List.append_nil]
  unfold SwitchConfig.readFrom
  reads

theorem SwitchConfig.flat : Flat SwitchConfig.readFrom 4 := by
  unfold SwitchConfig.readFrom
  exact Flat.cons Flat.num <| Flat.cons Flat.num <| Flat.nil

theorem SwitchConfig.readsAny (bs : Bytes) (h : bs.length = 4) :
    ∃ x, ∀ s, Reads SwitchConfig.readFrom s bs x := by
  exact ⟨⟨_, _⟩, fun s => by unfold SwitchConfig.readFrom; readsAny⟩

/-- `MultipartReply`, ofp/multipart.go:262-268. -/
structure MultipartReply where
  type : UInt16
  flags : UInt16
  deriving DecidableEq, Repr, Inhabited

/-- `(MultipartReply) WriteTo`, ofp/multipart.go:272-274. -/
def MultipartReply.writeTo (x : MultipartReply) : Wr :=
  Enc.writeTo [
    .bin (be x.type), .bin (be x.flags), .bin (zeros 4)]

/-- `(MultipartReply) ReadFrom`, ofp/multipart.go:278-280. -/
def MultipartReply.readFrom : Step MultipartReply :=
  Enc.readFrom [
    Enc.num (fun v s => { s with type := v }), Enc.num (fun v s => { s with flags := v }),
    Enc.skip 4]

theorem MultipartReply.reads (x s : MultipartReply) : Reads MultipartReply.readFrom s x.writeTo.out x := by
  simp only [MultipartReply.writeTo, Enc.writeTo, Enc.gather, List.append_nil]
  unfold MultipartReply.readFrom
  reads

theorem MultipartReply.flat : Flat MultipartReply.readFrom 8 := by
  unfold MultipartReply.readFrom
  exact Flat.cons Flat.num <| Flat.cons Flat.num <| Flat.cons Flat.skip <| Flat.nil

theorem MultipartReply.readsAny (bs : Bytes) (h : bs.length = 8) :
    ∃ x, ∀ s, Reads MultipartReply.readFrom s bs x := by
  exact ⟨⟨_, _⟩, fun s => by unfold MultipartReply.readFrom; readsAny⟩

/-- `ExperimenterMultipartHeader`, ofp/multipart.go:284-290. -/
structure ExperimenterMultipartHeader where
  experimenter : UInt32
  expType : UInt32
  deriving DecidableEq, Repr, Inhabited

/-- `(ExperimenterMultipartHeader) WriteTo`, ofp/multipart.go:294-296. -/
def ExperimenterMultipartHeader.writeTo (x : ExperimenterMultipartHeader) : Wr :=
  Enc.writeTo [
    .bin (be x.experimenter), .bin (be x.expType)]

/-- `(ExperimenterMultipartHeader) ReadFrom`, ofp/multipart.go:300-302. -/
def ExperimenterMultipartHeader.readFrom : Step ExperimenterMultipartHeader :=
  Enc.readFrom [
    Enc.num (fun v s => { s with experimenter := v }),
    Enc.num (fun v s => { s with expType := v })]

theorem ExperimenterMultipartHeader.reads (x s : ExperimenterMultipartHeader) : Reads ExperimenterMultipartHeader.readFrom s x.writeTo.out x := by
  simp only [ExperimenterMultipartHeader.writeTo, Enc.writeTo, Enc.gather, List.append_nil]
  unfold ExperimenterMultipartHeader.readFrom
  reads

theorem ExperimenterMultipartHeader.flat : Flat ExperimenterMultipartHeader.readFrom 8 := by
  unfold ExperimenterMultipartHeader.readFrom
  exact Flat.cons Flat.num <| Flat.cons Flat.num <| Flat.nil

theorem ExperimenterMultipartHeader.readsAny (bs : Bytes) (h : bs.length = 8) :
    ∃ x, ∀ s, Reads ExperimenterMultipartHeader.readFrom s bs x := by
  exact ⟨⟨_, _⟩, fun s => by unfold ExperimenterMultipartHeader.readFrom; readsAny⟩

/-- `Experimenter`, ofp/handshake.go:171-179. -/
structure Experimenter where
  experimenter : UInt32
  expType : UInt32
  deriving DecidableEq, Repr, Inhabited

/-- `(Experimenter) WriteTo`, ofp/handshake.go:183-185. -/
def Experimenter.writeTo (x : Experimenter) : Wr :=
  Enc.writeTo [
    .bin (be x.experimenter), .bin (be x.expType)]

/-- `(Experimenter) ReadFrom`, ofp/handshake.go:189-191. -/
def Experimenter.readFrom : Step Experimenter :=
  Enc.readFrom [
    Enc.num (fun v s => { s with experimenter := v }),
    Enc.num (fun v s => { s with expType := v })]

theorem Experimenter.reads (x s : Experimenter) : Reads Experimenter.readFrom s x.writeTo.out x := by
  simp only [Experimenter.writeTo, Enc.writeTo, Enc.gather, List.append_nil]
  unfold Experimenter.readFrom
  reads

theorem Experimenter.flat : Flat Experimenter.readFrom 8 := by
  unfold Experimenter.readFrom
  exact Flat.cons Flat.num <| Flat.cons Flat.num <| Flat.nil

theorem Experimenter.readsAny (bs : Bytes) (h : bs.length = 8) :
    ∃ x, ∀ s, Reads Experimenter.readFrom s bs x := by
  exact ⟨⟨_, _⟩, fun s => by unfold Experimenter.readFrom; readsAny⟩

/-- `RoleRequest`, ofp/handshake.go:223-238. -/
structure RoleRequest where
  role : UInt32
  generationID : UInt64
  deriving DecidableEq, Repr, Inhabited

/-- `(RoleRequest) WriteTo`, ofp/handshake.go:242-244. -/
def RoleRequest.writeTo (x : RoleRequest) : Wr :=
  Enc.writeTo [
    .bin (be x.role), .bin (zeros 4), .bin (be x.generationID)]

/-- `(RoleRequest) ReadFrom`, ofp/handshake.go:248-250. -/
def RoleRequest.readFrom : Step RoleRequest :=
  Enc.readFrom [
    Enc.num (fun v s => { s with role := v }), Enc.skip 4,
    Enc.num (fun v s => { s with generationID := v })]

theorem RoleRequest.reads (x s : RoleRequest) : Reads RoleRequest.readFrom s x.writeTo.out x := by
  simp only [RoleRequest.writeTo, Enc.writeTo, Enc.gather, List.append_nil]
  unfold RoleRequest.readFrom
  reads

theorem RoleRequest.flat : Flat RoleRequest.readFrom 16 := by
  unfold RoleRequest.readFrom
  exact Flat.cons Flat.num <| Flat.cons Flat.skip <| Flat.cons Flat.num <| Flat.nil

theorem RoleRequest.readsAny (bs : Bytes) (h : bs.length = 16) :
    ∃ x, ∀ s, Reads RoleRequest.readFrom s bs x := by
  exact ⟨⟨_, _⟩, fun s => by unfold RoleRequest.readFrom; readsAny⟩

/-- `AsyncConfig`, ofp/handshake.go:271-280. -/
structure AsyncConfig where
  packetInMask : UInt32 × UInt32
  portStatusMask : UInt32 × UInt32
  flowRemovedMask : UInt32 × UInt32
  deriving DecidableEq, Repr, Inhabited

/-- `(AsyncConfig) WriteTo`, ofp/handshake.go:284-287. -/
def AsyncConfig.writeTo (x : AsyncConfig) : Wr :=
  Enc.writeTo [
    .bin (be x.packetInMask.1 ++ be x.packetInMask.2),
    .bin (be x.portStatusMask.1 ++ be x.portStatusMask.2),
    .bin (be x.flowRemovedMask.1 ++ be x.flowRemovedMask.2)]

/-- `(AsyncConfig) ReadFrom`, ofp/handshake.go:291-294. -/
def AsyncConfig.readFrom : Step AsyncConfig :=
  Enc.readFrom [
    Enc.pair32 (fun v s => { s with packetInMask := v }),
    Enc.pair32 (fun v s => { s with portStatusMask := v }),
    Enc.pair32 (fun v s => { s with flowRemovedMask := v })]

theorem AsyncConfig.reads (x s : AsyncConfig) : Reads AsyncConfig.readFrom s x.writeTo.out x := by
  simp only [AsyncConfig.writeTo, Enc.writeTo, Enc.gather, List.append_nil]
  unfold AsyncConfig.readFrom
  reads

theorem AsyncConfig.flat : Flat AsyncConfig.readFrom 24 := by
  unfold AsyncConfig.readFrom
  exact Flat.cons Flat.pair32 <| Flat.cons Flat.pair32 <| Flat.cons Flat.pair32 <| Flat.nil

theorem AsyncConfig.readsAny (bs : Bytes) (h : bs.length = 24) :
    ∃ x, ∀ s, Reads AsyncConfig.readFrom s bs x := by
  exact ⟨⟨_, _, _⟩, fun s => by unfold AsyncConfig.readFrom; readsAny⟩

/-- `TableMod`, ofp/table.go:44-54. -/
structure TableMod where
  table : UInt8
  config : UInt32
  deriving DecidableEq, Repr, Inhabited

/-- `(TableMod) WriteTo`, ofp/table.go:58-60. -/
def TableMod.writeTo (x : TableMod) : Wr :=
  Enc.writeTo [
    .bin (be x.table), .bin (zeros 3), .bin (be x.config)]

/-- `(TableMod) ReadFrom`, ofp/table.go:64-66. -/
def TableMod.readFrom : Step TableMod :=
  Enc.readFrom [
    Enc.num (fun v s => { s with table := v }), Enc.skip 3,
    Enc.num (fun v s => { s with config := v })]

theorem TableMod.reads (x s : TableMod) : Reads TableMod.readFrom s x.writeTo.out x := by
  simp only [TableMod.writeTo, Enc.writeTo, Enc.gather, List.append_nil]
  unfold TableMod.readFrom
  reads

theorem TableMod.flat : Flat TableMod.readFrom 8 := by
  unfold TableMod.readFrom
  exact Flat.cons Flat.num <| Flat.cons Flat.skip <| Flat.cons Flat.num <| Flat.nil

theorem TableMod.readsAny (bs : Bytes) (h : bs.length = 8) :
    ∃ x, ∀ s, Reads TableMod.readFrom s bs x := by
  exact ⟨⟨_, _⟩, fun s => by unfold TableMod.readFrom; readsAny⟩

/-- `TableStats`, ofp/table.go:70-83. -/
structure TableStats where
  table : UInt8
  activeCount : UInt32
  lookupCount : UInt64
  matchedCount : UInt64
  deriving DecidableEq, Repr, Inhabited

/-- `(TableStats) WriteTo`, ofp/table.go:87-90. -/
def TableStats.writeTo (x : TableStats) : Wr :=
  Enc.writeTo [
    .bin (be x.table), .bin (zeros 3), .bin (be x.activeCount), .bin (be x.lookupCount),
    .bin (be x.matchedCount)]

/-- `(TableStats) ReadFrom`, ofp/table.go:94-97. -/
def TableStats.readFrom : Step TableStats :=
  Enc.readFrom [
    Enc.num (fun v s => { s with table := v }), Enc.skip 3,
    Enc.num (fun v s => { s with activeCount := v }),
    Enc.num (fun v s => { s with lookupCount := v }),
    Enc.num (fun v s => { s with matchedCount := v })]

theorem TableStats.reads (x s : TableStats) : Reads TableStats.readFrom s x.writeTo.out x := by
  simp only [TableStats.writeTo, Enc.writeTo, Enc.gather, List.append_nil]
  unfold TableStats.readFrom
  reads

theorem TableStats.flat : Flat TableStats.readFrom 24 := by
  unfold TableStats.readFrom
  exact Flat.cons Flat.num <| Flat.cons Flat.skip <| Flat.cons Flat.num <| Flat.cons Flat.num <| Flat.cons Flat.num <| Flat.nil

theorem TableStats.readsAny (bs : Bytes) (h : bs.length = 24) :
    ∃ x, ∀ s, Reads TableStats.readFrom s bs x := by
  exact ⟨⟨_, _, _, _⟩, fun s => by unfold TableStats.readFrom; readsAny⟩

/-- `PortStatsRequest`, ofp/port.go:442-448. -/
structure PortStatsRequest where
  portNo : UInt32
  deriving DecidableEq, Repr, Inhabited

/-- `(PortStatsRequest) WriteTo`, ofp/port.go:452-454. -/
def PortStatsRequest.writeTo (x : PortStatsRequest) : Wr :=
  Enc.writeTo [
    .bin (be x.portNo), .bin (zeros 4)]

/-- `(PortStatsRequest) ReadFrom`, ofp/port.go:458-460. -/
def PortStatsRequest.readFrom : Step PortStatsRequest :=
  Enc.readFrom [
    Enc.num (fun v s => { s with portNo := v }), Enc.skip 4]

theorem PortStatsRequest.reads (x s : PortStatsRequest) : Reads PortStatsRequest.readFrom s x.writeTo.out x := by
  simp only [PortStatsRequest.writeTo, Enc.writeTo, Enc.gather, List.append_nil]
  unfold PortStatsRequest.readFrom
  reads

theorem PortStatsRequest.flat : Flat PortStatsRequest.readFrom 8 := by
  unfold PortStatsRequest.readFrom
  exact Flat.cons Flat.num <| Flat.cons Flat.skip <| Flat.nil

theorem PortStatsRequest.readsAny (bs : Bytes) (h : bs.length = 8) :
    ∃ x, ∀ s, Reads PortStatsRequest.readFrom s bs x := by
  exact ⟨⟨_⟩, fun s => by unfold PortStatsRequest.readFrom; readsAny⟩

/-- `PortStats`, ofp/port.go:464-512. -/
structure PortStats where
  portNo : UInt32
  rxPackets : UInt64
  txPackets : UInt64
  rxBytes : UInt64
  txBytes : UInt64
  rxDropped : UInt64
  txDropped : UInt64
  rxErrors : UInt64
  txErrors : UInt64
  rxFrameErr : UInt64
  rxOverErr : UInt64
  rxCrcErr : UInt64
  collisions : UInt64
  durationSec : UInt32
  durationNSec : UInt32
  deriving DecidableEq, Repr, Inhabited

/-- `(PortStats) WriteTo`, ofp/port.go:516-522. -/
def PortStats.writeTo (x : PortStats) : Wr :=
  Enc.writeTo [
    .bin (be x.portNo), .bin (zeros 4), .bin (be x.rxPackets), .bin (be x.txPackets),
    .bin (be x.rxBytes), .bin (be x.txBytes), .bin (be x.rxDropped), .bin (be x.txDropped),
    .bin (be x.rxErrors), .bin (be x.txErrors), .bin (be x.rxFrameErr), .bin (be x.rxOverErr),
    .bin (be x.rxCrcErr), .bin (be x.collisions), .bin (be x.durationSec),
    .bin (be x.durationNSec)]

/-- `(PortStats) ReadFrom`, ofp/port.go:526-532. -/
def PortStats.readFrom : Step PortStats :=
  Enc.readFrom [
    Enc.num (fun v s => { s with portNo := v }), Enc.skip 4,
    Enc.num (fun v s => { s with rxPackets := v }),
    Enc.num (fun v s => { s with txPackets := v }), Enc.num (fun v s => { s with rxBytes := v }),
    Enc.num (fun v s => { s with txBytes := v }), Enc.num (fun v s => { s with rxDropped := v }),
    Enc.num (fun v s => { s with txDropped := v }),
    Enc.num (fun v s => { s with rxErrors := v }), Enc.num (fun v s => { s with txErrors := v }),
    Enc.num (fun v s => { s with rxFrameErr := v }),
    Enc.num (fun v s => { s with rxOverErr := v }),
    Enc.num (fun v s => { s with rxCrcErr := v }),
    Enc.num (fun v s => { s with collisions := v }),
    Enc.num (fun v s => { s with durationSec := v }),
    Enc.num (fun v s => { s with durationNSec := v })]

theorem PortStats.reads (x s : PortStats) : Reads PortStats.readFrom s x.writeTo.out x := by
  simp only [PortStats.writeTo, Enc.writeTo, Enc.gather, List.append_nil]
  unfold PortStats.readFrom
  reads

theorem PortStats.flat : Flat PortStats.readFrom 112 := by
  unfold PortStats.readFrom
  exact Flat.cons Flat.num <| Flat.cons Flat.skip <| Flat.cons Flat.num <| Flat.cons Flat.num <| Flat.cons Flat.num <| Flat.cons Flat.num <| Flat.cons Flat.num <| Flat.cons Flat.num <| Flat.cons Flat.num <| Flat.cons Flat.num <| Flat.cons Flat.num <| Flat.cons Flat.num <| Flat.cons Flat.num <| Flat.cons Flat.num <| Flat.cons Flat.num <| Flat.cons Flat.num <| Flat.nil

theorem PortStats.readsAny (bs : Bytes) (h : bs.length = 112) :
    ∃ x, ∀ s, Reads PortStats.readFrom s bs x := by
  exact ⟨⟨_, _, _, _, _, _, _, _, _, _, _, _, _, _, _⟩, fun s => by unfold PortStats.readFrom; readsAny⟩

/-- `MeterConfigRequest`, ofp/meter.go:289-292. -/
structure MeterConfigRequest where
  meter : UInt32
  deriving DecidableEq, Repr, Inhabited

/-- `(MeterConfigRequest) WriteTo`, ofp/meter.go:296-298. -/
def MeterConfigRequest.writeTo (x : MeterConfigRequest) : Wr :=
  Enc.writeTo [
    .bin (be x.meter), .bin (zeros 4)]

/-- `(MeterConfigRequest) ReadFrom`, ofp/meter.go:302-304. -/
def MeterConfigRequest.readFrom : Step MeterConfigRequest :=
  Enc.readFrom [
    Enc.num (fun v s => { s with meter := v }), Enc.skip 4]

theorem MeterConfigRequest.reads (x s : MeterConfigRequest) : Reads MeterConfigRequest.readFrom s x.writeTo.out x := by
  simp only [MeterConfigRequest.writeTo, Enc.writeTo, Enc.gather, List.append_nil]
  unfold MeterConfigRequest.readFrom
  reads

theorem MeterConfigRequest.flat : Flat MeterConfigRequest.readFrom 8 := by
  unfold MeterConfigRequest.readFrom
  exact Flat.cons Flat.num <| Flat.cons Flat.skip <| Flat.nil

theorem MeterConfigRequest.readsAny (bs : Bytes) (h : bs.length = 8) :
    ∃ x, ∀ s, Reads MeterConfigRequest.readFrom s bs x := by
  exact ⟨⟨_⟩, fun s => by unfold MeterConfigRequest.readFrom; readsAny⟩

/-- `MeterFeatures`, ofp/meter.go:362-377. -/
structure MeterFeatures where
  maxMeter : UInt32
  bandTypes : UInt32
  capabilities : UInt32
  maxBands : UInt8
  maxColor : UInt8
  deriving DecidableEq, Repr, Inhabited

/-- `(MeterFeatures) WriteTo`, ofp/meter.go:381-384. -/
def MeterFeatures.writeTo (x : MeterFeatures) : Wr :=
  Enc.writeTo [
    .bin (be x.maxMeter), .bin (be x.bandTypes), .bin (be x.capabilities), .bin (be x.maxBands),
    .bin (be x.maxColor), .bin (zeros 2)]

/-- `(MeterFeatures) ReadFrom`, ofp/meter.go:388-391. -/
def MeterFeatures.readFrom : Step MeterFeatures :=
  Enc.readFrom [
    Enc.num (fun v s => { s with maxMeter := v }),
    Enc.num (fun v s => { s with bandTypes := v }),
    Enc.num (fun v s => { s with capabilities := v }),
    Enc.num (fun v s => { s with maxBands := v }), Enc.num (fun v s => { s with maxColor := v }),
    Enc.skip 2]

theorem MeterFeatures.reads (x s : MeterFeatures) : Reads MeterFeatures.readFrom s x.writeTo.out x := by
  simp only [MeterFeatures.writeTo, Enc.writeTo, Enc.gather, List.append_nil]
  unfold MeterFeatures.readFrom
  reads

theorem MeterFeatures.flat : Flat MeterFeatures.readFrom 16 := by
  unfold MeterFeatures.readFrom
  exact Flat.cons Flat.num <| Flat.cons Flat.num <| Flat.cons Flat.num <| Flat.cons Flat.num <| Flat.cons Flat.num <| Flat.cons Flat.skip <| Flat.nil

theorem MeterFeatures.readsAny (bs : Bytes) (h : bs.length = 16) :
    ∃ x, ∀ s, Reads MeterFeatures.readFrom s bs x := by
  exact ⟨⟨_, _, _, _, _⟩, fun s => by unfold MeterFeatures.readFrom; readsAny⟩

/-- `MeterBandStats`, ofp/meter.go:395-401. -/
structure MeterBandStats where
  packetBandCount : UInt64
  byteBandCount : UInt64
  deriving DecidableEq, Repr, Inhabited

/-- `(MeterBandStats) WriteTo`, ofp/meter.go:405-407. -/
def MeterBandStats.writeTo (x : MeterBandStats) : Wr :=
  Enc.writeTo [
    .bin (be x.packetBandCount), .bin (be x.byteBandCount)]

/-- `(MeterBandStats) ReadFrom`, ofp/meter.go:411-413. -/
def MeterBandStats.readFrom : Step MeterBandStats :=
  Enc.readFrom [
    Enc.num (fun v s => { s with packetBandCount := v }),
    Enc.num (fun v s => { s with byteBandCount := v })]

theorem MeterBandStats.reads (x s : MeterBandStats) : Reads MeterBandStats.readFrom s x.writeTo.out x := by
  simp only [MeterBandStats.writeTo, Enc.writeTo, Enc.gather, List.append_nil]
  unfold MeterBandStats.readFrom
  reads

theorem MeterBandStats.flat : Flat MeterBandStats.readFrom 16 := by
  unfold MeterBandStats.readFrom
  exact Flat.cons Flat.num <| Flat.cons Flat.num <| Flat.nil

theorem MeterBandStats.readsAny (bs : Bytes) (h : bs.length = 16) :
    ∃ x, ∀ s, Reads MeterBandStats.readFrom s bs x := by
  exact ⟨⟨_, _⟩, fun s => by unfold MeterBandStats.readFrom; readsAny⟩

/-- `MeterStatsRequest`, ofp/meter.go:417-420. -/
structure MeterStatsRequest where
  meter : UInt32
  deriving DecidableEq, Repr, Inhabited

/-- `(MeterStatsRequest) WriteTo`, ofp/meter.go:424-426. -/
def MeterStatsRequest.writeTo (x : MeterStatsRequest) : Wr :=
  Enc.writeTo [
    .bin (be x.meter), .bin (zeros 4)]

/-- `(MeterStatsRequest) ReadFrom`, ofp/meter.go:430-432. -/
def MeterStatsRequest.readFrom : Step MeterStatsRequest :=
  Enc.readFrom [
    Enc.num (fun v s => { s with meter := v }), Enc.skip 4]

theorem MeterStatsRequest.reads (x s : MeterStatsRequest) : Reads MeterStatsRequest.readFrom s x.writeTo.out x := by
  simp only [MeterStatsRequest.writeTo, Enc.writeTo, Enc.gather, List.append_nil]
  unfold MeterStatsRequest.readFrom
  reads

theorem MeterStatsRequest.flat : Flat MeterStatsRequest.readFrom 8 := by
  unfold MeterStatsRequest.readFrom
  exact Flat.cons Flat.num <| Flat.cons Flat.skip <| Flat.nil

theorem MeterStatsRequest.readsAny (bs : Bytes) (h : bs.length = 8) :
    ∃ x, ∀ s, Reads MeterStatsRequest.readFrom s bs x := by
  exact ⟨⟨_⟩, fun s => by unfold MeterStatsRequest.readFrom; readsAny⟩

/-- `GroupStatsRequest`, ofp/group.go:193-196. -/
structure GroupStatsRequest where
  group : UInt32
  deriving DecidableEq, Repr, Inhabited

/-- `(GroupStatsRequest) WriteTo`, ofp/group.go:200-202. -/
def GroupStatsRequest.writeTo (x : GroupStatsRequest) : Wr :=
  Enc.writeTo [
    .bin (be x.group), .bin (zeros 4)]

/-- `(GroupStatsRequest) ReadFrom`, ofp/group.go:206-208. -/
def GroupStatsRequest.readFrom : Step GroupStatsRequest :=
  Enc.readFrom [
    Enc.num (fun v s => { s with group := v }), Enc.skip 4]

theorem GroupStatsRequest.reads (x s : GroupStatsRequest) : Reads GroupStatsRequest.readFrom s x.writeTo.out x := by
  simp only [GroupStatsRequest.writeTo, Enc.writeTo, Enc.gather, List.append_nil]
  unfold GroupStatsRequest.readFrom
  reads

theorem GroupStatsRequest.flat : Flat GroupStatsRequest.readFrom 8 := by
  unfold GroupStatsRequest.readFrom
  exact Flat.cons Flat.num <| Flat.cons Flat.skip <| Flat.nil

theorem GroupStatsRequest.readsAny (bs : Bytes) (h : bs.length = 8) :
    ∃ x, ∀ s, Reads GroupStatsRequest.readFrom s bs x := by
  exact ⟨⟨_⟩, fun s => by unfold GroupStatsRequest.readFrom; readsAny⟩

/-- `BucketCounter`, ofp/group.go:277-283. -/
structure BucketCounter where
  packetCount : UInt64
  byteCount : UInt64
  deriving DecidableEq, Repr, Inhabited

/-- `(BucketCounter) WriteTo`, ofp/group.go:287-289. -/
def BucketCounter.writeTo (x : BucketCounter) : Wr :=
  Enc.writeTo [
    .bin (be x.packetCount), .bin (be x.byteCount)]

/-- `(BucketCounter) ReadFrom`, ofp/group.go:293-295. -/
def BucketCounter.readFrom : Step BucketCounter :=
  Enc.readFrom [
    Enc.num (fun v s => { s with packetCount := v }),
    Enc.num (fun v s => { s with byteCount := v })]

theorem BucketCounter.reads (x s : BucketCounter) : Reads BucketCounter.readFrom s x.writeTo.out x := by
  simp only [BucketCounter.writeTo, Enc.writeTo, Enc.gather, List.append_nil]
  unfold BucketCounter.readFrom
  reads

theorem BucketCounter.flat : Flat BucketCounter.readFrom 16 := by
  unfold BucketCounter.readFrom
  exact Flat.cons Flat.num <| Flat.cons Flat.num <| Flat.nil

theorem BucketCounter.readsAny (bs : Bytes) (h : bs.length = 16) :
    ∃ x, ∀ s, Reads BucketCounter.readFrom s bs x := by
  exact ⟨⟨_, _⟩, fun s => by unfold BucketCounter.readFrom; readsAny⟩

/-- `GroupFeatures`, ofp/group.go:421-433. -/
structure GroupFeatures where
  types : UInt32
  capabilities : UInt32
  maxGroups : UInt32 × UInt32 × UInt32 × UInt32
  actions : UInt32 × UInt32 × UInt32 × UInt32
  deriving DecidableEq, Repr, Inhabited

/-- `(GroupFeatures) WriteTo`, ofp/group.go:437-440. -/
def GroupFeatures.writeTo (x : GroupFeatures) : Wr :=
  Enc.writeTo [
    .bin (be x.types), .bin (be x.capabilities),
    .bin (be x.maxGroups.1 ++ (be x.maxGroups.2.1 ++ (be x.maxGroups.2.2.1 ++ be x.maxGroups.2.2.2))),
    .bin (be x.actions.1 ++ (be x.actions.2.1 ++ (be x.actions.2.2.1 ++ be x.actions.2.2.2)))]

/-- `(GroupFeatures) ReadFrom`, ofp/group.go:444-447. -/
def GroupFeatures.readFrom : Step GroupFeatures :=
  Enc.readFrom [
    Enc.num (fun v s => { s with types := v }),
    Enc.num (fun v s => { s with capabilities := v }),
    Enc.quad32 (fun v s => { s with maxGroups := v }),
    Enc.quad32 (fun v s => { s with actions := v })]

theorem GroupFeatures.reads (x s : GroupFeatures) : Reads GroupFeatures.readFrom s x.writeTo.out x := by
  simp only [GroupFeatures.writeTo, Enc.writeTo, Enc.gather, List.append_nil]
  unfold GroupFeatures.readFrom
  reads

theorem GroupFeatures.flat : Flat GroupFeatures.readFrom 40 := by
  unfold GroupFeatures.readFrom
  exact Flat.cons Flat.num <| Flat.cons Flat.num <| Flat.cons Flat.quad32 <| Flat.cons Flat.quad32 <| Flat.nil

theorem GroupFeatures.readsAny (bs : Bytes) (h : bs.length = 40) :
    ∃ x, ∀ s, Reads GroupFeatures.readFrom s bs x := by
  exact ⟨⟨_, _, _, _⟩, fun s => by unfold GroupFeatures.readFrom; readsAny⟩

/-- `QueueStatsRequest`, ofp/queue.go:259-265. -/
structure QueueStatsRequest where
  port : UInt32
  queue : UInt32
  deriving DecidableEq, Repr, Inhabited

/-- `(QueueStatsRequest) WriteTo`, ofp/queue.go:269-271. -/
def QueueStatsRequest.writeTo (x : QueueStatsRequest) : Wr :=
  Enc.writeTo [
    .bin (be x.port), .bin (be x.queue)]

/-- `(QueueStatsRequest) ReadFrom`, ofp/queue.go:275-277. -/
def QueueStatsRequest.readFrom : Step QueueStatsRequest :=
  Enc.readFrom [
    Enc.num (fun v s => { s with port := v }), Enc.num (fun v s => { s with queue := v })]

theorem QueueStatsRequest.reads (x s : QueueStatsRequest) : Reads QueueStatsRequest.readFrom s x.writeTo.out x := by
  simp only [QueueStatsRequest.writeTo, Enc.writeTo, Enc.gather, List.append_nil]
  unfold QueueStatsRequest.readFrom
  reads

theorem QueueStatsRequest.flat : Flat QueueStatsRequest.readFrom 8 := by
  unfold QueueStatsRequest.readFrom
  exact Flat.cons Flat.num <| Flat.cons Flat.num <| Flat.nil

theorem QueueStatsRequest.readsAny (bs : Bytes) (h : bs.length = 8) :
    ∃ x, ∀ s, Reads QueueStatsRequest.readFrom s bs x := by
  exact ⟨⟨_, _⟩, fun s => by unfold QueueStatsRequest.readFrom; readsAny⟩

/-- `QueueStats`, ofp/queue.go:282-304. -/
structure QueueStats where
  port : UInt32
  queue : UInt32
  txBytes : UInt64
  txPackets : UInt64
  txErrors : UInt64
  durationSec : UInt32
  durationNSec : UInt32
  deriving DecidableEq, Repr, Inhabited

/-- `(QueueStats) WriteTo`, ofp/queue.go:308-310. -/
def QueueStats.writeTo (x : QueueStats) : Wr :=
  Enc.writeTo [
    .bin (be x.port), .bin (be x.queue), .bin (be x.txBytes), .bin (be x.txPackets),
    .bin (be x.txErrors), .bin (be x.durationSec), .bin (be x.durationNSec)]

/-- `(QueueStats) ReadFrom`, ofp/queue.go:314-317. -/
def QueueStats.readFrom : Step QueueStats :=
  Enc.readFrom [
    Enc.num (fun v s => { s with port := v }), Enc.num (fun v s => { s with queue := v }),
    Enc.num (fun v s => { s with txBytes := v }), Enc.num (fun v s => { s with txPackets := v }),
    Enc.num (fun v s => { s with txErrors := v }),
    Enc.num (fun v s => { s with durationSec := v }),
    Enc.num (fun v s => { s with durationNSec := v })]

theorem QueueStats.reads (x s : QueueStats) : Reads QueueStats.readFrom s x.writeTo.out x := by
  simp only [QueueStats.writeTo, Enc.writeTo, Enc.gather, List.append_nil]
  unfold QueueStats.readFrom
  reads

theorem QueueStats.flat : Flat QueueStats.readFrom 40 := by
  unfold QueueStats.readFrom
  exact Flat.cons Flat.num <| Flat.cons Flat.num <| Flat.cons Flat.num <| Flat.cons Flat.num <| Flat.cons Flat.num <| Flat.cons Flat.num <| Flat.cons Flat.num <| Flat.nil

theorem QueueStats.readsAny (bs : Bytes) (h : bs.length = 40) :
    ∃ x, ∀ s, Reads QueueStats.readFrom s bs x := by
  exact ⟨⟨_, _, _, _, _, _, _⟩, fun s => by unfold QueueStats.readFrom; readsAny⟩

/-- `QueueGetConfigRequest`, ofp/queue.go:321-326. -/
structure QueueGetConfigRequest where
  port : UInt32
  deriving DecidableEq, Repr, Inhabited

/-- `(QueueGetConfigRequest) WriteTo`, ofp/queue.go:330-332. -/
def QueueGetConfigRequest.writeTo (x : QueueGetConfigRequest) : Wr :=
  Enc.writeTo [
    .bin (be x.port), .bin (zeros 4)]

/-- `(QueueGetConfigRequest) ReadFrom`, ofp/queue.go:337-339. -/
def QueueGetConfigRequest.readFrom : Step QueueGetConfigRequest :=
  Enc.readFrom [
    Enc.num (fun v s => { s with port := v }), Enc.skip 4]

theorem QueueGetConfigRequest.reads (x s : QueueGetConfigRequest) : Reads QueueGetConfigRequest.readFrom s x.writeTo.out x := by
  simp only [QueueGetConfigRequest.writeTo, Enc.writeTo, Enc.gather, List.append_nil]
  unfold QueueGetConfigRequest.readFrom
  reads

theorem QueueGetConfigRequest.flat : Flat QueueGetConfigRequest.readFrom 8 := by
  unfold QueueGetConfigRequest.readFrom
  exact Flat.cons Flat.num <| Flat.cons Flat.skip <| Flat.nil

theorem QueueGetConfigRequest.readsAny (bs : Bytes) (h : bs.length = 8) :
    ∃ x, ∀ s, Reads QueueGetConfigRequest.readFrom s bs x := by
  exact ⟨⟨_⟩, fun s => by unfold QueueGetConfigRequest.readFrom; readsAny⟩

end Verif
