import Verif.Counts
import Verif.SafeOn
import Verif.Spec.Wire

/-!
# Decoding untrusted bytes (C39, C41)

Every statement quantifies over every receiver `s` and every reader `r` without a
transport fault (`r.Ok .eof`): every byte string, every fragmentation of it, every nesting of
`io.LimitReader` and `bufio.Reader`.
-/

namespace Verif.Props

/-- The decoder comes to an end on every input (the model's loops have an exhaustion error
`noProgress`, which is in none of the lists below), takes `m` bytes from the reader, reports
`n ≤ m`, and fails with one of the errors in `errs`, if at all. -/
def Total {σ : Type} (dec : Step σ) (errs : List Err) : Prop :=
  ∀ (s : σ) (r : Rd), r.Ok .eof →
    (∃ m, (dec s r).n ≤ m ∧ m ≤ r.content.length ∧ (dec s r).rd.content = r.content.drop m) ∧
    ((dec s r).err = none ∨ ∃ e ∈ errs, (dec s r).err = some e)

/-- The number of bytes the decoder reports is the number of bytes it took from the reader,
whether it succeeds or fails. -/
def Exact {σ : Type} (dec : Step σ) : Prop :=
  ∀ (s : σ) (r : Rd), r.Ok .eof →
    (dec s r).n ≤ r.content.length ∧ (dec s r).rd.content = r.content.drop (dec s r).n

theorem total_of_safe {σ : Type} {dec : Step σ} {E : Err → Prop} {errs : List Err} (h : Safe E dec)
    (he : ∀ e, E e → e ∈ errs) : Total dec errs := by
  intro s r hr
  obtain ⟨⟨m, h1, h2⟩, _, h3⟩ := h s r hr
  have := h2.content
  refine ⟨⟨m, h1, this.1, this.2⟩, ?_⟩
  rcases hx : (dec s r).err with _ | e
  · exact .inl rfl
  · exact .inr ⟨e, he e (h3 e hx), rfl⟩

theorem exact_of_counts {σ : Type} {dec : Step σ} (h : Counts dec) : Exact dec := fun s r hr =>
  (h s r hr).1.content

/-- The errors of an input that ends too early. -/
def short : List Err := [.eof, .unexpectedEOF]

theorem short_of {e : Err} (h : ShortErr e) : e ∈ short := by
  rcases h with rfl | rfl <;> simp [short]

theorem dec_of {e : Err} (h : DecErr e) : e ∈ .unknownType :: short := by
  rcases h with rfl | rfl | rfl <;> simp [short]

theorem act_of {e : Err} (h : ActErr e) : e ∈ .panic :: .unknownType :: short := by
  rcases h with rfl | rfl | rfl | rfl <;> simp [short]

/-- Some bytes, handed out in pieces. -/
private def noise : Rd := .src [0, 5, 10, 15, 0, 0, 5, 10, 0, 20, 0, 5, 0, 15, 20, 0, 0, 10, 15, 20, 0, 5, 10, 15, 0, 0,
    5, 10, 0, 20, 0, 5, 0, 15, 20, 0, 0, 10, 15, 20, 0, 5, 10, 15] [2, 0, 5] .eof true

example : noise.Ok .eof ∧ noise.content.length = 44 := ⟨rfl, rfl⟩

/-! ## C41: no read-ahead

The decoders without a list of typed elements: they take from the reader exactly the bytes
they report, and fail only when the input ends too early. -/

theorem aggregateStats_exact : Exact AggregateStats.readFrom ∧ Total AggregateStats.readFrom short :=
  ⟨exact_of_counts AggregateStats.flat.counts, total_of_safe AggregateStats.flat.safe fun _ => short_of⟩

example : (AggregateStats.readFrom default noise).err = none ∧ (AggregateStats.readFrom default noise).n = 24 := by
  decide +kernel

theorem switchFeatures_exact : Exact SwitchFeatures.readFrom ∧ Total SwitchFeatures.readFrom short :=
  ⟨exact_of_counts SwitchFeatures.flat.counts, total_of_safe SwitchFeatures.flat.safe fun _ => short_of⟩

example : (SwitchFeatures.readFrom default noise).err = none ∧ (SwitchFeatures.readFrom default noise).n = 24 := by
  decide +kernel

theorem switchConfig_exact : Exact SwitchConfig.readFrom ∧ Total SwitchConfig.readFrom short :=
  ⟨exact_of_counts SwitchConfig.flat.counts, total_of_safe SwitchConfig.flat.safe fun _ => short_of⟩

example : (SwitchConfig.readFrom default noise).err = none ∧ (SwitchConfig.readFrom default noise).n = 4 := by
  decide +kernel

theorem multipartReply_exact : Exact MultipartReply.readFrom ∧ Total MultipartReply.readFrom short :=
  ⟨exact_of_counts MultipartReply.flat.counts, total_of_safe MultipartReply.flat.safe fun _ => short_of⟩

example : (MultipartReply.readFrom default noise).err = none ∧ (MultipartReply.readFrom default noise).n = 8 := by
  decide +kernel

theorem experimenterMultipartHeader_exact : Exact ExperimenterMultipartHeader.readFrom ∧ Total ExperimenterMultipartHeader.readFrom short :=
  ⟨exact_of_counts ExperimenterMultipartHeader.flat.counts, total_of_safe ExperimenterMultipartHeader.flat.safe fun _ => short_of⟩

example : (ExperimenterMultipartHeader.readFrom default noise).err = none ∧ (ExperimenterMultipartHeader.readFrom default noise).n = 8 := by
  decide +kernel

theorem experimenter_exact : Exact Experimenter.readFrom ∧ Total Experimenter.readFrom short :=
  ⟨exact_of_counts Experimenter.flat.counts, total_of_safe Experimenter.flat.safe fun _ => short_of⟩

example : (Experimenter.readFrom default noise).err = none ∧ (Experimenter.readFrom default noise).n = 8 := by
  decide +kernel

theorem roleRequest_exact : Exact RoleRequest.readFrom ∧ Total RoleRequest.readFrom short :=
  ⟨exact_of_counts RoleRequest.flat.counts, total_of_safe RoleRequest.flat.safe fun _ => short_of⟩

example : (RoleRequest.readFrom default noise).err = none ∧ (RoleRequest.readFrom default noise).n = 16 := by
  decide +kernel

theorem asyncConfig_exact : Exact AsyncConfig.readFrom ∧ Total AsyncConfig.readFrom short :=
  ⟨exact_of_counts AsyncConfig.flat.counts, total_of_safe AsyncConfig.flat.safe fun _ => short_of⟩

example : (AsyncConfig.readFrom default noise).err = none ∧ (AsyncConfig.readFrom default noise).n = 24 := by
  decide +kernel

theorem tableMod_exact : Exact TableMod.readFrom ∧ Total TableMod.readFrom short :=
  ⟨exact_of_counts TableMod.flat.counts, total_of_safe TableMod.flat.safe fun _ => short_of⟩

example : (TableMod.readFrom default noise).err = none ∧ (TableMod.readFrom default noise).n = 8 := by
  decide +kernel

theorem tableStats_exact : Exact TableStats.readFrom ∧ Total TableStats.readFrom short :=
  ⟨exact_of_counts TableStats.flat.counts, total_of_safe TableStats.flat.safe fun _ => short_of⟩

example : (TableStats.readFrom default noise).err = none ∧ (TableStats.readFrom default noise).n = 24 := by
  decide +kernel

theorem portStatsRequest_exact : Exact PortStatsRequest.readFrom ∧ Total PortStatsRequest.readFrom short :=
  ⟨exact_of_counts PortStatsRequest.flat.counts, total_of_safe PortStatsRequest.flat.safe fun _ => short_of⟩

example : (PortStatsRequest.readFrom default noise).err = none ∧ (PortStatsRequest.readFrom default noise).n = 8 := by
  decide +kernel

theorem portStats_exact : Exact PortStats.readFrom ∧ Total PortStats.readFrom short :=
  ⟨exact_of_counts PortStats.flat.counts, total_of_safe PortStats.flat.safe fun _ => short_of⟩

example : (PortStats.readFrom default noise).err = some .unexpectedEOF ∧ (PortStats.readFrom default noise).n = 44 := by
  decide +kernel

theorem meterConfigRequest_exact : Exact MeterConfigRequest.readFrom ∧ Total MeterConfigRequest.readFrom short :=
  ⟨exact_of_counts MeterConfigRequest.flat.counts, total_of_safe MeterConfigRequest.flat.safe fun _ => short_of⟩

example : (MeterConfigRequest.readFrom default noise).err = none ∧ (MeterConfigRequest.readFrom default noise).n = 8 := by
  decide +kernel

theorem meterFeatures_exact : Exact MeterFeatures.readFrom ∧ Total MeterFeatures.readFrom short :=
  ⟨exact_of_counts MeterFeatures.flat.counts, total_of_safe MeterFeatures.flat.safe fun _ => short_of⟩

example : (MeterFeatures.readFrom default noise).err = none ∧ (MeterFeatures.readFrom default noise).n = 16 := by
  decide +kernel

theorem meterBandStats_exact : Exact MeterBandStats.readFrom ∧ Total MeterBandStats.readFrom short :=
  ⟨exact_of_counts MeterBandStats.flat.counts, total_of_safe MeterBandStats.flat.safe fun _ => short_of⟩

example : (MeterBandStats.readFrom default noise).err = none ∧ (MeterBandStats.readFrom default noise).n = 16 := by
  decide +kernel

theorem meterStatsRequest_exact : Exact MeterStatsRequest.readFrom ∧ Total MeterStatsRequest.readFrom short :=
  ⟨exact_of_counts MeterStatsRequest.flat.counts, total_of_safe MeterStatsRequest.flat.safe fun _ => short_of⟩

example : (MeterStatsRequest.readFrom default noise).err = none ∧ (MeterStatsRequest.readFrom default noise).n = 8 := by
  decide +kernel

theorem groupStatsRequest_exact : Exact GroupStatsRequest.readFrom ∧ Total GroupStatsRequest.readFrom short :=
  ⟨exact_of_counts GroupStatsRequest.flat.counts, total_of_safe GroupStatsRequest.flat.safe fun _ => short_of⟩

example : (GroupStatsRequest.readFrom default noise).err = none ∧ (GroupStatsRequest.readFrom default noise).n = 8 := by
  decide +kernel

theorem bucketCounter_exact : Exact BucketCounter.readFrom ∧ Total BucketCounter.readFrom short :=
  ⟨exact_of_counts BucketCounter.flat.counts, total_of_safe BucketCounter.flat.safe fun _ => short_of⟩

example : (BucketCounter.readFrom default noise).err = none ∧ (BucketCounter.readFrom default noise).n = 16 := by
  decide +kernel

theorem groupFeatures_exact : Exact GroupFeatures.readFrom ∧ Total GroupFeatures.readFrom short :=
  ⟨exact_of_counts GroupFeatures.flat.counts, total_of_safe GroupFeatures.flat.safe fun _ => short_of⟩

example : (GroupFeatures.readFrom default noise).err = none ∧ (GroupFeatures.readFrom default noise).n = 40 := by
  decide +kernel

theorem queueStatsRequest_exact : Exact QueueStatsRequest.readFrom ∧ Total QueueStatsRequest.readFrom short :=
  ⟨exact_of_counts QueueStatsRequest.flat.counts, total_of_safe QueueStatsRequest.flat.safe fun _ => short_of⟩

example : (QueueStatsRequest.readFrom default noise).err = none ∧ (QueueStatsRequest.readFrom default noise).n = 8 := by
  decide +kernel

theorem queueStats_exact : Exact QueueStats.readFrom ∧ Total QueueStats.readFrom short :=
  ⟨exact_of_counts QueueStats.flat.counts, total_of_safe QueueStats.flat.safe fun _ => short_of⟩

example : (QueueStats.readFrom default noise).err = none ∧ (QueueStats.readFrom default noise).n = 40 := by
  decide +kernel

theorem queueGetConfigRequest_exact : Exact QueueGetConfigRequest.readFrom ∧ Total QueueGetConfigRequest.readFrom short :=
  ⟨exact_of_counts QueueGetConfigRequest.flat.counts, total_of_safe QueueGetConfigRequest.flat.safe fun _ => short_of⟩

example : (QueueGetConfigRequest.readFrom default noise).err = none ∧ (QueueGetConfigRequest.readFrom default noise).n = 8 := by
  decide +kernel

theorem port_exact : Exact Port.readFrom ∧ Total Port.readFrom short :=
  ⟨exact_of_counts Port.flat.counts, total_of_safe Port.flat.safe fun _ => short_of⟩

example : (Port.readFrom default noise).err = some .eof ∧ (Port.readFrom default noise).n = 44 := by
  decide +kernel

theorem portStatus_exact : Exact PortStatus.readFrom ∧ Total PortStatus.readFrom short :=
  ⟨exact_of_counts PortStatus.flat.counts, total_of_safe PortStatus.flat.safe fun _ => short_of⟩

example : (PortStatus.readFrom default noise).err = some .eof ∧ (PortStatus.readFrom default noise).n = 44 := by
  decide +kernel

theorem description_exact : Exact Description.readFrom ∧ Total Description.readFrom short :=
  ⟨exact_of_counts Description.flat.counts, total_of_safe Description.flat.safe fun _ => short_of⟩

example : (Description.readFrom default noise).err = some .unexpectedEOF ∧ (Description.readFrom default noise).n = 44 := by
  decide +kernel

theorem meterBand_exact : Exact MeterBand.readFrom ∧ Total MeterBand.readFrom short :=
  ⟨exact_of_counts MeterBand.flat.counts, total_of_safe MeterBand.flat.safe fun _ => short_of⟩

example : (MeterBand.readFrom default noise).err = none ∧ (MeterBand.readFrom default noise).n = 16 := by
  decide +kernel

theorem match_exact : Exact Match.readFrom ∧ Total Match.readFrom short :=
  ⟨exact_of_counts Match.readFrom_counts, total_of_safe Match.readFrom_safe fun _ => short_of⟩

example : (Match.readFrom default noise).err = some .unexpectedEOF ∧ (Match.readFrom default noise).n = 44 := by
  decide +kernel

theorem action_exact : Exact Action.readFrom ∧ Total Action.readFrom short :=
  ⟨exact_of_counts Action.readFrom_counts, total_of_safe Action.readFrom_safe fun _ => short_of⟩

example : (Action.readFrom default noise).err = none ∧ (Action.readFrom default noise).n = 16 := by
  decide +kernel

theorem helloElem_exact : Exact HelloElem.readFrom ∧ Total HelloElem.readFrom short :=
  ⟨exact_of_counts HelloElem.readFrom_counts, total_of_safe HelloElem.readFrom_safe fun _ => short_of⟩

example : (HelloElem.readFrom default noise).err = some .unexpectedEOF ∧ (HelloElem.readFrom default noise).n = 44 := by
  decide +kernel

theorem queueProp_exact : Exact QueueProp.readFrom ∧ Total QueueProp.readFrom short :=
  ⟨exact_of_counts QueueProp.readFrom_counts, total_of_safe QueueProp.readFrom_safe fun _ => short_of⟩

example : (QueueProp.readFrom default noise).err = none ∧ (QueueProp.readFrom default noise).n = 16 := by
  decide +kernel

theorem tableProp_exact : Exact TableProp.readFrom ∧ Total TableProp.readFrom short :=
  ⟨exact_of_counts TableProp.readFrom_counts, total_of_safe TableProp.readFrom_safe fun _ => short_of⟩

example : (TableProp.readFrom default noise).err = some .eof ∧ (TableProp.readFrom default noise).n = 44 := by
  decide +kernel

theorem packetIn_exact : Exact PacketIn.readFrom ∧ Total PacketIn.readFrom short :=
  ⟨exact_of_counts PacketIn.readFrom_counts, total_of_safe PacketIn.readFrom_safe fun _ => short_of⟩

example : (PacketIn.readFrom default noise).err = some .unexpectedEOF ∧ (PacketIn.readFrom default noise).n = 44 := by
  decide +kernel

theorem flowRemoved_exact : Exact FlowRemoved.readFrom ∧ Total FlowRemoved.readFrom short :=
  ⟨exact_of_counts FlowRemoved.readFrom_counts, total_of_safe FlowRemoved.readFrom_safe fun _ => short_of⟩

example : (FlowRemoved.readFrom default noise).err = some .eof ∧ (FlowRemoved.readFrom default noise).n = 44 := by
  decide +kernel

theorem flowStatsRequest_exact : Exact FlowStatsRequest.readFrom ∧ Total FlowStatsRequest.readFrom short :=
  ⟨exact_of_counts FlowStatsRequest.readFrom_counts, total_of_safe FlowStatsRequest.readFrom_safe fun _ => short_of⟩

example : (FlowStatsRequest.readFrom default noise).err = some .unexpectedEOF ∧ (FlowStatsRequest.readFrom default noise).n = 44 := by
  decide +kernel

theorem aggregateStatsRequest_exact : Exact AggregateStatsRequest.readFrom ∧ Total AggregateStatsRequest.readFrom short :=
  ⟨exact_of_counts AggregateStatsRequest.readFrom_counts, total_of_safe AggregateStatsRequest.readFrom_safe fun _ => short_of⟩

example : (AggregateStatsRequest.readFrom default noise).err = some .unexpectedEOF ∧ (AggregateStatsRequest.readFrom default noise).n = 44 := by
  decide +kernel

theorem groupStats_exact : Exact GroupStats.readFrom ∧ Total GroupStats.readFrom short :=
  ⟨exact_of_counts GroupStats.readFrom_counts, total_of_safe GroupStats.readFrom_safe fun _ => short_of⟩

example : (GroupStats.readFrom default noise).err = some .unexpectedEOF ∧ (GroupStats.readFrom default noise).n = 44 := by
  decide +kernel

theorem meterStats_exact : Exact MeterStats.readFrom ∧ Total MeterStats.readFrom short :=
  ⟨exact_of_counts MeterStats.readFrom_counts, total_of_safe MeterStats.readFrom_safe fun _ => short_of⟩

example : (MeterStats.readFrom default noise).err = some .unexpectedEOF ∧ (MeterStats.readFrom default noise).n = 44 := by
  decide +kernel

theorem portMod_exact : Exact PortMod.readFrom ∧ Total PortMod.readFrom short :=
  ⟨exact_of_counts PortMod.readFrom_counts, total_of_safe PortMod.readFrom_safe fun _ => short_of⟩

example : (PortMod.readFrom default noise).err = none ∧ (PortMod.readFrom default noise).n = 26 := by
  decide +kernel

theorem ports_exact : Exact Ports.readFrom ∧ Total Ports.readFrom short :=
  ⟨exact_of_counts Ports.readFrom_counts, total_of_safe Ports.readFrom_safe fun _ => short_of⟩

example : (Ports.readFrom default noise).err = none ∧ (Ports.readFrom default noise).n = 44 := by
  decide +kernel

theorem echoRequest_exact : Exact EchoRequest.readFrom ∧ Total EchoRequest.readFrom short :=
  ⟨exact_of_counts EchoRequest.readFrom_counts, total_of_safe EchoRequest.readFrom_safe fun _ => short_of⟩

example : (EchoRequest.readFrom default noise).err = none ∧ (EchoRequest.readFrom default noise).n = 44 := by
  decide +kernel

theorem echoReply_exact : Exact EchoReply.readFrom ∧ Total EchoReply.readFrom short :=
  ⟨exact_of_counts EchoReply.readFrom_counts, total_of_safe EchoReply.readFrom_safe fun _ => short_of⟩

example : (EchoReply.readFrom default noise).err = none ∧ (EchoReply.readFrom default noise).n = 44 := by
  decide +kernel

theorem ofpError_exact : Exact OfpError.readFrom ∧ Total OfpError.readFrom short :=
  ⟨exact_of_counts OfpError.readFrom_counts, total_of_safe OfpError.readFrom_safe fun _ => short_of⟩

example : (OfpError.readFrom default noise).err = none ∧ (OfpError.readFrom default noise).n = 44 := by
  decide +kernel

theorem errorExperimenter_exact : Exact ErrorExperimenter.readFrom ∧ Total ErrorExperimenter.readFrom short :=
  ⟨exact_of_counts ErrorExperimenter.readFrom_counts, total_of_safe ErrorExperimenter.readFrom_safe fun _ => short_of⟩

example : (ErrorExperimenter.readFrom default noise).err = none ∧ (ErrorExperimenter.readFrom default noise).n = 44 := by
  decide +kernel

theorem multipartRequest_exact : Exact MultipartRequest.readFrom ∧ Total MultipartRequest.readFrom short :=
  ⟨exact_of_counts MultipartRequest.readFrom_counts, total_of_safe MultipartRequest.readFrom_safe fun _ => short_of⟩

example : (MultipartRequest.readFrom default noise).err = none ∧ (MultipartRequest.readFrom default noise).n = 44 := by
  decide +kernel

theorem xm_exact : Exact XM.readFrom ∧ Total XM.readFrom short :=
  ⟨exact_of_counts (XM.read_counts true), total_of_safe (XM.read_safe true) fun _ => short_of⟩

example : (XM.readFrom default noise).err = none ∧ (XM.readFrom default noise).n = 19 := by
  decide +kernel

/-- The definitions are not vacuous: on a readable input the decoders above do succeed, and an
input can be long enough to leave something. -/
example : (Rd.src ([0, 1, 0, 8, 0, 0, 0, 0] ++ [9, 9]) [3, 1] .eof true).Ok .eof := by simp [Rd.Ok]

/-! ## C39, C41: lists of typed elements -/

/-- C39, C41.  Any input: the decoder ends, does not panic, reports at most what it took. -/
theorem helloElems_untrusted : Total HelloElems.readFrom (.unknownType :: short) :=
  total_of_safe HelloElems.readFrom_safe fun _ => dec_of

example : (HelloElems.readFrom default noise).err = some .unknownType ∧ (HelloElems.readFrom default noise).n = 0 := by
  decide +kernel

/-- C39, C41.  Any input: the decoder ends, does not panic, reports at most what it took. -/
theorem hello_untrusted : Total Hello.readFrom (.unknownType :: short) :=
  total_of_safe Hello.readFrom_safe fun _ => dec_of

example : (Hello.readFrom default noise).err = some .unknownType ∧ (Hello.readFrom default noise).n = 0 := by
  decide +kernel

/-- C39, C41.  Any input: the decoder ends, does not panic, reports at most what it took. -/
theorem meterBands_untrusted : Total MeterBands.readFrom (.unknownType :: short) :=
  total_of_safe MeterBands.readFrom_safe fun _ => dec_of

example : (MeterBands.readFrom default noise).err = some .unknownType ∧ (MeterBands.readFrom default noise).n = 0 := by
  decide +kernel

/-- C39, C41.  Any input: the decoder ends, does not panic, reports at most what it took. -/
theorem meterMod_untrusted : Total MeterMod.readFrom (.unknownType :: short) :=
  total_of_safe MeterMod.readFrom_safe fun _ => dec_of

example : (MeterMod.readFrom default noise).err = some .unknownType ∧ (MeterMod.readFrom default noise).n = 8 := by
  decide +kernel

/-- C39, C41.  Any input: the decoder ends, does not panic, reports at most what it took. -/
theorem meterConfig_untrusted : Total MeterConfig.readFrom (.unknownType :: short) :=
  total_of_safe MeterConfig.readFrom_safe fun _ => dec_of

example : (MeterConfig.readFrom default noise).err = some .unknownType ∧ (MeterConfig.readFrom default noise).n = 8 := by
  decide +kernel

/-- C39, C41.  Any input: the decoder ends, does not panic, reports at most what it took. -/
theorem queueProps_untrusted : Total QueueProps.readFrom (.unknownType :: short) :=
  total_of_safe QueueProps.readFrom_safe fun _ => dec_of

example : (QueueProps.readFrom default noise).err = some .unknownType ∧ (QueueProps.readFrom default noise).n = 0 := by
  decide +kernel

/-- C39, C41.  Any input: the decoder ends, does not panic, reports at most what it took. -/
theorem packetQueue_untrusted : Total PacketQueue.readFrom (.unknownType :: short) :=
  total_of_safe PacketQueue.readFrom_safe fun _ => dec_of

example : (PacketQueue.readFrom default noise).err = some .unknownType ∧ (PacketQueue.readFrom default noise).n = 16 := by
  decide +kernel

/-- C39, C41.  Any input: the decoder ends, does not panic, reports at most what it took. -/
theorem queueGetConfigReply_untrusted : Total QueueGetConfigReply.readFrom (.unknownType :: short) :=
  total_of_safe QueueGetConfigReply.readFrom_safe fun _ => dec_of

example : (QueueGetConfigReply.readFrom default noise).err = some .unknownType ∧ (QueueGetConfigReply.readFrom default noise).n = 24 := by
  decide +kernel

/-- C39, C41.  Any input: the decoder ends, does not panic, reports at most what it took. -/
theorem tableFeatures_untrusted : Total TableFeatures.readFrom (.unknownType :: short) :=
  total_of_safe TableFeatures.readFrom_safe fun _ => dec_of

example : (TableFeatures.readFrom default noise).err = some .unexpectedEOF ∧ (TableFeatures.readFrom default noise).n = 44 := by
  decide +kernel

/-- An input (of any size) in which byte 0 is nowhere followed by byte 27. -/
def NoCode27 (b : List UInt8) : Prop := ∀ i : Nat, ¬ (b[i]? = some 0 ∧ b[i + 1]? = some 27)

theorem noCode27 {b : Bytes} (h : NoCode27 b) : NoPopPBB b := by
  rintro x y rfl
  exact h x.length (by simp)

/-- As `Total`, for inputs that satisfy `P`. -/
def TotalOn {σ : Type} (P : Bytes → Prop) (dec : Step σ) (errs : List Err) : Prop :=
  ∀ (s : σ) (r : Rd), r.Ok .eof → P r.content →
    (∃ m, (dec s r).n ≤ m ∧ m ≤ r.content.length ∧ (dec s r).rd.content = r.content.drop m) ∧
    ((dec s r).err = none ∨ ∃ e ∈ errs, (dec s r).err = some e)

theorem totalOn_of_safe {σ : Type} {dec : Step σ} (h : SafeOn NoPopPBB DecErr dec) :
    TotalOn NoCode27 dec (.unknownType :: short) := by
  intro s r hr hP
  obtain ⟨⟨m, h1, h2⟩, _, h3⟩ := h s r hr (noCode27 hP)
  have := h2.content
  refine ⟨⟨m, h1, this.1, this.2⟩, ?_⟩
  rcases hx : (dec s r).err with _ | e
  · exact .inl rfl
  · exact .inr ⟨e, dec_of (h3 e hx), rfl⟩

example : NoCode27 [0, 25, 0, 16, 128, 0, 6, 6, 27, 0, 1, 2, 3, 4, 0, 0] := by
  intro i
  by_cases h : i < 16
  · revert i; decide
  · rintro ⟨h1, _⟩
    rw [List.getElem?_eq_none (by simpa using h)] at h1
    cases h1

example : NoCode27 noise.content := by
  intro i
  by_cases h : i < 44
  · revert i; decide +kernel
  · rintro ⟨h1, _⟩
    rw [List.getElem?_eq_none (by simpa [noise, Rd.content] using h)] at h1
    cases h1

/-- C41.  The decoder ends on any input. -/
theorem actions_ends : Total Actions.readFrom (.panic :: .unknownType :: short) :=
  total_of_safe Actions.readFrom_safe fun _ => act_of

/-- C39.  Decoding does not panic on an input without the bytes of type code 27.  Missing: the
inputs with these bytes, on which it can panic (`actions_panic`). -/
theorem actions_untrusted_partial : TotalOn NoCode27 Actions.readFrom (.unknownType :: short) :=
  totalOn_of_safe Actions.readFrom_safeOn

example : (Actions.readFrom default noise).err = some .unknownType ∧ (Actions.readFrom default noise).n = 0 := by
  decide +kernel

/-- C41.  The decoder ends on any input. -/
theorem instruction_ends : Total Instruction.readFrom (.panic :: .unknownType :: short) :=
  total_of_safe Instruction.readFrom_safe fun _ => act_of

/-- C39.  Decoding does not panic on an input without the bytes of type code 27.  Missing: the
inputs with these bytes, on which it can panic (`actions_panic`). -/
theorem instruction_untrusted_partial : TotalOn NoCode27 Instruction.readFrom (.unknownType :: short) :=
  totalOn_of_safe Instruction.readFrom_safeOn

example : (Instruction.readFrom default noise).err = none ∧ (Instruction.readFrom default noise).n = 8 := by
  decide +kernel

/-- C41.  The decoder ends on any input. -/
theorem instructions_ends : Total Instructions.readFrom (.panic :: .unknownType :: short) :=
  total_of_safe Instructions.readFrom_safe fun _ => act_of

/-- C39.  Decoding does not panic on an input without the bytes of type code 27.  Missing: the
inputs with these bytes, on which it can panic (`actions_panic`). -/
theorem instructions_untrusted_partial : TotalOn NoCode27 Instructions.readFrom (.unknownType :: short) :=
  totalOn_of_safe Instructions.readFrom_safeOn

example : (Instructions.readFrom default noise).err = some .unknownType ∧ (Instructions.readFrom default noise).n = 8 := by
  decide +kernel

/-- C41.  The decoder ends on any input. -/
theorem flowMod_ends : Total FlowMod.readFrom (.panic :: .unknownType :: short) :=
  total_of_safe FlowMod.readFrom_safe fun _ => act_of

/-- C39.  Decoding does not panic on an input without the bytes of type code 27.  Missing: the
inputs with these bytes, on which it can panic (`actions_panic`). -/
theorem flowMod_untrusted_partial : TotalOn NoCode27 FlowMod.readFrom (.unknownType :: short) :=
  totalOn_of_safe FlowMod.readFrom_safeOn

example : (FlowMod.readFrom default noise).err = some .eof ∧ (FlowMod.readFrom default noise).n = 44 := by
  decide +kernel

/-- C41.  The decoder ends on any input. -/
theorem flowStats_ends : Total FlowStats.readFrom (.panic :: .unknownType :: short) :=
  total_of_safe FlowStats.readFrom_safe fun _ => act_of

/-- C39.  Decoding does not panic on an input without the bytes of type code 27.  Missing: the
inputs with these bytes, on which it can panic (`actions_panic`). -/
theorem flowStats_untrusted_partial : TotalOn NoCode27 FlowStats.readFrom (.unknownType :: short) :=
  totalOn_of_safe FlowStats.readFrom_safeOn

example : (FlowStats.readFrom default noise).err = some .unexpectedEOF ∧ (FlowStats.readFrom default noise).n = 44 := by
  decide +kernel

/-- C41.  The decoder ends on any input. -/
theorem bucket_ends : Total Bucket.readFrom (.panic :: .unknownType :: short) :=
  total_of_safe Bucket.readFrom_safe fun _ => act_of

/-- C39.  Decoding does not panic on an input without the bytes of type code 27.  Missing: the
inputs with these bytes, on which it can panic (`actions_panic`). -/
theorem bucket_untrusted_partial : TotalOn NoCode27 Bucket.readFrom (.unknownType :: short) :=
  totalOn_of_safe Bucket.readFrom_safeOn

example : (Bucket.readFrom default noise).err = some .unknownType ∧ (Bucket.readFrom default noise).n = 16 := by
  decide +kernel

/-- C41.  The decoder ends on any input. -/
theorem groupMod_ends : Total GroupMod.readFrom (.panic :: .unknownType :: short) :=
  total_of_safe GroupMod.readFrom_safe fun _ => act_of

/-- C39.  Decoding does not panic on an input without the bytes of type code 27.  Missing: the
inputs with these bytes, on which it can panic (`actions_panic`). -/
theorem groupMod_untrusted_partial : TotalOn NoCode27 GroupMod.readFrom (.unknownType :: short) :=
  totalOn_of_safe GroupMod.readFrom_safeOn

example : (GroupMod.readFrom default noise).err = none ∧ (GroupMod.readFrom default noise).n = 44 := by
  decide +kernel

/-- C41.  The decoder ends on any input. -/
theorem groupDescStats_ends : Total GroupDescStats.readFrom (.panic :: .unknownType :: short) :=
  total_of_safe GroupDescStats.readFrom_safe fun _ => act_of

/-- C39.  Decoding does not panic on an input without the bytes of type code 27.  Missing: the
inputs with these bytes, on which it can panic (`actions_panic`). -/
theorem groupDescStats_untrusted_partial : TotalOn NoCode27 GroupDescStats.readFrom (.unknownType :: short) :=
  totalOn_of_safe GroupDescStats.readFrom_safeOn

example : (GroupDescStats.readFrom default noise).err = none ∧ (GroupDescStats.readFrom default noise).n = 44 := by
  decide +kernel

/-- C41.  The decoder ends on any input. -/
theorem packetOut_ends : Total PacketOut.readFrom (.panic :: .unknownType :: short) :=
  total_of_safe PacketOut.readFrom_safe fun _ => act_of

/-- C39.  Decoding does not panic on an input without the bytes of type code 27.  Missing: the
inputs with these bytes, on which it can panic (`actions_panic`). -/
theorem packetOut_untrusted_partial : TotalOn NoCode27 PacketOut.readFrom (.unknownType :: short) :=
  totalOn_of_safe PacketOut.readFrom_safeOn

example : (PacketOut.readFrom default noise).err = some .unknownType ∧ (PacketOut.readFrom default noise).n = 16 := by
  decide +kernel

/-! ## C39: unknown types, after any valid elements and before anything -/

/-- C39 is false of the code: after any valid actions, an action of type 27 (`ActionPopPBB`)
makes the decoder panic. -/
theorem actions_panic (as s : List Action) (tail : Bytes) (hv : ∀ a ∈ as, a.Valid) (r : Rd)
    (hr : r.Ok .eof) (hc : r.content = (Actions.writeTo as).out ++ (0 :: 27 :: tail)) :
    (Actions.readFrom s r).err = some .panic := by
  rw [Actions.writeTo_eq] at hc
  obtain ⟨h1, h2, h3⟩ := scanFrom_unknown (enc := Action.bytes) (zero := Action.zero) (code := Action.type)
    27 .panic tail rfl [] as (fun a ha => a.reads (hv a ha)) (fun a _ => actionMake_type a)
    (fun a _ => a.bytes_type) r hr hc
  rcases ho : Enc.scanFrom actionMake Action.readFrom [] r with ⟨v, n, e, r'⟩
  rw [ho] at h1 h2 h3
  simp only at h1 h2 h3
  subst h2
  simp [Actions.readFrom, Enc.readFrom, Enc.assign, ho]

/-- C39.  An action of any unregistered type is rejected; the actions before it are the result. -/
theorem actions_unknown (as s : List Action) (c : UInt16) (tail : Bytes) (hv : ∀ a ∈ as, a.Valid)
    (hc0 : c.toNat ∉ [0, 11, 12, 15, 16, 17, 18, 19, 20, 21, 22, 23, 24, 25, 26, 27, 65535]) (r : Rd)
    (hr : r.Ok .eof) (hc : r.content = (Actions.writeTo as).out ++ (be c ++ tail)) :
    (Actions.readFrom s r).err = some .unknownType ∧ (Actions.readFrom s r).val = as ∧
      (Actions.readFrom s r).n = (Actions.writeTo as).out.length := by
  rw [Actions.writeTo_eq] at hc ⊢
  have hmk : actionMake c = .error .unknownType := by
    unfold actionMake; split <;> first | rfl | (rename_i h; simp [h] at hc0)
  obtain ⟨h1, h2, h3⟩ := scanFrom_unknown (enc := Action.bytes) (zero := Action.zero) (code := Action.type)
    c .unknownType tail hmk [] as (fun a ha => a.reads (hv a ha)) (fun a _ => actionMake_type a)
    (fun a _ => a.bytes_type) r hr hc
  rcases ho : Enc.scanFrom actionMake Action.readFrom [] r with ⟨v, n, e, r'⟩
  rw [ho] at h1 h2 h3
  simp only at h1 h2 h3
  subst h2
  simp [Actions.readFrom, Enc.readFrom, Enc.assign, ho, h1, h3, Actions.bytes]

/-- C39.  An instruction of any unregistered type is rejected. -/
theorem instructions_unknown (is s : List Instruction) (c : UInt16) (tail : Bytes)
    (hv : ∀ i ∈ is, i.Valid) (hc0 : c.toNat ∉ [1, 2, 3, 4, 5, 6]) (r : Rd)
    (hr : r.Ok .eof) (hc : r.content = (Instructions.writeTo is).out ++ (be c ++ tail)) :
    (Instructions.readFrom s r).err = some .unknownType ∧ (Instructions.readFrom s r).val = s ++ is ∧
      (Instructions.readFrom s r).n = (Instructions.writeTo is).out.length := by
  rw [Instructions.writeTo_eq] at hc ⊢
  have hmk : instructionMake c = .error .unknownType := by
    unfold instructionMake; split <;> first | rfl | (rename_i h; simp [h] at hc0)
  obtain ⟨h1, h2, h3⟩ := scanFrom_unknown (enc := Instruction.bytes) (zero := Instruction.zero)
    (code := Instruction.type) c .unknownType tail hmk s is (fun a ha => a.reads (hv a ha))
    (fun a _ => instructionMake_type a) (fun a _ => a.bytes_type) r hr hc
  exact ⟨h2, h1, h3⟩

/-- C39.  A hello element of any unregistered type is rejected. -/
theorem hello_unknown (h s : Hello) (c : UInt16) (tail : Bytes) (hv : ∀ e ∈ h.elements, e.Valid)
    (hc0 : c.toNat ≠ 1) (r : Rd) (hr : r.Ok .eof) (hc : r.content = h.writeTo.out ++ (be c ++ tail)) :
    (Hello.readFrom s r).err = some .unknownType ∧ (Hello.readFrom s r).n = h.writeTo.out.length := by
  rw [Hello.writeTo_eq] at hc ⊢
  have hmk : helloElemMake c = .error .unknownType := by
    unfold helloElemMake; split <;> first | rfl | (rename_i h; simp [h] at hc0)
  have hb : HelloElems.bytes h.elements = (h.elements.map HelloElem.canonical).flatMap HelloElem.bytes := by
    simp only [HelloElems.bytes, List.flatMap_map, HelloElem.canonical_bytes]
  simp only [hb] at hc ⊢
  obtain ⟨h1, h2, h3⟩ := scanFrom_unknown (enc := HelloElem.bytes) (zero := fun _ => .versionBitmap [])
    (code := HelloElem.type) (st := HelloElem.readFrom) c .unknownType tail hmk s.elements
    (h.elements.map HelloElem.canonical) (by
      intro x hx
      obtain ⟨e, he, rfl⟩ := List.mem_map.1 hx
      have := e.canonical.reads (.versionBitmap []) (by
        rw [HelloElem.Valid, HelloElem.canonical_size]; exact hv e he)
      rwa [HelloElem.canonical_idem] at this)
    (by intro x _; cases x; rfl) (by intro x _; cases x; exact ⟨_, HelloElem.bytes_eq _⟩) r hr hc
  rcases ho : Enc.scanFrom helloElemMake HelloElem.readFrom s.elements r with ⟨v, n, e, r'⟩
  rw [ho] at h1 h2 h3
  simp only at h1 h2 h3
  subst h2
  simp [Hello.readFrom, HelloElems.readFrom, HelloElems.scan, Enc.subVal, Enc.readFrom, Enc.sub, ho, h3]

/-- C39.  A meter band of any unregistered type is rejected. -/
theorem meterBands_unknown (bs s : List MeterBand) (c : UInt16) (tail : Bytes)
    (hc0 : c.toNat ∉ [1, 2, 65535]) (r : Rd)
    (hr : r.Ok .eof) (hc : r.content = (MeterBands.writeTo bs).out ++ (be c ++ tail)) :
    (MeterBands.readFrom s r).err = some .unknownType ∧
      (MeterBands.readFrom s r).n = (MeterBands.writeTo bs).out.length := by
  rw [MeterBands.writeTo_eq] at hc ⊢
  have hmk : meterBandMake c = .error .unknownType := by
    unfold meterBandMake; split <;> first | rfl | (rename_i h; simp [h] at hc0)
  obtain ⟨h1, h2, h3⟩ := scanFrom_unknown (enc := MeterBand.bytes) (zero := MeterBand.zero)
    (code := MeterBand.type) c .unknownType tail hmk s bs
    (fun b _ => b.reads' _ (by cases b <;> rfl)) (fun b _ => meterBandMake_type b)
    (fun b _ => b.bytes_type) r hr hc
  exact ⟨h2, h3⟩

/-- C39.  A queue property of any unregistered type is rejected. -/
theorem queueProps_unknown (bs s : List QueueProp) (c : UInt16) (tail : Bytes)
    (hv : ∀ b ∈ bs, b.Valid) (hc0 : c.toNat ∉ [1, 2, 65535]) (r : Rd)
    (hr : r.Ok .eof) (hc : r.content = (QueueProps.writeTo bs).out ++ (be c ++ tail)) :
    (QueueProps.readFrom s r).err = some .unknownType ∧
      (QueueProps.readFrom s r).n = (QueueProps.writeTo bs).out.length := by
  rw [QueueProps.writeTo_eq] at hc ⊢
  have hmk : queuePropMake c = .error .unknownType := by
    unfold queuePropMake; split <;> first | rfl | (rename_i h; simp [h] at hc0)
  obtain ⟨h1, h2, h3⟩ := scanFrom_unknown (enc := QueueProp.bytes) (zero := QueueProp.zero)
    (code := QueueProp.type) c .unknownType tail hmk s bs
    (fun b hb => b.reads' _ (hv b hb) (by cases b <;> rfl)) (fun b _ => queuePropMake_type b)
    (fun b _ => b.bytes_type) r hr hc
  exact ⟨h2, h3⟩

end Verif.Props
