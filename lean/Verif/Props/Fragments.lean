import Verif.EofOnly
import Verif.Ofp.Fixed
import Verif.Ofp.Port
import Verif.Ofp.Raw
import Verif.Ofp.Table
import Verif.Ofp.Hello
import Verif.Ofp.Queue
import Verif.Ofp.Meter
import Verif.Request

/-!
# The same bytes from different readers (C63)

One receiver, two readers with the same content: any bytes, well-formed or not, in any
fragmentation, through any nesting of `io.LimitReader` and `bufio.Reader`.
-/

namespace Verif.Props

/-- What the decoder does depends on the bytes only, not on how the reader hands them out: the
value, the count and the error are the same, and when there is no error the rest is the same. -/
def FragmentFree {σ : Type} (dec : Step σ) : Prop :=
  ∀ (s : σ) (r q : Rd), r.Ok .eof → q.Ok .eof → r.content = q.content →
    (dec s r).val = (dec s q).val ∧ (dec s r).n = (dec s q).n ∧ (dec s r).err = (dec s q).err ∧
    ((dec s r).err = none → (dec s r).rd.content = (dec s q).rd.content)

/-- The same for the decoders that take everything there is: the value, the count, the error. -/
def FragmentFreeResult {σ : Type} (dec : Step σ) : Prop :=
  ∀ (s : σ) (r q : Rd), r.Ok .eof → q.Ok .eof → r.content = q.content →
    (dec s r).val = (dec s q).val ∧ (dec s r).n = (dec s q).n ∧ (dec s r).err = (dec s q).err

/-- An input (of any size) in which no set-field action (type code 25) declares a length that ends
in front of a part of its field: in front of the class (length 4), of the field type (6), of the
length of the value (7) or of a value that is not empty (8). -/
def NoCutField (b : List UInt8) : Prop := ∀ i : Nat, b[i]? = some 0 → b[i + 1]? = some 25 → b[i + 2]? = some 0 →
  b[i + 3]? ≠ some 4 ∧ b[i + 3]? ≠ some 6 ∧ b[i + 3]? ≠ some 7 ∧
    (b[i + 3]? = some 8 → b[i + 7]? = some 0 ∨ b[i + 7]? = none)

/-- As `FragmentFree`, for the inputs that satisfy `P`. -/
def FragmentFreeOn {σ : Type} (P : Bytes → Prop) (dec : Step σ) : Prop :=
  ∀ (s : σ) (r q : Rd), r.Ok .eof → q.Ok .eof → r.content = q.content → P r.content →
    (dec s r).val = (dec s q).val ∧ (dec s r).n = (dec s q).n ∧ (dec s r).err = (dec s q).err ∧
    ((dec s r).err = none → (dec s r).rd.content = (dec s q).rd.content)

/-- As `FragmentFreeResult`, for the inputs that satisfy `P`. -/
def FragmentFreeResultOn {σ : Type} (P : Bytes → Prop) (dec : Step σ) : Prop :=
  ∀ (s : σ) (r q : Rd), r.Ok .eof → q.Ok .eof → r.content = q.content → P r.content →
    (dec s r).val = (dec s q).val ∧ (dec s r).n = (dec s q).n ∧ (dec s r).err = (dec s q).err

/-- Two quite different readers of the same bytes. -/
example : ∃ r q : Rd, r.Ok .eof ∧ q.Ok .eof ∧ r ≠ q ∧ r.content = [0, 16, 0, 4, 5, 6] ∧ q.content = r.content :=
  ⟨.src [0, 16, 0, 4, 5, 6] [0, 2] .eof true,
    .buf [0] none (.lim 5 (.src [16, 0, 4, 5, 6, 7, 8] [1, 0, 0] .eof false)),
    rfl, ⟨⟨rfl, rfl⟩, .inl rfl⟩, by decide, rfl, rfl⟩

private def noise : Bytes := [0, 5, 10, 15, 0, 0, 5, 10, 0, 20, 0, 5, 0, 15, 20, 0, 0, 10, 15, 20, 0, 5, 10, 15, 0, 0,
    5, 10, 0, 20, 0, 5, 0, 15, 20, 0, 0, 10, 15, 20, 0, 5, 10, 15]

/-- The same bytes from two readers. -/
private def inPieces : Rd := .src noise [2, 0, 5] .eof true
private def buffered : Rd :=
  .buf (noise.take 3) none (.lim 41 (.src (noise.drop 3 ++ [1, 2]) [0, 0] .eof false))

example : inPieces.Ok .eof ∧ buffered.Ok .eof ∧ inPieces.content = buffered.content :=
  ⟨rfl, ⟨⟨rfl, rfl⟩, .inl rfl⟩, by decide +kernel⟩

/-! ## Helper lemmas -/

abbrev Any : Bytes → Prop := fun _ => True

theorem fragmentFreeOn {σ : Type} {P : Bytes → Prop} {dec : Step σ} (h : Stable P dec) : FragmentFreeOn P dec := by
  intro s r q hr hq hc hP
  obtain ⟨⟨h1, h2, h3⟩, h4⟩ := h s r q hr hq hc hP
  refine ⟨h3, h1, h2, fun h => ?_⟩
  obtain ⟨-, -, m, a1, a2⟩ := h4 h
  rw [a1.content.2, a2.content.2, hc]

theorem fragmentFreeResultOn {σ : Type} {P : Bytes → Prop} {dec : Step σ} (h : StableV P dec) :
    FragmentFreeResultOn P dec := fun s r q hr hq hc hP =>
  let h := h s r q hr hq hc hP
  ⟨h.val, h.n, h.err⟩

theorem fragmentFree {σ : Type} {dec : Step σ} (h : Stable Any dec) : FragmentFree dec :=
  fun s r q hr hq hc => fragmentFreeOn h s r q hr hq hc trivial

theorem fragmentFreeResult {σ : Type} {dec : Step σ} (h : StableV Any dec) : FragmentFreeResult dec :=
  fun s r q hr hq hc => fragmentFreeResultOn h s r q hr hq hc trivial

section
variable {P : Bytes → Prop} [Hereditary P]

theorem xm_stable (p : Bool) : Stable P (XM.read p) := by
  cases p <;> (unfold XM.read; simp only [if_true, Bool.false_eq_true, if_false]; stable)

omit [Hereditary P] in
theorem readAllXM_stable (p : Bool) : Stable P (readAllXM p) := by
  intro s r q hr hq hc hP
  obtain ⟨r', h1, h2, h3⟩ := readAll_spec .eof r hr
  obtain ⟨q', g1, g2, g3⟩ := readAll_spec .eof q hq
  simp only [readAllXM, h1, g1, hc, skipEOF]
  exact ⟨⟨rfl, rfl, rfl⟩, fun _ => ⟨h3, g3, _, by rw [← hc]; exact h2, g2⟩⟩

theorem match_stable : Stable P Match.readFrom := by
  have := readAllXM_stable (P := P) true
  unfold Match.readFrom; stable

theorem actionHeader_stable : Stable P actionHeader.readFrom := by unfold actionHeader.readFrom; stable

theorem instructionHeader_stable : Stable P instructionHeader.readFrom := by
  unfold instructionHeader.readFrom; stable

theorem setField_stable : Stable P setField.readFrom := by
  have h1 := actionHeader_stable (P := P)
  have h2 := xm_stable (P := P) true
  unfold setField.readFrom XM.readFrom; stable

theorem action_stable : Stable P Action.readFrom := by
  intro a r q hr hq hc hP
  have h1 := actionHeader_stable (P := P)
  have h2 := setField_stable (P := P)
  cases a <;> simp only [Action.readFrom] <;> refine SameFrag.wrap (P := P) ?_ hr hq hc hP <;>
    (try unfold skipActionHeader) <;> stable

end

/-! ## Messages of fixed size, and messages that end with raw bytes -/

/-- C63. -/
theorem aggregateStats_fragments : FragmentFree AggregateStats.readFrom :=
  fragmentFree (by unfold AggregateStats.readFrom; stable)

example : (AggregateStats.readFrom default inPieces).err = none ∧ (AggregateStats.readFrom default inPieces).n = 24 ∧
    (AggregateStats.readFrom default buffered).err = none ∧ (AggregateStats.readFrom default buffered).n = 24 := by decide +kernel

/-- C63. -/
theorem switchFeatures_fragments : FragmentFree SwitchFeatures.readFrom :=
  fragmentFree (by unfold SwitchFeatures.readFrom; stable)

example : (SwitchFeatures.readFrom default inPieces).err = none ∧ (SwitchFeatures.readFrom default inPieces).n = 24 ∧
    (SwitchFeatures.readFrom default buffered).err = none ∧ (SwitchFeatures.readFrom default buffered).n = 24 := by decide +kernel

/-- C63. -/
theorem switchConfig_fragments : FragmentFree SwitchConfig.readFrom :=
  fragmentFree (by unfold SwitchConfig.readFrom; stable)

example : (SwitchConfig.readFrom default inPieces).err = none ∧ (SwitchConfig.readFrom default inPieces).n = 4 ∧
    (SwitchConfig.readFrom default buffered).err = none ∧ (SwitchConfig.readFrom default buffered).n = 4 := by decide +kernel

/-- C63. -/
theorem multipartReply_fragments : FragmentFree MultipartReply.readFrom :=
  fragmentFree (by unfold MultipartReply.readFrom; stable)

example : (MultipartReply.readFrom default inPieces).err = none ∧ (MultipartReply.readFrom default inPieces).n = 8 ∧
    (MultipartReply.readFrom default buffered).err = none ∧ (MultipartReply.readFrom default buffered).n = 8 := by decide +kernel

/-- C63. -/
theorem experimenterMultipartHeader_fragments : FragmentFree ExperimenterMultipartHeader.readFrom :=
  fragmentFree (by unfold ExperimenterMultipartHeader.readFrom; stable)

example : (ExperimenterMultipartHeader.readFrom default inPieces).err = none ∧ (ExperimenterMultipartHeader.readFrom default inPieces).n = 8 ∧
    (ExperimenterMultipartHeader.readFrom default buffered).err = none ∧ (ExperimenterMultipartHeader.readFrom default buffered).n = 8 := by decide +kernel

/-- C63. -/
theorem experimenter_fragments : FragmentFree Experimenter.readFrom :=
  fragmentFree (by unfold Experimenter.readFrom; stable)

example : (Experimenter.readFrom default inPieces).err = none ∧ (Experimenter.readFrom default inPieces).n = 8 ∧
    (Experimenter.readFrom default buffered).err = none ∧ (Experimenter.readFrom default buffered).n = 8 := by decide +kernel

/-- C63. -/
theorem roleRequest_fragments : FragmentFree RoleRequest.readFrom :=
  fragmentFree (by unfold RoleRequest.readFrom; stable)

example : (RoleRequest.readFrom default inPieces).err = none ∧ (RoleRequest.readFrom default inPieces).n = 16 ∧
    (RoleRequest.readFrom default buffered).err = none ∧ (RoleRequest.readFrom default buffered).n = 16 := by decide +kernel

/-- C63. -/
theorem asyncConfig_fragments : FragmentFree AsyncConfig.readFrom :=
  fragmentFree (by unfold AsyncConfig.readFrom; stable)

example : (AsyncConfig.readFrom default inPieces).err = none ∧ (AsyncConfig.readFrom default inPieces).n = 24 ∧
    (AsyncConfig.readFrom default buffered).err = none ∧ (AsyncConfig.readFrom default buffered).n = 24 := by decide +kernel

/-- C63. -/
theorem tableMod_fragments : FragmentFree TableMod.readFrom :=
  fragmentFree (by unfold TableMod.readFrom; stable)

example : (TableMod.readFrom default inPieces).err = none ∧ (TableMod.readFrom default inPieces).n = 8 ∧
    (TableMod.readFrom default buffered).err = none ∧ (TableMod.readFrom default buffered).n = 8 := by decide +kernel

/-- C63. -/
theorem tableStats_fragments : FragmentFree TableStats.readFrom :=
  fragmentFree (by unfold TableStats.readFrom; stable)

example : (TableStats.readFrom default inPieces).err = none ∧ (TableStats.readFrom default inPieces).n = 24 ∧
    (TableStats.readFrom default buffered).err = none ∧ (TableStats.readFrom default buffered).n = 24 := by decide +kernel

/-- C63. -/
theorem portStatsRequest_fragments : FragmentFree PortStatsRequest.readFrom :=
  fragmentFree (by unfold PortStatsRequest.readFrom; stable)

example : (PortStatsRequest.readFrom default inPieces).err = none ∧ (PortStatsRequest.readFrom default inPieces).n = 8 ∧
    (PortStatsRequest.readFrom default buffered).err = none ∧ (PortStatsRequest.readFrom default buffered).n = 8 := by decide +kernel

/-- C63. -/
theorem portStats_fragments : FragmentFree PortStats.readFrom :=
  fragmentFree (by unfold PortStats.readFrom; stable)

example : (PortStats.readFrom default inPieces).err = some (.unexpectedEOF) ∧ (PortStats.readFrom default inPieces).n = 44 ∧
    (PortStats.readFrom default buffered).err = some (.unexpectedEOF) ∧ (PortStats.readFrom default buffered).n = 44 := by decide +kernel

/-- C63. -/
theorem meterConfigRequest_fragments : FragmentFree MeterConfigRequest.readFrom :=
  fragmentFree (by unfold MeterConfigRequest.readFrom; stable)

example : (MeterConfigRequest.readFrom default inPieces).err = none ∧ (MeterConfigRequest.readFrom default inPieces).n = 8 ∧
    (MeterConfigRequest.readFrom default buffered).err = none ∧ (MeterConfigRequest.readFrom default buffered).n = 8 := by decide +kernel

/-- C63. -/
theorem meterFeatures_fragments : FragmentFree MeterFeatures.readFrom :=
  fragmentFree (by unfold MeterFeatures.readFrom; stable)

example : (MeterFeatures.readFrom default inPieces).err = none ∧ (MeterFeatures.readFrom default inPieces).n = 16 ∧
    (MeterFeatures.readFrom default buffered).err = none ∧ (MeterFeatures.readFrom default buffered).n = 16 := by decide +kernel

/-- C63. -/
theorem meterBandStats_fragments : FragmentFree MeterBandStats.readFrom :=
  fragmentFree (by unfold MeterBandStats.readFrom; stable)

example : (MeterBandStats.readFrom default inPieces).err = none ∧ (MeterBandStats.readFrom default inPieces).n = 16 ∧
    (MeterBandStats.readFrom default buffered).err = none ∧ (MeterBandStats.readFrom default buffered).n = 16 := by decide +kernel

/-- C63. -/
theorem meterStatsRequest_fragments : FragmentFree MeterStatsRequest.readFrom :=
  fragmentFree (by unfold MeterStatsRequest.readFrom; stable)

example : (MeterStatsRequest.readFrom default inPieces).err = none ∧ (MeterStatsRequest.readFrom default inPieces).n = 8 ∧
    (MeterStatsRequest.readFrom default buffered).err = none ∧ (MeterStatsRequest.readFrom default buffered).n = 8 := by decide +kernel

/-- C63. -/
theorem groupStatsRequest_fragments : FragmentFree GroupStatsRequest.readFrom :=
  fragmentFree (by unfold GroupStatsRequest.readFrom; stable)

example : (GroupStatsRequest.readFrom default inPieces).err = none ∧ (GroupStatsRequest.readFrom default inPieces).n = 8 ∧
    (GroupStatsRequest.readFrom default buffered).err = none ∧ (GroupStatsRequest.readFrom default buffered).n = 8 := by decide +kernel

/-- C63. -/
theorem bucketCounter_fragments : FragmentFree BucketCounter.readFrom :=
  fragmentFree (by unfold BucketCounter.readFrom; stable)

example : (BucketCounter.readFrom default inPieces).err = none ∧ (BucketCounter.readFrom default inPieces).n = 16 ∧
    (BucketCounter.readFrom default buffered).err = none ∧ (BucketCounter.readFrom default buffered).n = 16 := by decide +kernel

/-- C63. -/
theorem groupFeatures_fragments : FragmentFree GroupFeatures.readFrom :=
  fragmentFree (by unfold GroupFeatures.readFrom; stable)

example : (GroupFeatures.readFrom default inPieces).err = none ∧ (GroupFeatures.readFrom default inPieces).n = 40 ∧
    (GroupFeatures.readFrom default buffered).err = none ∧ (GroupFeatures.readFrom default buffered).n = 40 := by decide +kernel

/-- C63. -/
theorem queueStatsRequest_fragments : FragmentFree QueueStatsRequest.readFrom :=
  fragmentFree (by unfold QueueStatsRequest.readFrom; stable)

example : (QueueStatsRequest.readFrom default inPieces).err = none ∧ (QueueStatsRequest.readFrom default inPieces).n = 8 ∧
    (QueueStatsRequest.readFrom default buffered).err = none ∧ (QueueStatsRequest.readFrom default buffered).n = 8 := by decide +kernel

/-- C63. -/
theorem queueStats_fragments : FragmentFree QueueStats.readFrom :=
  fragmentFree (by unfold QueueStats.readFrom; stable)

example : (QueueStats.readFrom default inPieces).err = none ∧ (QueueStats.readFrom default inPieces).n = 40 ∧
    (QueueStats.readFrom default buffered).err = none ∧ (QueueStats.readFrom default buffered).n = 40 := by decide +kernel

/-- C63. -/
theorem queueGetConfigRequest_fragments : FragmentFree QueueGetConfigRequest.readFrom :=
  fragmentFree (by unfold QueueGetConfigRequest.readFrom; stable)

example : (QueueGetConfigRequest.readFrom default inPieces).err = none ∧ (QueueGetConfigRequest.readFrom default inPieces).n = 8 ∧
    (QueueGetConfigRequest.readFrom default buffered).err = none ∧ (QueueGetConfigRequest.readFrom default buffered).n = 8 := by decide +kernel

/-- C63. -/
theorem description_fragments : FragmentFree Description.readFrom :=
  fragmentFree (by unfold Description.readFrom; stable)

example : (Description.readFrom default inPieces).err = some (.unexpectedEOF) ∧ (Description.readFrom default inPieces).n = 44 ∧
    (Description.readFrom default buffered).err = some (.unexpectedEOF) ∧ (Description.readFrom default buffered).n = 44 := by decide +kernel

/-- C63. -/
theorem multipartRequest_fragments : FragmentFree MultipartRequest.readFrom :=
  fragmentFree (by unfold MultipartRequest.readFrom; stable)

example : (MultipartRequest.readFrom default inPieces).err = none ∧ (MultipartRequest.readFrom default inPieces).n = 44 ∧
    (MultipartRequest.readFrom default buffered).err = none ∧ (MultipartRequest.readFrom default buffered).n = 44 := by decide +kernel

/-- C63. -/
theorem echoRequest_fragments : FragmentFree EchoRequest.readFrom :=
  fragmentFree (by unfold EchoRequest.readFrom; stable)

example : (EchoRequest.readFrom default inPieces).err = none ∧ (EchoRequest.readFrom default inPieces).n = 44 ∧
    (EchoRequest.readFrom default buffered).err = none ∧ (EchoRequest.readFrom default buffered).n = 44 := by decide +kernel

/-- C63. -/
theorem echoReply_fragments : FragmentFree EchoReply.readFrom :=
  fragmentFree (by unfold EchoReply.readFrom; stable)

example : (EchoReply.readFrom default inPieces).err = none ∧ (EchoReply.readFrom default inPieces).n = 44 ∧
    (EchoReply.readFrom default buffered).err = none ∧ (EchoReply.readFrom default buffered).n = 44 := by decide +kernel

/-- C63. -/
theorem ofpError_fragments : FragmentFree OfpError.readFrom :=
  fragmentFree (by unfold OfpError.readFrom; stable)

example : (OfpError.readFrom default inPieces).err = none ∧ (OfpError.readFrom default inPieces).n = 44 ∧
    (OfpError.readFrom default buffered).err = none ∧ (OfpError.readFrom default buffered).n = 44 := by decide +kernel

/-- C63. -/
theorem errorExperimenter_fragments : FragmentFree ErrorExperimenter.readFrom :=
  fragmentFree (by unfold ErrorExperimenter.readFrom; stable)

example : (ErrorExperimenter.readFrom default inPieces).err = none ∧ (ErrorExperimenter.readFrom default inPieces).n = 44 ∧
    (ErrorExperimenter.readFrom default buffered).err = none ∧ (ErrorExperimenter.readFrom default buffered).n = 44 := by decide +kernel

/-- C63. -/
theorem portMod_fragments : FragmentFree PortMod.readFrom :=
  fragmentFree (by unfold PortMod.readFrom; stable)

example : (PortMod.readFrom default inPieces).err = none ∧ (PortMod.readFrom default inPieces).n = 26 ∧
    (PortMod.readFrom default buffered).err = none ∧ (PortMod.readFrom default buffered).n = 26 := by decide +kernel

/-! ## Messages with a match -/

/-- C63. -/
theorem flowRemoved_fragments : FragmentFree FlowRemoved.readFrom :=
  fragmentFree (by have := match_stable (P := Any); unfold FlowRemoved.readFrom; stable)

example : (FlowRemoved.readFrom default inPieces).err = some (.eof) ∧ (FlowRemoved.readFrom default inPieces).n = 44 ∧
    (FlowRemoved.readFrom default buffered).err = some (.eof) ∧ (FlowRemoved.readFrom default buffered).n = 44 := by decide +kernel

/-- C63. -/
theorem flowStatsRequest_fragments : FragmentFree FlowStatsRequest.readFrom :=
  fragmentFree (by have := match_stable (P := Any); unfold FlowStatsRequest.readFrom; stable)

example : (FlowStatsRequest.readFrom default inPieces).err = some (.unexpectedEOF) ∧ (FlowStatsRequest.readFrom default inPieces).n = 44 ∧
    (FlowStatsRequest.readFrom default buffered).err = some (.unexpectedEOF) ∧ (FlowStatsRequest.readFrom default buffered).n = 44 := by decide +kernel

/-- C63. -/
theorem aggregateStatsRequest_fragments : FragmentFree AggregateStatsRequest.readFrom :=
  fragmentFree (by have := match_stable (P := Any); unfold AggregateStatsRequest.readFrom; stable)

example : (AggregateStatsRequest.readFrom default inPieces).err = some (.unexpectedEOF) ∧ (AggregateStatsRequest.readFrom default inPieces).n = 44 ∧
    (AggregateStatsRequest.readFrom default buffered).err = some (.unexpectedEOF) ∧ (AggregateStatsRequest.readFrom default buffered).n = 44 := by decide +kernel

/-- C63. -/
theorem packetIn_fragments : FragmentFree PacketIn.readFrom :=
  fragmentFree (by have := match_stable (P := Any); unfold PacketIn.readFrom; stable)

example : (PacketIn.readFrom default inPieces).err = some (.unexpectedEOF) ∧ (PacketIn.readFrom default inPieces).n = 44 ∧
    (PacketIn.readFrom default buffered).err = some (.unexpectedEOF) ∧ (PacketIn.readFrom default buffered).n = 44 := by decide +kernel

/-! ## Parts of messages -/

/-- C63. -/
theorem header_fragments : FragmentFree Header.readFrom := fragmentFree (by unfold Header.readFrom; stable)

example : (Header.readFrom default inPieces).err = none ∧ (Header.readFrom default inPieces).n = 8 ∧
    (Header.readFrom default buffered).err = none ∧ (Header.readFrom default buffered).n = 8 := by decide +kernel

/-- C63. -/
theorem xm_fragments : FragmentFree XM.readFrom := fragmentFree (xm_stable true)

example : (XM.readFrom default inPieces).err = none ∧ (XM.readFrom default inPieces).n = 19 ∧
    (XM.readFrom default buffered).err = none ∧ (XM.readFrom default buffered).n = 19 := by decide +kernel

/-- C63. -/
theorem match_fragments : FragmentFree Match.readFrom := fragmentFree match_stable

example : (Match.readFrom default inPieces).err = some (.unexpectedEOF) ∧ (Match.readFrom default inPieces).n = 44 ∧
    (Match.readFrom default buffered).err = some (.unexpectedEOF) ∧ (Match.readFrom default buffered).n = 44 := by decide +kernel

/-- C63. -/
theorem action_fragments : FragmentFree Action.readFrom := fragmentFree action_stable

example : (Action.readFrom default inPieces).err = none ∧ (Action.readFrom default inPieces).n = 16 ∧
    (Action.readFrom default buffered).err = none ∧ (Action.readFrom default buffered).n = 16 := by decide +kernel

theorem port_stable : Stable Any Port.readFrom := by unfold Port.readFrom Port.fields; stable

/-- C63. -/
theorem port_fragments : FragmentFree Port.readFrom := fragmentFree port_stable

example : (Port.readFrom default inPieces).err = some (.eof) ∧ (Port.readFrom default inPieces).n = 44 ∧
    (Port.readFrom default buffered).err = some (.eof) ∧ (Port.readFrom default buffered).n = 44 := by decide +kernel

/-- C63. -/
theorem portStatus_fragments : FragmentFree PortStatus.readFrom :=
  fragmentFree (by have := port_stable; unfold PortStatus.readFrom; stable)

example : (PortStatus.readFrom default inPieces).err = some (.eof) ∧ (PortStatus.readFrom default inPieces).n = 44 ∧
    (PortStatus.readFrom default buffered).err = some (.eof) ∧ (PortStatus.readFrom default buffered).n = 44 := by decide +kernel

/-- C63.  The ports of a port description reply. -/
theorem ports_fragments : FragmentFree Ports.readFrom := by
  have key : ∀ (fuel : Nat) (acc : List Port) (n : Nat) (r q : Rd), r.Ok .eof → q.Ok .eof → r.content = q.content →
      SameFrag r q (Ports.loop fuel acc n r) (Ports.loop fuel acc n q) := by
    intro fuel
    induction fuel with
    | zero => intro acc n r q hr hq hc; exact ⟨⟨rfl, rfl, rfl⟩, fun h => by simp [Ports.loop] at h⟩
    | succ fuel ih =>
      intro acc n r q hr hq hc
      obtain ⟨⟨hn, he, hv⟩, hx⟩ := port_stable Port.zero r q hr hq hc trivial
      obtain ⟨o1, a1, -⟩ := Port.flat Port.zero r hr
      obtain ⟨o2, a2, -⟩ := Port.flat Port.zero q hq
      rcases ho : Port.readFrom Port.zero r with ⟨v, k, e, r1⟩
      rcases hp : Port.readFrom Port.zero q with ⟨v', k', e', q1⟩
      rw [ho, hp] at hn he hv
      rw [ho] at o1 a1
      rw [hp] at o2 a2
      simp only at hn he hv o1 a1 o2 a2
      subst hn he hv
      cases e with
      | some e =>
        cases e <;> simp only [Ports.loop, ho, hp] <;>
          exact ⟨⟨rfl, rfl, rfl⟩, fun h => by first | exact ⟨o1, o2, k, a1, a2⟩ | cases h⟩
      | none =>
        simp only [Ports.loop, ho, hp]
        obtain ⟨g1, g2⟩ := ih (acc ++ [v]) (n + k) r1 q1 o1 o2 (by rw [a1.content.2, a2.content.2, hc])
        refine ⟨g1, fun h => ?_⟩
        obtain ⟨o3, o4, m, a3, a4⟩ := g2 h
        exact ⟨o3, o4, k + m, a1.trans a3, a2.trans a4⟩
  refine fragmentFree fun s r q hr hq hc _ => ?_
  unfold Ports.readFrom
  rw [← hc]
  exact key _ _ _ r q hr hq hc

example : (Ports.readFrom default inPieces).err = none ∧ (Ports.readFrom default inPieces).n = 44 ∧
    (Ports.readFrom default buffered).err = none ∧ (Ports.readFrom default buffered).n = 44 := by decide +kernel

/-! ## Lists of typed elements -/

theorem helloElem_stable : Stable Any HelloElem.readFrom := by
  intro a r q hr hq hc hP
  cases a
  refine SameFrag.wrap (P := Any) ?_ hr hq hc hP
  unfold HelloElem.readBitmap; stable

/-- C63. -/
theorem helloElem_fragments : FragmentFree HelloElem.readFrom := fragmentFree helloElem_stable

example : (HelloElem.readFrom default inPieces).err = some (.unexpectedEOF) ∧ (HelloElem.readFrom default inPieces).n = 44 ∧
    (HelloElem.readFrom default buffered).err = some (.unexpectedEOF) ∧ (HelloElem.readFrom default buffered).n = 44 := by decide +kernel

/-- C63. -/
theorem hello_fragments : FragmentFreeResult Hello.readFrom :=
  fragmentFreeResult (StableV.last (StableV.sub (StableV.subVal (StableV.scanFrom helloElem_stable))))

example : (Hello.readFrom default inPieces).err = some (.unknownType) ∧ (Hello.readFrom default inPieces).n = 0 ∧
    (Hello.readFrom default buffered).err = some (.unknownType) ∧ (Hello.readFrom default buffered).n = 0 := by decide +kernel

theorem meterBand_stable : Stable Any MeterBand.readFrom := by
  intro a r q hr hq hc hP
  cases a <;> simp only [MeterBand.readFrom] <;> refine SameFrag.wrap (P := Any) ?_ hr hq hc hP <;> stable

theorem meterBand_eofEnd : EofEnd Any MeterBand.readFrom := by
  intro a r hr hP
  have key : ∀ {τ : Type} {f : τ → MeterBand} {st : Step τ} {t : τ}, EofEnd Any st →
      (Enc.wrap f st t r).err = some .eof → (Enc.wrap f st t r).rd.content = [] := fun h => h _ r hr hP
  cases a <;> simp only [MeterBand.readFrom] <;> refine key ?_ <;> eofEnd

/-- C63. -/
theorem meterBand_fragments : FragmentFree MeterBand.readFrom := fragmentFree meterBand_stable

example : (MeterBand.readFrom default inPieces).err = none ∧ (MeterBand.readFrom default inPieces).n = 16 ∧
    (MeterBand.readFrom default buffered).err = none ∧ (MeterBand.readFrom default buffered).n = 16 := by decide +kernel

/-- C63. -/
theorem meterBands_fragments : FragmentFreeResult MeterBands.readFrom :=
  fragmentFreeResult (StableV.subVal (StableV.scanFrom meterBand_stable))

example : (MeterBands.readFrom default inPieces).err = some (.unknownType) ∧ (MeterBands.readFrom default inPieces).n = 0 ∧
    (MeterBands.readFrom default buffered).err = some (.unknownType) ∧ (MeterBands.readFrom default buffered).n = 0 := by decide +kernel

/-- C63. -/
theorem meterMod_fragments : FragmentFreeResult MeterMod.readFrom :=
  fragmentFreeResult (by
    have h : StableV Any MeterBands.readFrom := StableV.subVal (StableV.scanFrom meterBand_stable)
    unfold MeterMod.readFrom
    repeat' first
      | exact StableV.last (StableV.sub h)
      | refine StableV.cons Stable.num ?_)

example : (MeterMod.readFrom default inPieces).err = some (.unknownType) ∧ (MeterMod.readFrom default inPieces).n = 8 ∧
    (MeterMod.readFrom default buffered).err = some (.unknownType) ∧ (MeterMod.readFrom default buffered).n = 8 := by decide +kernel

/-- C63.  The list of bands ends at its declared length: the next message is not touched. -/
theorem meterConfig_fragments : FragmentFree MeterConfig.readFrom :=
  fragmentFree (by
    have h : StableL Any MeterBands.readFrom := StableL.subVal (StableL.scanFrom meterBand_stable
      (MeterBand.flat.safe (E := ShortErr)) meterBand_eofEnd.made)
    unfold MeterConfig.readFrom; stable)

example : (MeterConfig.readFrom default inPieces).err = some (.unknownType) ∧ (MeterConfig.readFrom default inPieces).n = 8 ∧
    (MeterConfig.readFrom default buffered).err = some (.unknownType) ∧ (MeterConfig.readFrom default buffered).n = 8 := by decide +kernel

theorem meterBandStats_eofEnd : EofEnd Any MeterBandStats.readFrom := by
  unfold MeterBandStats.readFrom; eofEnd

theorem bucketCounter_eofEnd : EofEnd Any BucketCounter.readFrom := by
  unfold BucketCounter.readFrom; eofEnd

/-- C63. -/
theorem meterStats_fragments : FragmentFree MeterStats.readFrom :=
  fragmentFree (by
    have h : Stable Any (Enc.readSliceFrom ⟨0, 0⟩ MeterBandStats.readFrom) :=
      Stable.readSliceFrom (by unfold MeterBandStats.readFrom; stable)
        (MeterBandStats.flat.safe (E := ShortErr)) meterBandStats_eofEnd
    have h1 : Stable Any (Enc.ignoreErr MeterStats.header) :=
      Stable.ignoreErr (by unfold MeterStats.header; stable) MeterStats.header_flat
    unfold MeterStats.readFrom; stable)

example : (MeterStats.readFrom default inPieces).err = some (.unexpectedEOF) ∧ (MeterStats.readFrom default inPieces).n = 44 ∧
    (MeterStats.readFrom default buffered).err = some (.unexpectedEOF) ∧ (MeterStats.readFrom default buffered).n = 44 := by decide +kernel

/-- C63. -/
theorem groupStats_fragments : FragmentFree GroupStats.readFrom :=
  fragmentFree (by
    have h : Stable Any (Enc.readSliceFrom ⟨0, 0⟩ BucketCounter.readFrom) :=
      Stable.readSliceFrom (by unfold BucketCounter.readFrom; stable)
        (BucketCounter.flat.safe (E := ShortErr)) bucketCounter_eofEnd
    unfold GroupStats.readFrom; stable)

example : (GroupStats.readFrom default inPieces).err = some (.unexpectedEOF) ∧ (GroupStats.readFrom default inPieces).n = 44 ∧
    (GroupStats.readFrom default buffered).err = some (.unexpectedEOF) ∧ (GroupStats.readFrom default buffered).n = 44 := by decide +kernel

theorem queueProp_stable : Stable Any QueueProp.readFrom := by
  intro a r q hr hq hc hP
  cases a <;> simp only [QueueProp.readFrom] <;> refine SameFrag.wrap (P := Any) ?_ hr hq hc hP <;>
    first | (unfold QueueProp.readRate; stable) | (unfold QueueProp.readExperimenter; stable)

theorem queueProp_eofEnd : EofEnd Any QueueProp.readFrom := by
  intro a r hr hP
  have key : ∀ {τ : Type} {f : τ → QueueProp} {st : Step τ} {t : τ}, EofEnd Any st →
      (Enc.wrap f st t r).err = some .eof → (Enc.wrap f st t r).rd.content = [] := fun h => h _ r hr hP
  cases a <;> simp only [QueueProp.readFrom] <;> refine key ?_ <;>
    first | (unfold QueueProp.readRate; eofEnd; done) | (unfold QueueProp.readExperimenter; eofEnd)

/-- C63. -/
theorem queueProp_fragments : FragmentFree QueueProp.readFrom := fragmentFree queueProp_stable

example : (QueueProp.readFrom default inPieces).err = none ∧ (QueueProp.readFrom default inPieces).n = 16 ∧
    (QueueProp.readFrom default buffered).err = none ∧ (QueueProp.readFrom default buffered).n = 16 := by decide +kernel

theorem packetQueue_stable : Stable Any PacketQueue.readFrom := by
  have h : StableL Any QueueProps.readFrom := StableL.subVal (StableL.scanFrom queueProp_stable
      QueueProp.readFrom_safe queueProp_eofEnd.made)
  unfold PacketQueue.readFrom; stable

theorem packetQueue_eofEnd : EofEnd Any PacketQueue.readFrom := by
  have h : NoEof QueueProps.readFrom := NoEof.subVal (NoEof.scanFrom fun c e he => by
    unfold queuePropMake at he; split at he <;> cases he <;> simp)
  have h' : StableL Any QueueProps.readFrom := StableL.subVal (StableL.scanFrom queueProp_stable
      QueueProp.readFrom_safe queueProp_eofEnd.made)
  unfold PacketQueue.readFrom; eofEnd

/-- C63. -/
theorem packetQueue_fragments : FragmentFree PacketQueue.readFrom := fragmentFree packetQueue_stable

example : (PacketQueue.readFrom default inPieces).err = some (.unknownType) ∧ (PacketQueue.readFrom default inPieces).n = 16 ∧
    (PacketQueue.readFrom default buffered).err = some (.unknownType) ∧ (PacketQueue.readFrom default buffered).n = 16 := by decide +kernel

/-- C63. -/
theorem queueGetConfigReply_fragments : FragmentFree QueueGetConfigReply.readFrom :=
  fragmentFree (by
    have h : Stable Any (Enc.readSliceFrom PacketQueue.zero PacketQueue.readFrom) :=
      Stable.readSliceFrom packetQueue_stable PacketQueue.readFrom_safe packetQueue_eofEnd
    unfold QueueGetConfigReply.readFrom; stable)

example : (QueueGetConfigReply.readFrom default inPieces).err = some (.unknownType) ∧ (QueueGetConfigReply.readFrom default inPieces).n = 24 ∧
    (QueueGetConfigReply.readFrom default buffered).err = some (.unknownType) ∧ (QueueGetConfigReply.readFrom default buffered).n = 24 := by decide +kernel

/-! ## Table features -/

theorem readAllXM_noEof : NoEof (readAllXM false) := by
  have key : ∀ (fuel : Nat) (acc : List XM) (r : Rd), r.Ok .eof → (readAllXMLoop false fuel acc r).2 ≠ some .eof := by
    intro fuel
    induction fuel with
    | zero => intro acc r hr; simp [readAllXMLoop]
    | succ fuel ih =>
      intro acc r hr
      unfold readAllXMLoop
      split
      · rename_i h4
        have hf : Flat (XM.read false) 4 := by
          unfold XM.read
          simp only [Bool.false_eq_true, if_false]
          exact Flat.withLocal (Flat.cons Flat.num (Flat.cons Flat.num (Flat.cons Flat.num
            (Flat.cons Flat.assign (Flat.cons Flat.assign (Flat.cons Flat.assign Flat.nil))))))
        obtain ⟨ho, -, h1, -⟩ := hf XM.zero r hr
        rcases hst : XM.read false XM.zero r with ⟨v, n, e, r1⟩
        rw [hst] at ho h1
        have := (h1 h4).1
        simp only at this ho
        subst this
        simp only
        exact ih _ _ ho
      · simp
  intro s r hr
  obtain ⟨r', h1, h2, h3⟩ := readAll_spec .eof r hr
  simp only [readAllXM, h1, skipEOF]
  exact key _ _ _ rfl

theorem readTypeCodes_stable {header : Step (UInt16 × UInt16)} (hs : Stable Any header) (hf : Flat header 4)
    (he : EofEnd Any header) : Stable Any (readTypeCodes header) := fun s r q hr hq hc hP =>
  let h := readFunc_same (zero := (0, 0)) hs (hf.safe (E := ShortErr)) he r q hr hq hc hP
  ⟨⟨h.n, h.err, by simp only [readTypeCodes, h.val]⟩, h.next⟩

theorem readTypeCodes_noEof {header : Step (UInt16 × UInt16)} : NoEof (readTypeCodes header) :=
  fun _ r _ => readFuncLoop_noEof (zero := (0, 0)) (st := header) (r.content.length + 1) [] 0 r

theorem actionHeader_eofEnd : EofEnd Any actionHeader.readFrom := by unfold actionHeader.readFrom; eofEnd

theorem instructionHeader_eofEnd : EofEnd Any instructionHeader.readFrom := by
  unfold instructionHeader.readFrom; eofEnd

theorem readTablePropXM_stable (b : Bool) : Stable Any (readTablePropXM b) := by
  have := readAllXM_stable (P := Any) false
  unfold readTablePropXM yieldTableProp; stable

theorem readTablePropXM_eofEnd (b : Bool) : EofEnd Any (readTablePropXM b) := by
  have := readAllXM_stable (P := Any) false
  have := readAllXM_noEof
  unfold readTablePropXM yieldTableProp; eofEnd

theorem readTablePropCodes_stable {header : Step (UInt16 × UInt16)} (hs : Stable Any header) (hf : Flat header 4)
    (he : EofEnd Any header) : Stable Any (readTablePropCodes header) := by
  have := readTypeCodes_stable hs hf he
  unfold readTablePropCodes yieldTableProp; stable

theorem readTablePropCodes_eofEnd {header : Step (UInt16 × UInt16)} (hs : Stable Any header) (hf : Flat header 4)
    (he : EofEnd Any header) : EofEnd Any (readTablePropCodes header) := by
  have := readTypeCodes_stable hs hf he
  have := readTypeCodes_noEof (header := header)
  unfold readTablePropCodes yieldTableProp; eofEnd

theorem tableProp_stable : Stable Any TableProp.readFrom := by
  intro a r q hr hq hc hP
  have h1 := readTablePropCodes_stable instructionHeader_stable instructionHeader.flat instructionHeader_eofEnd
  have h2 := readTablePropCodes_stable actionHeader_stable actionHeader.flat actionHeader_eofEnd
  have h3 := readTablePropXM_stable true
  have h4 := readTablePropXM_stable false
  have h5 : Stable Any readNextTables := by unfold readNextTables yieldTableProp; stable
  have h6 : Stable Any readTablePropExperimenter := by unfold readTablePropExperimenter; stable
  cases a <;> simp only [TableProp.readFrom] <;> refine SameFrag.wrap (P := Any) ?_ hr hq hc hP <;> assumption

theorem tableProp_eofEnd : EofEnd Any TableProp.readFrom := by
  intro a r hr hP
  have key : ∀ {τ : Type} {f : τ → TableProp} {st : Step τ} {t : τ}, EofEnd Any st →
      (Enc.wrap f st t r).err = some .eof → (Enc.wrap f st t r).rd.content = [] := fun h => h _ r hr hP
  have h1 := readTablePropCodes_eofEnd instructionHeader_stable instructionHeader.flat instructionHeader_eofEnd
  have h2 := readTablePropCodes_eofEnd actionHeader_stable actionHeader.flat actionHeader_eofEnd
  have h3 := readTablePropXM_eofEnd true
  have h4 := readTablePropXM_eofEnd false
  have h5 : EofEnd Any readNextTables := by unfold readNextTables yieldTableProp; eofEnd
  have h6 : EofEnd Any readTablePropExperimenter := by unfold readTablePropExperimenter; eofEnd
  cases a <;> simp only [TableProp.readFrom] <;> refine key ?_ <;> assumption

/-- C63. -/
theorem tableProp_fragments : FragmentFree TableProp.readFrom := fragmentFree tableProp_stable

example : (TableProp.readFrom default inPieces).err = some (.eof) ∧ (TableProp.readFrom default inPieces).n = 44 ∧
    (TableProp.readFrom default buffered).err = some (.eof) ∧ (TableProp.readFrom default buffered).n = 44 := by decide +kernel

/-- C63.  The list of properties ends at its declared length: the next message is not touched. -/
theorem tableFeatures_fragments : FragmentFree TableFeatures.readFrom :=
  fragmentFree (by
    have h : StableL Any (Enc.scanFrom tablePropMake TableProp.readFrom) := StableL.scanFrom tableProp_stable
      TableProp.readFrom_safe tableProp_eofEnd.made
    unfold TableFeatures.readFrom; stable)

example : (TableFeatures.readFrom default inPieces).err = some (.unexpectedEOF) ∧ (TableFeatures.readFrom default inPieces).n = 44 ∧
    (TableFeatures.readFrom default buffered).err = some (.unexpectedEOF) ∧ (TableFeatures.readFrom default buffered).n = 44 := by decide +kernel

/-! ## Messages with actions -/

/-- C63.  An action list by itself. -/
theorem actions_fragments : FragmentFreeResult Actions.readFrom :=
  fragmentFreeResult (StableV.cons Stable.assign (StableV.last (StableV.scanFrom action_stable)))

example : (Actions.readFrom default inPieces).err = some (.unknownType) ∧ (Actions.readFrom default inPieces).n = 0 ∧
    (Actions.readFrom default buffered).err = some (.unknownType) ∧ (Actions.readFrom default buffered).n = 0 := by decide +kernel

theorem actions_stableV : StableV Any Actions.readFrom :=
  StableV.cons Stable.assign (StableV.last (StableV.scanFrom action_stable))

/-- C63.  An instruction by itself. -/
theorem instruction_fragments : FragmentFreeResult Instruction.readFrom :=
  fragmentFreeResult (by
    intro a r q hr hq hc hP
    have h1 := instructionHeader_stable (P := Any)
    have h2 : StableV Any readInstructionActions :=
      StableV.withLocal (StableV.cons (Stable.sub h1) (StableV.cons Stable.skip (StableV.last
        (StableV.dyn fun _ => StableV.limited (StableV.sub actions_stableV)))))
    cases a <;> simp only [Instruction.readFrom] <;> refine SameResult.wrap (P := Any) ?_ hr hq hc hP <;>
      first | assumption | (refine Stable.v ?_; (try unfold skipInstructionHeader); stable))

example : (Instruction.readFrom default inPieces).err = none ∧ (Instruction.readFrom default inPieces).n = 8 ∧
    (Instruction.readFrom default buffered).err = none ∧ (Instruction.readFrom default buffered).n = 8 := by decide +kernel

/-- C63.  A bucket by itself. -/
theorem bucket_fragments : FragmentFreeResult Bucket.readFrom :=
  fragmentFreeResult (by
    unfold Bucket.readFrom
    refine StableV.withLocal ?_
    repeat' first
      | exact StableV.last (StableV.dyn fun _ => StableV.limited (StableV.sub actions_stableV))
      | refine StableV.cons (by first | exact Stable.num | exact Stable.skip | exact Stable.assign) ?_)

example : (Bucket.readFrom default inPieces).err = some (.unknownType) ∧ (Bucket.readFrom default inPieces).n = 16 ∧
    (Bucket.readFrom default buffered).err = some (.unknownType) ∧ (Bucket.readFrom default buffered).n = 16 := by decide +kernel

/-- A `PacketOut` with 16 bytes of actions, the first of which is a set-field action of length 4,
and the packet `[1, 2, 3, 4]`. -/
private def badPacketOut : Bytes :=
  [0, 0, 0, 1] ++ [0, 0, 0, 2] ++ [0, 16] ++ zeros 6 ++ [0, 25, 0, 4] ++ [9, 9, 9, 9, 9, 9, 9, 9, 9, 9, 9, 9] ++
    [1, 2, 3, 4]

/-- C63 is false of the code: the same bytes are decoded, without an error, to two different
packets when they come in different pieces.  (A set-field action too short for its field ends
the list of actions as if it were complete; how much of the list has by then been read ahead,
and is lost, depends on the reader; the rest becomes the packet.) -/
theorem packetOut_fragments_false : ¬ FragmentFreeResult PacketOut.readFrom ∧
    ∃ (r q : Rd), r.Ok .eof ∧ q.Ok .eof ∧ r.content = q.content ∧
      (PacketOut.readFrom ⟨0, 0, [], []⟩ r).err = none ∧ (PacketOut.readFrom ⟨0, 0, [], []⟩ q).err = none ∧
      (PacketOut.readFrom ⟨0, 0, [], []⟩ r).val.data = [1, 2, 3, 4] ∧
      (PacketOut.readFrom ⟨0, 0, [], []⟩ q).val.data = [9, 9, 9, 9, 9, 9, 9, 9, 9, 9, 9, 9, 1, 2, 3, 4] := by
  have h1 : (PacketOut.readFrom ⟨0, 0, [], []⟩ (.src badPacketOut [] .eof false)).val.data = [1, 2, 3, 4] := by
    decide +kernel
  have h2 : (PacketOut.readFrom ⟨0, 0, [], []⟩ (.src badPacketOut (List.replicate 40 0) .eof false)).val.data =
      [9, 9, 9, 9, 9, 9, 9, 9, 9, 9, 9, 9, 1, 2, 3, 4] := by decide +kernel
  constructor
  · intro h
    have := (h ⟨0, 0, [], []⟩ (.src badPacketOut [] .eof false) (.src badPacketOut (List.replicate 40 0) .eof false)
      rfl rfl rfl).1
    rw [this, h2] at h1
    cases h1
  · exact ⟨.src badPacketOut [] .eof false, .src badPacketOut (List.replicate 40 0) .eof false, rfl, rfl, rfl,
      by decide +kernel, by decide +kernel, h1, h2⟩

/-- An apply-actions instruction with a set-field action of length 4, and a meter instruction.  (The
rest of the action list happens to be a goto-table instruction.) -/
private def badInstructions : Bytes :=
  [0, 4, 0, 20] ++ zeros 4 ++ [0, 25, 0, 4] ++ [0, 1, 0, 8, 7, 0, 0, 0] ++ [0, 6, 0, 8, 0, 0, 0, 5]

/-- C63 is false of the code: the same bytes are decoded, without an error, to two different
lists of instructions. -/
theorem instructions_fragments_false : ∃ (r q : Rd), r.Ok .eof ∧ q.Ok .eof ∧ r.content = q.content ∧
    (Instructions.readFrom [] r).err = none ∧ (Instructions.readFrom [] q).err = none ∧
    (Instructions.readFrom [] r).val = [.applyActions [.setField XM.zero], .meter 5] ∧
    (Instructions.readFrom [] q).val = [.applyActions [.setField XM.zero], .gotoTable 7, .meter 5] := by
  refine ⟨.src badInstructions [] .eof false, .src badInstructions [7, 3, 0] .eof false,
    rfl, rfl, rfl, ?_, ?_, ?_, ?_⟩ <;> decide +kernel

private def badFlowMod : Bytes := zeros 40 ++ [0, 1, 0, 4, 0, 0, 0, 0] ++ badInstructions

/-- C63 is false of the code: the same bytes are decoded, without an error, to two different
flow modifications. -/
theorem flowMod_fragments_false : ∃ (s : FlowMod) (r q : Rd), r.Ok .eof ∧ q.Ok .eof ∧ r.content = q.content ∧
    (FlowMod.readFrom s r).err = none ∧ (FlowMod.readFrom s q).err = none ∧
    (FlowMod.readFrom s r).val.instructions.length = 2 ∧ (FlowMod.readFrom s q).val.instructions.length = 3 := by
  refine ⟨⟨0, 0, 0, 0, 0, 0, 0, 0, 0, 0, 0, ⟨0, []⟩, []⟩, .src badFlowMod [] .eof false,
    .src badFlowMod (List.replicate 15 9 ++ List.replicate 13 0) .eof false,
    rfl, rfl, rfl, ?_, ?_, ?_, ?_⟩ <;> decide +kernel

private def badGroupMod : Bytes := zeros 8 ++ [0, 21] ++ zeros 14 ++ [0, 25, 0, 4] ++ [9]

/-- C63 is false of the code: what follows such an action in a group modification is or is not
taken to be another bucket, as the pieces fall. -/
theorem groupMod_fragments_false : ∃ (s : GroupMod) (r q : Rd), r.Ok .eof ∧ q.Ok .eof ∧ r.content = q.content ∧
    (GroupMod.readFrom s r).err = none ∧ (GroupMod.readFrom s q).err = some .unexpectedEOF := by
  refine ⟨⟨0, 0, 0, []⟩, .src badGroupMod [] .eof false,
    .src badGroupMod (List.replicate 9 9 ++ List.replicate 40 0) .eof false,
    rfl, rfl, rfl, ?_, ?_⟩ <;> decide +kernel

/-! ### Without set-field actions that are cut off -/

theorem noCutField_iff {b : Bytes} : NoCutField b ↔ ∀ x l y, b = x ++ 0 :: 25 :: 0 :: l :: y →
    l ≠ 4 ∧ l ≠ 6 ∧ l ≠ 7 ∧ (l = 8 → ∀ c d e n z, y = c :: d :: e :: n :: z → n = 0) := by
  constructor
  · rintro h x l y rfl
    have h := h x.length (by simp) (by simp) (by simp)
    simp only [List.getElem?_append_right, Nat.le_add_right, Nat.add_sub_cancel_left,
      List.getElem?_cons_succ, List.getElem?_cons_zero, ne_eq, Option.some.injEq] at h
    refine ⟨h.1, h.2.1, h.2.2.1, ?_⟩
    rintro hl c d e n z rfl
    simpa using h.2.2.2 hl
  · intro h i h0 h1 h2
    obtain ⟨hi, h0⟩ := List.getElem?_eq_some_iff.1 h0
    obtain ⟨hj, h1⟩ := List.getElem?_eq_some_iff.1 h1
    obtain ⟨hk, h2⟩ := List.getElem?_eq_some_iff.1 h2
    rcases Nat.lt_or_ge (i + 3) b.length with hl | hl
    · have hb : b = b.take i ++ 0 :: 25 :: 0 :: b[i + 3] :: b.drop (i + 4) := by
        conv => lhs; rw [← List.take_append_drop i b, List.drop_eq_getElem_cons hi, List.drop_eq_getElem_cons hj,
          List.drop_eq_getElem_cons hk, List.drop_eq_getElem_cons hl, h0, h1, h2]
      have h := h _ _ _ hb
      rw [List.getElem?_eq_getElem hl]
      simp only [ne_eq, Option.some.injEq]
      refine ⟨h.1, h.2.1, h.2.2.1, fun h8 => ?_⟩
      rcases Nat.lt_or_ge (i + 7) b.length with hm | hm
      · left
        rw [List.getElem?_eq_getElem hm]
        refine congrArg some (h.2.2.2 h8 b[i + 4] b[i + 5] b[i + 6] b[i + 7] (b.drop (i + 8)) ?_)
        rw [List.drop_eq_getElem_cons (by omega), List.drop_eq_getElem_cons (by omega),
          List.drop_eq_getElem_cons (by omega), List.drop_eq_getElem_cons (by omega)]
      · right; exact List.getElem?_eq_none hm
    · rw [List.getElem?_eq_none hl]; simp

instance : Hereditary NoCutField where
  drop b k h := by
    rw [noCutField_iff] at h ⊢
    exact fun x l y hb => h (b.take k ++ x) l y (by rw [List.append_assoc, ← hb, List.take_append_drop])
  take b k h := by
    rw [noCutField_iff] at h ⊢
    intro x l y hb
    have h := h x l (y ++ b.drop k) (by
      have : b = b.take k ++ b.drop k := (List.take_append_drop k b).symm
      rw [hb] at this; simpa using this)
    refine ⟨h.1, h.2.1, h.2.2.1, ?_⟩
    rintro hl c d e n z rfl
    exact h.2.2.2 hl c d e n (z ++ b.drop k) rfl

theorem actions_eofMade : EofMade NoCutField actionMake Action.readFrom := by
  intro c z hz r hr hP hc
  have key : ∀ {τ : Type} {f : τ → Action} {st : Step τ} {t : τ}, EofEnd Any st →
      (Enc.wrap f st t r).err = some .eof → (Enc.wrap f st t r).rd.content = [] := fun h => h _ r hr trivial
  have hskip : ∀ {σ : Type}, EofEnd Any (skipActionHeader (σ := σ)) := EofEnd.subVal actionHeader_eofEnd
  have hskip' : ∀ {σ : Type}, Stable Any (skipActionHeader (σ := σ)) := Stable.subVal actionHeader_stable
  cases z with
  | setField f =>
    have h25 : c = 25 := by
      unfold actionMake at hz
      split at hz <;> first
        | (rename_i h; exact UInt16.toNat_inj.mp h)
        | cases hz
    subst h25
    simp only [Action.readFrom, Enc.wrap]
    intro he
    rcases setField_eof f r hr he with h | ⟨a, d, hi, lo, t, hcn, hlt, hx⟩
    · exact h
    · exfalso
      rw [hcn] at hc
      obtain ⟨rfl, rfl⟩ : a = 0 ∧ d = 25 := by
        have : [a, d] = [0, 25] := hc
        simpa using this
      have hlen : (sfBody hi lo t).length = (hi.toNat * 256 + lo.toNat + 65532) % 65536 := by
        unfold sfBody; rw [List.length_take]; omega
      have h1 := hi.toNat_lt
      have h2 := lo.toNat_lt
      have hp := noCutField_iff.1 hP
      have cut : ∀ k : Nat, k ≤ 4 → (sfBody hi lo t).length = k → hi = 0 ∧ lo = UInt8.ofNat (k + 4) := by
        intro k hk h
        rw [hlen] at h
        constructor <;> apply UInt8.toNat_inj.mp
        · simp; omega
        · rw [UInt8.toNat_ofNat_of_lt' (show k + 4 < 256 by omega)]; omega
      rcases hx with hx | ⟨x, y, w, n, hb, hn⟩
      · simp only [List.mem_cons, List.not_mem_nil, or_false] at hx
        rcases hx with hx | hx | hx
        · obtain ⟨rfl, rfl⟩ := cut 0 (by omega) hx
          exact (hp [] _ t hcn).1 rfl
        · obtain ⟨rfl, rfl⟩ := cut 2 (by omega) hx
          exact (hp [] _ t hcn).2.1 rfl
        · obtain ⟨rfl, rfl⟩ := cut 3 (by omega) hx
          exact (hp [] _ t hcn).2.2.1 rfl
      · obtain ⟨rfl, rfl⟩ := cut 4 (by omega) (by rw [hb]; rfl)
        refine hn ((hp [] _ t hcn).2.2.2 rfl x y w n (t.drop 4) ?_)
        have : sfBody 0 (UInt8.ofNat 8) t = t.take 4 := rfl
        rw [this] at hb
        rw [← List.take_append_drop 4 t, hb]
        simp
  | _ =>
    simp only [Action.readFrom]
    refine key ?_
    with_reducible repeat' first
      | (exact EofEnd.num) | (exact EofEnd.skip) | (exact hskip) | (exact hskip') | (exact Stable.num) | (exact Stable.skip)
      | (exact NoEof.nil.eofEnd) | (refine EofEnd.cons ?_ ?_ ?_)

theorem actions_noEof : NoEof Actions.readFrom := by
  intro s r hr
  have h : NoEof (Enc.scanFrom actionMake Action.readFrom) := NoEof.scanFrom fun c e he => by
    rcases actionMake_err c e he with h | ⟨h, _⟩ <;> simp [h]
  have := h [] r hr
  rcases ho : Enc.scanFrom actionMake Action.readFrom [] r with ⟨v, n, e, r'⟩
  rw [ho] at this
  cases e with
  | none => simp [Actions.readFrom, Enc.readFrom, Enc.assign, ho]
  | some e => simpa [Actions.readFrom, Enc.readFrom, Enc.assign, ho] using this

theorem actions_stableL : StableL NoCutField Actions.readFrom := by
  intro s k r q hr hq hc hP
  have h := StableL.scanFrom action_stable (Action.readFrom_safe (E := ShortErr)) actions_eofMade [] k r q hr hq hc hP
  obtain ⟨⟨hn, he, hv⟩, hx⟩ := h
  rcases ho : Enc.scanFrom actionMake Action.readFrom [] (.lim k r) with ⟨v, n, e, r'⟩
  rcases hp : Enc.scanFrom actionMake Action.readFrom [] (.lim k q) with ⟨v', n', e', q'⟩
  rw [ho, hp] at hn he hv hx
  simp only at hn he hv hx
  subst hn he hv
  cases e <;> simp only [Actions.readFrom, Enc.readFrom, Enc.assign, ho, hp] <;> exact ⟨⟨rfl, rfl, rfl⟩, hx⟩

theorem instruction_stable : Stable NoCutField Instruction.readFrom := by
  intro a r q hr hq hc hP
  have h1 := instructionHeader_stable (P := NoCutField)
  have h2 := actions_stableL
  have h3 : Stable NoCutField readInstructionActions := by unfold readInstructionActions; stable
  cases a <;> simp only [Instruction.readFrom] <;> refine SameFrag.wrap (P := NoCutField) ?_ hr hq hc hP <;>
    (try unfold skipInstructionHeader) <;> stable

theorem instruction_eofEnd : EofEnd NoCutField Instruction.readFrom := by
  intro a r hr hP
  have key : ∀ {τ : Type} {f : τ → Instruction} {st : Step τ} {t : τ}, EofEnd NoCutField st →
      (Enc.wrap f st t r).err = some .eof → (Enc.wrap f st t r).rd.content = [] := fun h => h _ r hr hP
  have h1 := instructionHeader_stable (P := NoCutField)
  have h1' : EofEnd NoCutField instructionHeader.readFrom := by unfold instructionHeader.readFrom; eofEnd
  have h2 := actions_stableL
  have h2' := actions_noEof
  have hskip : ∀ {σ : Type}, EofEnd NoCutField (skipInstructionHeader (σ := σ)) := EofEnd.subVal h1'
  have hskip' : ∀ {σ : Type}, Stable NoCutField (skipInstructionHeader (σ := σ)) := Stable.subVal h1
  have h3 : EofEnd NoCutField readInstructionActions := by
    unfold readInstructionActions
    refine EofEnd.withLocal (EofEnd.cons (Stable.sub h1) (EofEnd.sub h1') ?_)
    eofEnd
  cases a <;> simp only [Instruction.readFrom] <;> refine key ?_ <;>
    with_reducible repeat' first
      | (exact h3) | (exact EofEnd.num) | (exact EofEnd.skip) | (exact hskip) | (exact hskip') | (exact Stable.num)
      | (exact Stable.skip) | (exact NoEof.nil.eofEnd) | (refine EofEnd.cons ?_ ?_ ?_)

/-- C63.  Instructions, well formed or not, without a set-field action that ends in front of a part
of its field.  Missing: those with one, for which it is false (`instructions_fragments_false`). -/
theorem instructions_fragments_partial : FragmentFreeResultOn NoCutField Instructions.readFrom :=
  fragmentFreeResultOn (StableV.scanFrom instruction_stable)

example : (Instructions.readFrom default inPieces).err = some (.unknownType) ∧ (Instructions.readFrom default inPieces).n = 8 ∧
    (Instructions.readFrom default buffered).err = some (.unknownType) ∧ (Instructions.readFrom default buffered).n = 8 := by decide +kernel

/-- C63.  As `instructions_fragments_partial`. -/
theorem flowMod_fragments_partial : FragmentFreeResultOn NoCutField FlowMod.readFrom :=
  fragmentFreeResultOn (by
    have h := match_stable (P := NoCutField)
    unfold FlowMod.readFrom
    repeat' first
      | exact StableV.last (StableV.sub (StableV.scanFrom instruction_stable))
      | refine StableV.cons (by first | exact Stable.num | exact Stable.skip | exact Stable.assign
                                      | exact Stable.sub h) ?_)

example : (FlowMod.readFrom default inPieces).err = some (.eof) ∧ (FlowMod.readFrom default inPieces).n = 44 ∧
    (FlowMod.readFrom default buffered).err = some (.eof) ∧ (FlowMod.readFrom default buffered).n = 44 := by decide +kernel

/-- C63.  As `instructions_fragments_partial`. -/
theorem flowStats_fragments_partial : FragmentFreeOn NoCutField FlowStats.readFrom :=
  fragmentFreeOn (by
    have h1 := match_stable (P := NoCutField)
    have h2 : StableL NoCutField Instructions.readFrom :=
      StableL.scanFrom instruction_stable Instruction.readFrom_safe instruction_eofEnd.made
    unfold FlowStats.readFrom; stable)

example : (FlowStats.readFrom default inPieces).err = some (.unexpectedEOF) ∧ (FlowStats.readFrom default inPieces).n = 44 ∧
    (FlowStats.readFrom default buffered).err = some (.unexpectedEOF) ∧ (FlowStats.readFrom default buffered).n = 44 := by decide +kernel

theorem bucket_stable : Stable NoCutField Bucket.readFrom := by
  have h2 := actions_stableL
  unfold Bucket.readFrom; stable

theorem bucket_eofEnd : EofEnd NoCutField Bucket.readFrom := by
  have h2 := actions_stableL
  have h2' := actions_noEof
  unfold Bucket.readFrom; eofEnd

/-- C63.  A bucket without such actions and what follows it.  Missing: as
`instructions_fragments_partial`. -/
theorem bucket_fragments_partial : FragmentFreeOn NoCutField Bucket.readFrom := fragmentFreeOn bucket_stable

example : (Bucket.readFrom default inPieces).err = some (.unknownType) ∧ (Bucket.readFrom default inPieces).n = 16 ∧
    (Bucket.readFrom default buffered).err = some (.unknownType) ∧ (Bucket.readFrom default buffered).n = 16 := by decide +kernel

/-- C63.  As `bucket_fragments_partial`. -/
theorem groupMod_fragments_partial : FragmentFreeOn NoCutField GroupMod.readFrom :=
  fragmentFreeOn (by
    have h : Stable NoCutField (Enc.readSliceFrom Bucket.zero Bucket.readFrom) :=
      Stable.readSliceFrom bucket_stable Bucket.readFrom_safe bucket_eofEnd
    unfold GroupMod.readFrom; stable)

example : (GroupMod.readFrom default inPieces).err = none ∧ (GroupMod.readFrom default inPieces).n = 44 ∧
    (GroupMod.readFrom default buffered).err = none ∧ (GroupMod.readFrom default buffered).n = 44 := by decide +kernel

/-- C63.  As `bucket_fragments_partial`. -/
theorem groupDescStats_fragments_partial : FragmentFreeOn NoCutField GroupDescStats.readFrom :=
  fragmentFreeOn (by
    have h : Stable NoCutField (Enc.readSliceFrom Bucket.zero Bucket.readFrom) :=
      Stable.readSliceFrom bucket_stable Bucket.readFrom_safe bucket_eofEnd
    unfold GroupDescStats.readFrom
    refine Stable.withLocal (Stable.cons (Stable.ignoreErr (by stable) GroupDescStats.header_flat) ?_)
    stable)

example : (GroupDescStats.readFrom default inPieces).err = none ∧ (GroupDescStats.readFrom default inPieces).n = 44 ∧
    (GroupDescStats.readFrom default buffered).err = none ∧ (GroupDescStats.readFrom default buffered).n = 44 := by decide +kernel

/-- C63.  A packet without such actions.  Missing: as `packetOut_fragments_false` shows. -/
theorem packetOut_fragments_partial : FragmentFreeOn NoCutField PacketOut.readFrom :=
  fragmentFreeOn (by
    have h := actions_stableL
    unfold PacketOut.readFrom; stable)

example : (PacketOut.readFrom default inPieces).err = some (.unknownType) ∧ (PacketOut.readFrom default inPieces).n = 16 ∧
    (PacketOut.readFrom default buffered).err = some (.unknownType) ∧ (PacketOut.readFrom default buffered).n = 16 := by decide +kernel

private def CutOk (b : Bytes) (i : Nat) : Prop := b[i]? = some 0 → b[i + 1]? = some 25 → b[i + 2]? = some 0 →
  b[i + 3]? ≠ some 4 ∧ b[i + 3]? ≠ some 6 ∧ b[i + 3]? ≠ some 7 ∧
    (b[i + 3]? = some 8 → b[i + 7]? = some 0 ∨ b[i + 7]? = none)

private instance (b : Bytes) (i : Nat) : Decidable (CutOk b i) := by unfold CutOk; infer_instance

private theorem noCut_of {b : Bytes} (h : ∀ i < b.length, CutOk b i) : NoCutField b := by
  intro i h0
  rcases Nat.lt_or_ge i b.length with hi | hi
  · exact h i hi h0
  · rw [List.getElem?_eq_none hi] at h0; cases h0

example : NoCutField noise := noCut_of (by decide +kernel)

/-- A set-field action as it should be, one that is one byte too short, one whose length is
impossible, an unknown action, and a set-field action that is cut off by the end of the input. -/
example : NoCutField ([0, 25, 0, 16, 128, 0, 22, 4, 10, 0, 0, 1, 0, 0, 0, 0] ++ [0, 25, 0, 11, 128, 0, 22, 4, 10, 0, 0] ++
    [0, 25, 0, 2, 0, 0, 0, 0] ++ [0, 99, 0, 8] ++ [0, 25, 0, 8, 128, 0, 22]) := noCut_of (by decide +kernel)

/-- The action of `packetOut_fragments_false` is excluded. -/
example : ¬ NoCutField badPacketOut := fun h => by
  have := (h 16 (by decide) (by decide) (by decide)).1
  revert this; decide

end Verif.Props
