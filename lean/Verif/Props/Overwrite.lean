import Verif.Same
import Verif.Ofp.Fixed
import Verif.Ofp.Flow
import Verif.Ofp.Packet
import Verif.Ofp.Group
import Verif.Ofp.Port
import Verif.Ofp.Raw
import Verif.Ofp.Table
import Verif.Ofp.Hello
import Verif.Ofp.Queue
import Verif.Ofp.Meter
import Verif.Request

/-!
# Decoding into a used value (C42)

The same reader, two receivers.  Any reader: every fragmentation, with or without a fault of
the transport, any bytes, well-formed or not.
-/

namespace Verif.Props

/-- What the decoder does does not depend on what the receiver held: the count, the error and
what is left in the reader never do, the decoded value does not when there is no error. -/
def IndependentOfReceiver {σ : Type} (dec : Step σ) : Prop :=
  ∀ (s t : σ) (r : Rd), (dec s r).n = (dec t r).n ∧ (dec s r).err = (dec t r).err ∧
    (dec s r).rd = (dec t r).rd ∧ ((dec s r).err = none → (dec s r).val = (dec t r).val)

/-- The same for receivers that have the part `keep` in common: what the decoder does depends
on `keep` only. -/
def DependsOnlyOn {σ κ : Type} (keep : σ → κ) (dec : Step σ) : Prop :=
  ∀ (s t : σ) (r : Rd), keep s = keep t → (dec s r).n = (dec t r).n ∧ (dec s r).err = (dec t r).err ∧
    (dec s r).rd = (dec t r).rd ∧ ((dec s r).err = none → (dec s r).val = (dec t r).val)

theorem independent {σ : Type} {dec : Step σ} (h : Forgets dec) : IndependentOfReceiver dec := fun s t r =>
  let x := h s t r; ⟨x.n, x.err, x.rd, x.val⟩

theorem dependsOnly {σ κ : Type} {keep : σ → κ} {dec : Step σ} (h : ∀ s t, keep s = keep t → SameS dec s t (· = ·)) :
    DependsOnlyOn keep dec := fun s t r he =>
  let x := h s t he r; ⟨x.n, x.err, x.rd, x.val⟩

theorem xm_forgets (p : Bool) : Forgets (XM.read p) := by
  cases p <;> (intro s t; unfold XM.read; same)

theorem match_forgets : Forgets Match.readFrom := by
  intro s t; unfold Match.readFrom; same

/-- In the examples a variable that has decoded `used 1` decodes `used 2`. -/
private def used (b : UInt8) : Rd := .src (List.replicate 120 b) [2, 0, 5] .eof true

/-! ## Messages of fixed size -/

/-- C42. -/
theorem aggregateStats_receiver : IndependentOfReceiver AggregateStats.readFrom :=
  independent (by intro s t; unfold AggregateStats.readFrom; same)

example : (AggregateStats.readFrom default (used 1)).val ≠ default ∧
    (AggregateStats.readFrom (AggregateStats.readFrom default (used 1)).val (used 2)).err = none ∧
    (AggregateStats.readFrom (AggregateStats.readFrom default (used 1)).val (used 2)).val =
      (AggregateStats.readFrom default (used 2)).val := by decide +kernel

/-- C42. -/
theorem switchFeatures_receiver : IndependentOfReceiver SwitchFeatures.readFrom :=
  independent (by intro s t; unfold SwitchFeatures.readFrom; same)

example : (SwitchFeatures.readFrom default (used 1)).val ≠ default ∧
    (SwitchFeatures.readFrom (SwitchFeatures.readFrom default (used 1)).val (used 2)).err = none ∧
    (SwitchFeatures.readFrom (SwitchFeatures.readFrom default (used 1)).val (used 2)).val =
      (SwitchFeatures.readFrom default (used 2)).val := by decide +kernel

/-- C42. -/
theorem switchConfig_receiver : IndependentOfReceiver SwitchConfig.readFrom :=
  independent (by intro s t; unfold SwitchConfig.readFrom; same)

example : (SwitchConfig.readFrom default (used 1)).val ≠ default ∧
    (SwitchConfig.readFrom (SwitchConfig.readFrom default (used 1)).val (used 2)).err = none ∧
    (SwitchConfig.readFrom (SwitchConfig.readFrom default (used 1)).val (used 2)).val =
      (SwitchConfig.readFrom default (used 2)).val := by decide +kernel

/-- C42. -/
theorem multipartReply_receiver : IndependentOfReceiver MultipartReply.readFrom :=
  independent (by intro s t; unfold MultipartReply.readFrom; same)

example : (MultipartReply.readFrom default (used 1)).val ≠ default ∧
    (MultipartReply.readFrom (MultipartReply.readFrom default (used 1)).val (used 2)).err = none ∧
    (MultipartReply.readFrom (MultipartReply.readFrom default (used 1)).val (used 2)).val =
      (MultipartReply.readFrom default (used 2)).val := by decide +kernel

/-- C42. -/
theorem experimenterMultipartHeader_receiver : IndependentOfReceiver ExperimenterMultipartHeader.readFrom :=
  independent (by intro s t; unfold ExperimenterMultipartHeader.readFrom; same)

example : (ExperimenterMultipartHeader.readFrom default (used 1)).val ≠ default ∧
    (ExperimenterMultipartHeader.readFrom (ExperimenterMultipartHeader.readFrom default (used 1)).val (used 2)).err = none ∧
    (ExperimenterMultipartHeader.readFrom (ExperimenterMultipartHeader.readFrom default (used 1)).val (used 2)).val =
      (ExperimenterMultipartHeader.readFrom default (used 2)).val := by decide +kernel

/-- C42. -/
theorem experimenter_receiver : IndependentOfReceiver Experimenter.readFrom :=
  independent (by intro s t; unfold Experimenter.readFrom; same)

example : (Experimenter.readFrom default (used 1)).val ≠ default ∧
    (Experimenter.readFrom (Experimenter.readFrom default (used 1)).val (used 2)).err = none ∧
    (Experimenter.readFrom (Experimenter.readFrom default (used 1)).val (used 2)).val =
      (Experimenter.readFrom default (used 2)).val := by decide +kernel

/-- C42. -/
theorem roleRequest_receiver : IndependentOfReceiver RoleRequest.readFrom :=
  independent (by intro s t; unfold RoleRequest.readFrom; same)

example : (RoleRequest.readFrom default (used 1)).val ≠ default ∧
    (RoleRequest.readFrom (RoleRequest.readFrom default (used 1)).val (used 2)).err = none ∧
    (RoleRequest.readFrom (RoleRequest.readFrom default (used 1)).val (used 2)).val =
      (RoleRequest.readFrom default (used 2)).val := by decide +kernel

/-- C42. -/
theorem asyncConfig_receiver : IndependentOfReceiver AsyncConfig.readFrom :=
  independent (by intro s t; unfold AsyncConfig.readFrom; same)

example : (AsyncConfig.readFrom default (used 1)).val ≠ default ∧
    (AsyncConfig.readFrom (AsyncConfig.readFrom default (used 1)).val (used 2)).err = none ∧
    (AsyncConfig.readFrom (AsyncConfig.readFrom default (used 1)).val (used 2)).val =
      (AsyncConfig.readFrom default (used 2)).val := by decide +kernel

/-- C42. -/
theorem tableMod_receiver : IndependentOfReceiver TableMod.readFrom :=
  independent (by intro s t; unfold TableMod.readFrom; same)

example : (TableMod.readFrom default (used 1)).val ≠ default ∧
    (TableMod.readFrom (TableMod.readFrom default (used 1)).val (used 2)).err = none ∧
    (TableMod.readFrom (TableMod.readFrom default (used 1)).val (used 2)).val =
      (TableMod.readFrom default (used 2)).val := by decide +kernel

/-- C42. -/
theorem tableStats_receiver : IndependentOfReceiver TableStats.readFrom :=
  independent (by intro s t; unfold TableStats.readFrom; same)

example : (TableStats.readFrom default (used 1)).val ≠ default ∧
    (TableStats.readFrom (TableStats.readFrom default (used 1)).val (used 2)).err = none ∧
    (TableStats.readFrom (TableStats.readFrom default (used 1)).val (used 2)).val =
      (TableStats.readFrom default (used 2)).val := by decide +kernel

/-- C42. -/
theorem portStatsRequest_receiver : IndependentOfReceiver PortStatsRequest.readFrom :=
  independent (by intro s t; unfold PortStatsRequest.readFrom; same)

example : (PortStatsRequest.readFrom default (used 1)).val ≠ default ∧
    (PortStatsRequest.readFrom (PortStatsRequest.readFrom default (used 1)).val (used 2)).err = none ∧
    (PortStatsRequest.readFrom (PortStatsRequest.readFrom default (used 1)).val (used 2)).val =
      (PortStatsRequest.readFrom default (used 2)).val := by decide +kernel

/-- C42. -/
theorem portStats_receiver : IndependentOfReceiver PortStats.readFrom :=
  independent (by intro s t; unfold PortStats.readFrom; same)

example : (PortStats.readFrom default (used 1)).val ≠ default ∧
    (PortStats.readFrom (PortStats.readFrom default (used 1)).val (used 2)).err = none ∧
    (PortStats.readFrom (PortStats.readFrom default (used 1)).val (used 2)).val =
      (PortStats.readFrom default (used 2)).val := by decide +kernel

/-- C42. -/
theorem meterConfigRequest_receiver : IndependentOfReceiver MeterConfigRequest.readFrom :=
  independent (by intro s t; unfold MeterConfigRequest.readFrom; same)

example : (MeterConfigRequest.readFrom default (used 1)).val ≠ default ∧
    (MeterConfigRequest.readFrom (MeterConfigRequest.readFrom default (used 1)).val (used 2)).err = none ∧
    (MeterConfigRequest.readFrom (MeterConfigRequest.readFrom default (used 1)).val (used 2)).val =
      (MeterConfigRequest.readFrom default (used 2)).val := by decide +kernel

/-- C42. -/
theorem meterFeatures_receiver : IndependentOfReceiver MeterFeatures.readFrom :=
  independent (by intro s t; unfold MeterFeatures.readFrom; same)

example : (MeterFeatures.readFrom default (used 1)).val ≠ default ∧
    (MeterFeatures.readFrom (MeterFeatures.readFrom default (used 1)).val (used 2)).err = none ∧
    (MeterFeatures.readFrom (MeterFeatures.readFrom default (used 1)).val (used 2)).val =
      (MeterFeatures.readFrom default (used 2)).val := by decide +kernel

/-- C42. -/
theorem meterBandStats_receiver : IndependentOfReceiver MeterBandStats.readFrom :=
  independent (by intro s t; unfold MeterBandStats.readFrom; same)

example : (MeterBandStats.readFrom default (used 1)).val ≠ default ∧
    (MeterBandStats.readFrom (MeterBandStats.readFrom default (used 1)).val (used 2)).err = none ∧
    (MeterBandStats.readFrom (MeterBandStats.readFrom default (used 1)).val (used 2)).val =
      (MeterBandStats.readFrom default (used 2)).val := by decide +kernel

/-- C42. -/
theorem meterStatsRequest_receiver : IndependentOfReceiver MeterStatsRequest.readFrom :=
  independent (by intro s t; unfold MeterStatsRequest.readFrom; same)

example : (MeterStatsRequest.readFrom default (used 1)).val ≠ default ∧
    (MeterStatsRequest.readFrom (MeterStatsRequest.readFrom default (used 1)).val (used 2)).err = none ∧
    (MeterStatsRequest.readFrom (MeterStatsRequest.readFrom default (used 1)).val (used 2)).val =
      (MeterStatsRequest.readFrom default (used 2)).val := by decide +kernel

/-- C42. -/
theorem groupStatsRequest_receiver : IndependentOfReceiver GroupStatsRequest.readFrom :=
  independent (by intro s t; unfold GroupStatsRequest.readFrom; same)

example : (GroupStatsRequest.readFrom default (used 1)).val ≠ default ∧
    (GroupStatsRequest.readFrom (GroupStatsRequest.readFrom default (used 1)).val (used 2)).err = none ∧
    (GroupStatsRequest.readFrom (GroupStatsRequest.readFrom default (used 1)).val (used 2)).val =
      (GroupStatsRequest.readFrom default (used 2)).val := by decide +kernel

/-- C42. -/
theorem bucketCounter_receiver : IndependentOfReceiver BucketCounter.readFrom :=
  independent (by intro s t; unfold BucketCounter.readFrom; same)

example : (BucketCounter.readFrom default (used 1)).val ≠ default ∧
    (BucketCounter.readFrom (BucketCounter.readFrom default (used 1)).val (used 2)).err = none ∧
    (BucketCounter.readFrom (BucketCounter.readFrom default (used 1)).val (used 2)).val =
      (BucketCounter.readFrom default (used 2)).val := by decide +kernel

/-- C42. -/
theorem groupFeatures_receiver : IndependentOfReceiver GroupFeatures.readFrom :=
  independent (by intro s t; unfold GroupFeatures.readFrom; same)

example : (GroupFeatures.readFrom default (used 1)).val ≠ default ∧
    (GroupFeatures.readFrom (GroupFeatures.readFrom default (used 1)).val (used 2)).err = none ∧
    (GroupFeatures.readFrom (GroupFeatures.readFrom default (used 1)).val (used 2)).val =
      (GroupFeatures.readFrom default (used 2)).val := by decide +kernel

/-- C42. -/
theorem queueStatsRequest_receiver : IndependentOfReceiver QueueStatsRequest.readFrom :=
  independent (by intro s t; unfold QueueStatsRequest.readFrom; same)

example : (QueueStatsRequest.readFrom default (used 1)).val ≠ default ∧
    (QueueStatsRequest.readFrom (QueueStatsRequest.readFrom default (used 1)).val (used 2)).err = none ∧
    (QueueStatsRequest.readFrom (QueueStatsRequest.readFrom default (used 1)).val (used 2)).val =
      (QueueStatsRequest.readFrom default (used 2)).val := by decide +kernel

/-- C42. -/
theorem queueStats_receiver : IndependentOfReceiver QueueStats.readFrom :=
  independent (by intro s t; unfold QueueStats.readFrom; same)

example : (QueueStats.readFrom default (used 1)).val ≠ default ∧
    (QueueStats.readFrom (QueueStats.readFrom default (used 1)).val (used 2)).err = none ∧
    (QueueStats.readFrom (QueueStats.readFrom default (used 1)).val (used 2)).val =
      (QueueStats.readFrom default (used 2)).val := by decide +kernel

/-- C42. -/
theorem queueGetConfigRequest_receiver : IndependentOfReceiver QueueGetConfigRequest.readFrom :=
  independent (by intro s t; unfold QueueGetConfigRequest.readFrom; same)

example : (QueueGetConfigRequest.readFrom default (used 1)).val ≠ default ∧
    (QueueGetConfigRequest.readFrom (QueueGetConfigRequest.readFrom default (used 1)).val (used 2)).err = none ∧
    (QueueGetConfigRequest.readFrom (QueueGetConfigRequest.readFrom default (used 1)).val (used 2)).val =
      (QueueGetConfigRequest.readFrom default (used 2)).val := by decide +kernel

/-! ## Messages of variable size -/

/-- C42. -/
theorem xm_receiver : IndependentOfReceiver XM.readFrom := independent (xm_forgets true)

example : (XM.readFrom default (used 1)).val ≠ default ∧
    (XM.readFrom (XM.readFrom default (used 1)).val (used 2)).err = none ∧
    (XM.readFrom (XM.readFrom default (used 1)).val (used 2)).val =
      (XM.readFrom default (used 2)).val := by decide +kernel

/-- C42. -/
theorem match_receiver : IndependentOfReceiver Match.readFrom := independent match_forgets

/-- C42. -/
theorem actions_receiver : IndependentOfReceiver Actions.readFrom :=
  independent (by intro s t; unfold Actions.readFrom; same)

/-- C42. -/
theorem header_receiver : IndependentOfReceiver Header.readFrom :=
  independent (by intro s t; unfold Header.readFrom; same)

example : (Header.readFrom default (used 1)).val ≠ default ∧
    (Header.readFrom (Header.readFrom default (used 1)).val (used 2)).err = none ∧
    (Header.readFrom (Header.readFrom default (used 1)).val (used 2)).val =
      (Header.readFrom default (used 2)).val := by decide +kernel

/-- C42. -/
theorem flowMod_receiver : IndependentOfReceiver FlowMod.readFrom :=
  independent (by have := match_forgets; intro s t; unfold FlowMod.readFrom; same)

/-- C42. -/
theorem flowRemoved_receiver : IndependentOfReceiver FlowRemoved.readFrom :=
  independent (by have := match_forgets; intro s t; unfold FlowRemoved.readFrom; same)

/-- C42. -/
theorem flowStatsRequest_receiver : IndependentOfReceiver FlowStatsRequest.readFrom :=
  independent (by have := match_forgets; intro s t; unfold FlowStatsRequest.readFrom; same)

/-- C42. -/
theorem aggregateStatsRequest_receiver : IndependentOfReceiver AggregateStatsRequest.readFrom :=
  independent (by have := match_forgets; intro s t; unfold AggregateStatsRequest.readFrom; same)

/-- C42. -/
theorem packetIn_receiver : IndependentOfReceiver PacketIn.readFrom :=
  independent (by have := match_forgets; intro s t; unfold PacketIn.readFrom; same)

/-- C42. -/
theorem packetOut_receiver : IndependentOfReceiver PacketOut.readFrom :=
  independent (by intro s t; unfold PacketOut.readFrom; same)

/-- C42. -/
theorem bucket_receiver : IndependentOfReceiver Bucket.readFrom :=
  independent (by intro s t; unfold Bucket.readFrom; same)

/-- C42. -/
theorem echoRequest_receiver : IndependentOfReceiver EchoRequest.readFrom :=
  independent (by intro s t; unfold EchoRequest.readFrom; same)

example : (EchoRequest.readFrom default (used 1)).val ≠ default ∧
    (EchoRequest.readFrom (EchoRequest.readFrom default (used 1)).val (used 2)).err = none ∧
    (EchoRequest.readFrom (EchoRequest.readFrom default (used 1)).val (used 2)).val =
      (EchoRequest.readFrom default (used 2)).val := by decide +kernel

/-- C42. -/
theorem echoReply_receiver : IndependentOfReceiver EchoReply.readFrom :=
  independent (by intro s t; unfold EchoReply.readFrom; same)

example : (EchoReply.readFrom default (used 1)).val ≠ default ∧
    (EchoReply.readFrom (EchoReply.readFrom default (used 1)).val (used 2)).err = none ∧
    (EchoReply.readFrom (EchoReply.readFrom default (used 1)).val (used 2)).val =
      (EchoReply.readFrom default (used 2)).val := by decide +kernel

/-- C42. -/
theorem ofpError_receiver : IndependentOfReceiver OfpError.readFrom :=
  independent (by intro s t; unfold OfpError.readFrom; same)

example : (OfpError.readFrom default (used 1)).val ≠ default ∧
    (OfpError.readFrom (OfpError.readFrom default (used 1)).val (used 2)).err = none ∧
    (OfpError.readFrom (OfpError.readFrom default (used 1)).val (used 2)).val =
      (OfpError.readFrom default (used 2)).val := by decide +kernel

/-- C42. -/
theorem errorExperimenter_receiver : IndependentOfReceiver ErrorExperimenter.readFrom :=
  independent (by intro s t; unfold ErrorExperimenter.readFrom; same)

example : (ErrorExperimenter.readFrom default (used 1)).val ≠ default ∧
    (ErrorExperimenter.readFrom (ErrorExperimenter.readFrom default (used 1)).val (used 2)).err = none ∧
    (ErrorExperimenter.readFrom (ErrorExperimenter.readFrom default (used 1)).val (used 2)).val =
      (ErrorExperimenter.readFrom default (used 2)).val := by decide +kernel

/-- C42. -/
theorem description_receiver : IndependentOfReceiver Description.readFrom :=
  independent (by intro s t; unfold Description.readFrom; same)

/-- C42. -/
theorem multipartRequest_receiver : IndependentOfReceiver MultipartRequest.readFrom :=
  independent (by intro s t; unfold MultipartRequest.readFrom; same)

example : (MultipartRequest.readFrom default (used 1)).val ≠ default ∧
    (MultipartRequest.readFrom (MultipartRequest.readFrom default (used 1)).val (used 2)).err = none ∧
    (MultipartRequest.readFrom (MultipartRequest.readFrom default (used 1)).val (used 2)).val =
      (MultipartRequest.readFrom default (used 2)).val := by decide +kernel

/-- C42. -/
theorem tableFeatures_receiver : IndependentOfReceiver TableFeatures.readFrom :=
  independent (by intro s t; unfold TableFeatures.readFrom; same)

/-- C42. -/
theorem flowStats_receiver : IndependentOfReceiver FlowStats.readFrom := independent (by
  have := match_forgets
  intro s t
  unfold FlowStats.readFrom
  refine SameS.withLocal (SameS.andThen
    (P := fun a b => { a.1 with instructions := [] } = { b.1 with instructions := [] } ∧ a.2 = b.2) ?_ ?_)
  · repeat' with_reducible first
      | (refine SameS.numCons fun v => ?_; try dsimp only)
      | (refine SameS.skipCons ?_)
      | (refine SameS.subCons (by assumption) fun v => ?_; try dsimp only)
    exact SameS.nil ⟨rfl, rfl⟩
  · rintro n ⟨a, l⟩ ⟨b, m⟩ ⟨h1, h2⟩
    dsimp only at h1 h2
    subst h2
    refine SameS.assignCons ?_
    dsimp only
    rw [h1]
    same)

theorem port_forgets : Forgets Port.readFrom := by
  intro s t
  unfold Port.readFrom
  refine SameS.withLocal (SameS.always
    (P := fun a b => { a.1 with name := [] } = { b.1 with name := [] } ∧ a.2 = b.2) ?_ ?_)
  · unfold Port.fields
    repeat' with_reducible first
      | (refine SameS.numCons fun v => ?_; try dsimp only)
      | (refine SameS.skipCons ?_)
      | (refine SameS.binCons fun v => ?_; try dsimp only)
      | (refine SameS.assignCons ?_; try dsimp only)
    exact SameS.nil ⟨rfl, rfl⟩
  · rintro ⟨a, l⟩ ⟨b, m⟩ ⟨h1, h2⟩
    cases a; cases b
    simp_all

/-- C42. -/
theorem port_receiver : IndependentOfReceiver Port.readFrom := independent port_forgets

example : (Port.readFrom default (used 1)).val ≠ default ∧
    (Port.readFrom (Port.readFrom default (used 1)).val (used 2)).err = none ∧
    (Port.readFrom (Port.readFrom default (used 1)).val (used 2)).val =
      (Port.readFrom default (used 2)).val := by decide +kernel

/-- C42. -/
theorem portStatus_receiver : IndependentOfReceiver PortStatus.readFrom :=
  independent (by have := port_forgets; intro s t; unfold PortStatus.readFrom; same)

example : (PortStatus.readFrom default (used 1)).val ≠ default ∧
    (PortStatus.readFrom (PortStatus.readFrom default (used 1)).val (used 2)).err = none ∧
    (PortStatus.readFrom (PortStatus.readFrom default (used 1)).val (used 2)).val =
      (PortStatus.readFrom default (used 2)).val := by decide +kernel

/-! ## Elements of lists

The receiver is a value of an interface type.  What is decoded depends on its dynamic type
only. -/

theorem same_wrap {σ τ : Type} {f : τ → σ} {st : Step τ} {a b : τ} (h : SameS st a b (· = ·)) (r : Rd) :
    SameOut (· = ·) (Enc.wrap f st a r) (Enc.wrap f st b r) :=
  let x := h r; ⟨x.n, x.err, x.rd, fun he => congrArg f (x.val he)⟩

theorem setField_forgets : Forgets setField.readFrom := by
  have := xm_forgets true
  intro s t
  unfold setField.readFrom
  refine SameS.withLocal (SameS.subEqCons rfl fun v => ?_)
  refine SameS.dynCons (P := (· = ·)) rfl (SameS.limited ?_) (by rintro _ _ rfl; exact SameS.refl rfl fun _ => rfl)
  exact SameS.subCons (xm_forgets true) fun v => SameS.refl rfl fun _ => rfl

theorem skipActionHeader_same {σ : Type} {l : List (Step σ)} {s t : σ} {Q : σ → σ → Prop}
    (h : SameS (Enc.readFrom l) s t Q) : SameS (Enc.readFrom (skipActionHeader :: l)) s t Q :=
  SameS.subValCons (P := (· = ·)) (SameS.refl rfl fun _ => rfl) h

theorem skipInstructionHeader_same {σ : Type} {l : List (Step σ)} {s t : σ} {Q : σ → σ → Prop}
    (h : SameS (Enc.readFrom l) s t Q) : SameS (Enc.readFrom (skipInstructionHeader :: l)) s t Q :=
  SameS.subValCons (P := (· = ·)) (SameS.refl rfl fun _ => rfl) h

theorem action_zero_same (a : Action) (r : Rd) : SameOut (· = ·) (a.readFrom r) (a.zero.readFrom r) := by
  cases a
  case setField f => exact same_wrap (setField_forgets _ _) r
  all_goals
    simp only [Action.readFrom, Action.zero]
    refine same_wrap ?_ r
    try refine skipActionHeader_same ?_
    same

/-- C42. -/
theorem action_receiver (a b : Action) (hab : a.type = b.type) (r : Rd) :
    (a.readFrom r).n = (b.readFrom r).n ∧ (a.readFrom r).err = (b.readFrom r).err ∧
    (a.readFrom r).rd = (b.readFrom r).rd ∧
    ((a.readFrom r).err = none → (a.readFrom r).val = (b.readFrom r).val) := by
  have hz : a.zero = b.zero := by
    have h1 := actionMake_type a
    have h2 := actionMake_type b
    rw [hab, h2] at h1
    exact (Except.ok.inj h1).symm
  obtain ⟨a1, a2, a3, a4⟩ := action_zero_same a r
  obtain ⟨b1, b2, b3, b4⟩ := action_zero_same b r
  rw [hz] at a1 a2 a3 a4
  exact ⟨a1.trans b1.symm, a2.trans b2.symm, a3.trans b3.symm,
    fun he => (a4 he).trans (b4 (by rw [b2, ← a2]; exact he)).symm⟩

example : (Action.output 1 2).type = (Action.output 3 4).type := rfl

theorem readInstructionActions_forgets : Forgets readInstructionActions := by
  intro s t
  unfold readInstructionActions
  refine SameS.withLocal (SameS.subEqCons rfl fun v => SameS.skipCons ?_)
  refine SameS.dynCons (P := (· = ·)) rfl (SameS.limited (SameS.sub
    (fun r => let x := actions_receiver _ _ r; ⟨x.1, x.2.1, x.2.2.1, x.2.2.2⟩) (P := (· = ·)) ?_))
    (by rintro _ _ rfl; exact SameS.refl rfl fun _ => rfl)
  rintro _ _ rfl; rfl

theorem instruction_zero_same (a : Instruction) (r : Rd) :
    SameOut (· = ·) (a.readFrom r) (a.zero.readFrom r) := by
  cases a
  case writeActions f => exact same_wrap (readInstructionActions_forgets _ _) r
  case applyActions f => exact same_wrap (readInstructionActions_forgets _ _) r
  all_goals
    simp only [Instruction.readFrom, Instruction.zero]
    refine same_wrap ?_ r
    try refine skipInstructionHeader_same ?_
    same

/-- C42. -/
theorem instruction_receiver (a b : Instruction) (hab : a.type = b.type) (r : Rd) :
    (a.readFrom r).n = (b.readFrom r).n ∧ (a.readFrom r).err = (b.readFrom r).err ∧
    (a.readFrom r).rd = (b.readFrom r).rd ∧
    ((a.readFrom r).err = none → (a.readFrom r).val = (b.readFrom r).val) := by
  have hz : a.zero = b.zero := by
    have h1 := instructionMake_type a
    have h2 := instructionMake_type b
    rw [hab, h2] at h1
    exact (Except.ok.inj h1).symm
  obtain ⟨a1, a2, a3, a4⟩ := instruction_zero_same a r
  obtain ⟨b1, b2, b3, b4⟩ := instruction_zero_same b r
  rw [hz] at a1 a2 a3 a4
  exact ⟨a1.trans b1.symm, a2.trans b2.symm, a3.trans b3.symm,
    fun he => (a4 he).trans (b4 (by rw [b2, ← a2]; exact he)).symm⟩

example : (Instruction.applyActions []).type = (Instruction.applyActions [.group 4]).type := rfl

theorem queueProp_zero_same (a : QueueProp) (r : Rd) : SameOut (· = ·) (a.readFrom r) (a.zero.readFrom r) := by
  cases a <;> simp only [QueueProp.readFrom, QueueProp.zero] <;> refine same_wrap ?_ r <;>
    first | unfold QueueProp.readRate | unfold QueueProp.readExperimenter
  all_goals same

theorem meterBand_zero_same (a : MeterBand) (r : Rd) : SameOut (· = ·) (a.readFrom r) (a.zero.readFrom r) := by
  cases a <;> simp only [MeterBand.readFrom, MeterBand.zero] <;> refine same_wrap ?_ r <;> same

/-- C42. -/
theorem queueProp_receiver (a b : QueueProp) (hab : a.type = b.type) (r : Rd) :
    (a.readFrom r).n = (b.readFrom r).n ∧ (a.readFrom r).err = (b.readFrom r).err ∧
    (a.readFrom r).rd = (b.readFrom r).rd ∧
    ((a.readFrom r).err = none → (a.readFrom r).val = (b.readFrom r).val) := by
  have hz : a.zero = b.zero := by
    have h1 := queuePropMake_type a
    have h2 := queuePropMake_type b
    rw [hab, h2] at h1
    exact (Except.ok.inj h1).symm
  obtain ⟨a1, a2, a3, a4⟩ := queueProp_zero_same a r
  obtain ⟨b1, b2, b3, b4⟩ := queueProp_zero_same b r
  rw [hz] at a1 a2 a3 a4
  exact ⟨a1.trans b1.symm, a2.trans b2.symm, a3.trans b3.symm,
    fun he => (a4 he).trans (b4 (by rw [b2, ← a2]; exact he)).symm⟩

/-- C42. -/
theorem meterBand_receiver (a b : MeterBand) (hab : a.type = b.type) (r : Rd) :
    (a.readFrom r).n = (b.readFrom r).n ∧ (a.readFrom r).err = (b.readFrom r).err ∧
    (a.readFrom r).rd = (b.readFrom r).rd ∧
    ((a.readFrom r).err = none → (a.readFrom r).val = (b.readFrom r).val) := by
  have hz : a.zero = b.zero := by
    have h1 := meterBandMake_type a
    have h2 := meterBandMake_type b
    rw [hab, h2] at h1
    exact (Except.ok.inj h1).symm
  obtain ⟨a1, a2, a3, a4⟩ := meterBand_zero_same a r
  obtain ⟨b1, b2, b3, b4⟩ := meterBand_zero_same b r
  rw [hz] at a1 a2 a3 a4
  exact ⟨a1.trans b1.symm, a2.trans b2.symm, a3.trans b3.symm,
    fun he => (a4 he).trans (b4 (by rw [b2, ← a2]; exact he)).symm⟩

theorem tablePropXM_same (p : Bool) (s t : Bool × List XM) (h : p = true ∨ s.1 = t.1) :
    SameS (readTablePropXM p) s t (· = ·) := by
  unfold readTablePropXM yieldTableProp
  obtain ⟨a, x⟩ := s
  obtain ⟨b, y⟩ := t
  cases p
  · obtain h | h := h
    · cases h
    · dsimp only at h; subst h; same
  · simp only [if_true]; same

theorem tablePropCodes_forgets (h : Step (UInt16 × UInt16)) : Forgets (readTablePropCodes h) := by
  intro s t; unfold readTablePropCodes yieldTableProp; simp only [if_true]; same

theorem tableNext_forgets : Forgets readNextTables := by
  intro s t; unfold readNextTables yieldTableProp; simp only [if_true]; same

theorem tableExperimenter_forgets : Forgets readTablePropExperimenter := by
  intro s t; unfold readTablePropExperimenter; same

/-- The kind of a table property and, for the experimenter property, the miss flag, which the
decoder does not set. -/
def tablePropKind : TableProp → Nat
  | .instructions .. => 0
  | .nextTables .. => 1
  | .writeActions .. => 2
  | .applyActions .. => 3
  | .matches .. => 4
  | .wildcards .. => 5
  | .writeSetField .. => 6
  | .applySetField .. => 7
  | .experimenter m _ _ _ => if m then 9 else 8

/-- C42. -/
theorem tableProp_receiver (a b : TableProp) (hab : tablePropKind a = tablePropKind b) (r : Rd) :
    (a.readFrom r).n = (b.readFrom r).n ∧ (a.readFrom r).err = (b.readFrom r).err ∧
    (a.readFrom r).rd = (b.readFrom r).rd ∧
    ((a.readFrom r).err = none → (a.readFrom r).val = (b.readFrom r).val) := by
  have key : SameOut (· = ·) (a.readFrom r) (b.readFrom r) := by
    cases a <;> cases b <;> try (simp [tablePropKind] at hab; done)
    all_goals simp only [TableProp.readFrom]
    all_goals try (split at hab <;> simp at hab; done)
    case instructions.instructions => exact same_wrap (tablePropCodes_forgets _ _ _) r
    case nextTables.nextTables => exact same_wrap (tableNext_forgets _ _) r
    case writeActions.writeActions => exact same_wrap (tablePropCodes_forgets _ _ _) r
    case applyActions.applyActions => exact same_wrap (tablePropCodes_forgets _ _ _) r
    case matches.matches => exact same_wrap (tablePropXM_same _ (_, _) (_, _) (.inr (Eq.refl false))) r
    case wildcards.wildcards => exact same_wrap (tablePropXM_same _ (_, _) (_, _) (.inr (Eq.refl false))) r
    case writeSetField.writeSetField => exact same_wrap (tablePropXM_same _ _ _ (.inl rfl)) r
    case applySetField.applySetField => exact same_wrap (tablePropXM_same _ _ _ (.inl rfl)) r
    case experimenter.experimenter m _ _ _ m' _ _ _ =>
      cases m <;> cases m' <;> try (simp [tablePropKind] at hab; done)
      · exact same_wrap (tableExperimenter_forgets _ _) r
      · exact same_wrap (tableExperimenter_forgets _ _) r
    all_goals (simp only [tablePropKind] at hab; split at hab <;> omega)
  exact ⟨key.n, key.err, key.rd, key.val⟩

example : tablePropKind (.nextTables true [1]) = tablePropKind (.nextTables false []) := rfl

/-! ## Decoders that keep a part of the receiver

C42 is false for these: a list of the receiver is left as it was, or appended to.  Each
theorem `_receiver_partial` says that nothing else depends on the receiver. -/

/-- C42.  Missing: the buckets. -/
theorem groupMod_receiver_partial : DependsOnlyOn (fun g : GroupMod => g.buckets) GroupMod.readFrom :=
  dependsOnly (by
    rintro ⟨a, b, c, d⟩ ⟨a', b', c', d'⟩ h
    dsimp only at h; subst h
    unfold GroupMod.readFrom; same)

/-- C42.  Missing: the counters of the buckets. -/
theorem groupStats_receiver_partial : DependsOnlyOn (fun g : GroupStats => g.bucketStats) GroupStats.readFrom :=
  dependsOnly (by
    rintro ⟨a, b, c, d, e, f, g⟩ ⟨a', b', c', d', e', f', g'⟩ h
    dsimp only at h; subst h
    unfold GroupStats.readFrom; same)

/-- C42.  Missing: the bands. -/
theorem meterMod_receiver_partial : DependsOnlyOn (fun m : MeterMod => m.bands) MeterMod.readFrom :=
  dependsOnly (by
    rintro ⟨a, b, c, d⟩ ⟨a', b', c', d'⟩ h
    dsimp only at h; subst h
    unfold MeterMod.readFrom; same)

/-- C42.  Missing: the bands. -/
theorem meterConfig_receiver_partial : DependsOnlyOn (fun m : MeterConfig => m.bands) MeterConfig.readFrom :=
  dependsOnly (by
    rintro ⟨a, b, c⟩ ⟨a', b', c'⟩ h
    dsimp only at h; subst h
    unfold MeterConfig.readFrom; same)

/-- C42.  Missing: the properties. -/
theorem packetQueue_receiver_partial : DependsOnlyOn (fun q : PacketQueue => q.properties) PacketQueue.readFrom :=
  dependsOnly (by
    rintro ⟨a, b, c⟩ ⟨a', b', c'⟩ h
    dsimp only at h; subst h
    unfold PacketQueue.readFrom; same)

/-- C42.  Missing: the queues. -/
theorem queueGetConfigReply_receiver_partial :
    DependsOnlyOn (fun q : QueueGetConfigReply => q.queues) QueueGetConfigReply.readFrom :=
  dependsOnly (by
    rintro ⟨a, b⟩ ⟨a', b'⟩ h
    dsimp only at h; subst h
    unfold QueueGetConfigReply.readFrom; same)

/-- C42.  Missing: the hardware address. -/
theorem portMod_receiver_partial : DependsOnlyOn (fun p : PortMod => p.hwAddr.length) PortMod.readFrom :=
  dependsOnly (by
    rintro ⟨a, b, c, d, e⟩ ⟨a', b', c', d', e'⟩ h
    dsimp only at h
    unfold PortMod.readFrom
    refine SameS.numCons fun v => SameS.skipCons (SameS.dynBinCons h fun v => ?_)
    same)

/-- C42.  Missing: the list of the receiver.  The decoded instructions are appended. -/
theorem instructions_receiver_partial (s : List Instruction) (r : Rd) :
    (Instructions.readFrom s r).n = (Instructions.readFrom [] r).n ∧
    (Instructions.readFrom s r).err = (Instructions.readFrom [] r).err ∧
    (Instructions.readFrom s r).rd = (Instructions.readFrom [] r).rd ∧
    (Instructions.readFrom s r).val = s ++ (Instructions.readFrom [] r).val := by
  simp only [Instructions.readFrom, Enc.scanFrom]
  rw [scanLoop_acc]
  exact ⟨rfl, rfl, rfl, rfl⟩

/-- C42.  Missing: the elements of the receiver, which are kept; what is decoded is lost. -/
theorem hello_receiver_partial (s : Hello) (r : Rd) :
    (Hello.readFrom s r).n = (Hello.readFrom ⟨[]⟩ r).n ∧ (Hello.readFrom s r).err = (Hello.readFrom ⟨[]⟩ r).err ∧
    (Hello.readFrom s r).rd = (Hello.readFrom ⟨[]⟩ r).rd ∧
    ((Hello.readFrom s r).err = none → (Hello.readFrom s r).val = s) := by
  have h : SameS Hello.readFrom s ⟨[]⟩ (fun a _ => a = s) := by
    unfold Hello.readFrom
    refine SameS.last (SameS.sub (SameS.subVal SameS.scanFrom) ?_)
    rintro a b ⟨rfl, rfl⟩
    rfl
  obtain ⟨h1, h2, h3, h4⟩ := h r
  exact ⟨h1, h2, h3, h4⟩

/-- C42 is violated: two receivers, one successful decoding, two values. -/
theorem groupMod_receiver_false : ¬ IndependentOfReceiver GroupMod.readFrom := by
  intro h
  have := (h ⟨0, 0, 0, []⟩ ⟨0, 0, 0, [⟨1, 2, 3, []⟩]⟩ (.src (zeros 8) [] .eof false)).2.2.2
  revert this; decide +kernel

/-- C42 is violated. -/
theorem groupStats_receiver_false : ¬ IndependentOfReceiver GroupStats.readFrom := by
  intro h
  have := (h ⟨0, 0, 0, 0, 0, 0, []⟩ ⟨0, 0, 0, 0, 0, 0, [⟨1, 2⟩]⟩ (.src (0 :: 40 :: zeros 38) [] .eof false)).2.2.2
  revert this; decide +kernel

/-- C42 is violated. -/
theorem meterMod_receiver_false : ¬ IndependentOfReceiver MeterMod.readFrom := by
  intro h
  have := (h ⟨0, 0, 0, []⟩ ⟨0, 0, 0, [.drop 1 2]⟩ (.src (zeros 8) [] .eof false)).2.2.2
  revert this; decide +kernel

/-- C42 is violated. -/
theorem meterConfig_receiver_false : ¬ IndependentOfReceiver MeterConfig.readFrom := by
  intro h
  have := (h ⟨0, 0, []⟩ ⟨0, 0, [.drop 1 2]⟩ (.src (0 :: 8 :: zeros 6) [] .eof false)).2.2.2
  revert this; decide +kernel

/-- C42 is violated. -/
theorem packetQueue_receiver_false : ¬ IndependentOfReceiver PacketQueue.readFrom := by
  intro h
  have := (h ⟨0, 0, []⟩ ⟨0, 0, [.minRate 1]⟩ (.src (zeros 8 ++ [0, 16] ++ zeros 6) [] .eof false)).2.2.2
  revert this; decide +kernel

/-- C42 is violated. -/
theorem queueGetConfigReply_receiver_false : ¬ IndependentOfReceiver QueueGetConfigReply.readFrom := by
  intro h
  have := (h ⟨0, []⟩ ⟨0, [⟨1, 2, []⟩]⟩ (.src (zeros 8) [] .eof false)).2.2.2
  revert this; decide +kernel

/-- C42 is violated: the decoder of a port modification reads as many bytes as the hardware
address of the receiver has, and succeeds with too few bytes when there is none. -/
theorem portMod_receiver_false : ¬ IndependentOfReceiver PortMod.readFrom := by
  intro h
  have := (h ⟨0, [], 0, 0, 0⟩ ⟨0, zeros 6, 0, 0, 0⟩ (.src (zeros 32) [] .eof false)).1
  revert this; decide +kernel

/-- C42 is violated: the instructions are appended. -/
theorem instructions_receiver_false : ¬ IndependentOfReceiver Instructions.readFrom := by
  intro h
  have := (h [] [.meter 1] (.src [] [] .eof false)).2.2.2
  revert this; decide +kernel

/-- C42 is violated: the elements of the receiver are kept. -/
theorem hello_receiver_false : ¬ IndependentOfReceiver Hello.readFrom := by
  intro h
  have := (h ⟨[]⟩ ⟨[.versionBitmap [1]]⟩ (.src [] [] .eof false)).2.2.2
  revert this; decide +kernel

/-- C42 is violated: the error of the header is dropped.  With no bytes at all, the decoder of
meter statistics succeeds and every field keeps its old value. -/
theorem meterStats_receiver_false (s : MeterStats) :
    (MeterStats.readFrom s (.src [] [] .eof false)).err = none ∧
    (MeterStats.readFrom s (.src [] [] .eof false)).val = s := by
  obtain ⟨a, b, c, d, e, f, g⟩ := s
  exact ⟨rfl, rfl⟩

/-- C42 is violated: the error of the header is dropped.  With no bytes at all, the decoder of
a group description succeeds and every field keeps its old value. -/
theorem groupDescStats_receiver_false (s : GroupDescStats) :
    (GroupDescStats.readFrom s (.src [] [] .eof false)).err = none ∧
    (GroupDescStats.readFrom s (.src [] [] .eof false)).val = s := by
  obtain ⟨a, b, c⟩ := s
  exact ⟨rfl, rfl⟩

/-- C42.  The decoder of a message (header and body, without interpreting the body). -/
theorem request_receiver (s t : Request) (r : Rd) :
    (Request.readFrom s r).n = (Request.readFrom t r).n ∧ (Request.readFrom s r).err = (Request.readFrom t r).err ∧
    (Request.readFrom s r).rd = (Request.readFrom t r).rd ∧
    ((Request.readFrom s r).err = none → (Request.readFrom s r).val = (Request.readFrom t r).val) := by
  obtain ⟨h1, h2, h3, h4⟩ := header_receiver s.header t.header r
  unfold Request.readFrom
  rcases ho : Header.readFrom s.header r with ⟨v, n, e, r1⟩
  rcases hp : Header.readFrom t.header r with ⟨v', n', e', r1'⟩
  rw [ho, hp] at h1 h2 h3 h4
  simp only at h1 h2 h3 h4
  subst h1 h2 h3
  cases e with
  | some e => exact ⟨rfl, rfl, rfl, fun h => by cases h⟩
  | none =>
    have := h4 rfl
    subst this
    dsimp only
    split
    · exact ⟨rfl, rfl, rfl, fun h => by cases h⟩
    · rcases hb : bodyLoop (v.len - headerlen + 1) (v.len - headerlen) r1 with ⟨o, e, r2⟩
      cases e with
      | some e => exact ⟨rfl, rfl, rfl, fun h => by cases h⟩
      | none => exact ⟨rfl, rfl, rfl, fun _ => rfl⟩

end Verif.Props
