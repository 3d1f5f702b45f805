import Verif.Dest
import Verif.Request

/-!
# Messages written to destinations that fail
-/

namespace Verif.Props

open Verif

private theorem actionsBuf_whole (as : List Action) (f : Bytes → Wr) (hf : ∀ b, (f b).Whole) :
    (match Actions.buf as with
      | (b, some e) => (⟨[], b.length, some e⟩ : Wr)
      | (b, none) => f b).Whole := by
  unfold Actions.buf
  dsimp only
  cases (Enc.writeSliceTo (as.map Action.writeTo)).err with
  | some e => exact Wr.Whole.fail e
  | none => exact hf _

/-- Closes `Wr.Whole` goals of methods that end with one call of `encoding.WriteTo`. -/
macro "whole" : tactic => `(tactic|
  (repeat' (first
    | exact Enc.writeTo_whole _
    | exact Wr.Whole.fail _
    | exact actionsBuf_whole _ _ (fun _ => Enc.writeTo_whole _)
    | split
    | (dsimp only; split))))


theorem xm_destination (x : XM) :
    Reaches x.writeTo (fun _ w => x.writeToDst w) ∧ OneWrite x.writeTo (fun _ w => x.writeToDst w) :=
  ⟨Wr.Whole.reaches (by unfold XM.writeTo; whole), Wr.toDst_oneWrite _⟩

theorem match_destination (x : Match) :
    Reaches x.writeTo (fun _ w => x.writeToDst w) ∧ OneWrite x.writeTo (fun _ w => x.writeToDst w) :=
  ⟨Wr.Whole.reaches (by unfold Match.writeTo; whole), Wr.toDst_oneWrite _⟩

theorem action_destination (x : Action) :
    Reaches x.writeTo (fun _ w => x.writeToDst w) ∧ OneWrite x.writeTo (fun _ w => x.writeToDst w) :=
  ⟨Wr.Whole.reaches (by unfold Action.writeTo; whole), Wr.toDst_oneWrite _⟩

theorem actions_destination (x : List Action) :
    Reaches (Actions.writeTo x) (fun _ w => Actions.writeToDst w x) ∧ OneWrite (Actions.writeTo x) (fun _ w => Actions.writeToDst w x) :=
  ⟨Wr.Whole.reaches (by unfold Actions.writeTo; whole), Wr.toDst_oneWrite _⟩

theorem instruction_destination (x : Instruction) :
    Reaches x.writeTo (fun _ w => x.writeToDst w) ∧ OneWrite x.writeTo (fun _ w => x.writeToDst w) :=
  ⟨Wr.Whole.reaches (by unfold Instruction.writeTo writeInstructionActions; whole), Wr.toDst_oneWrite _⟩

theorem instructions_destination (x : List Instruction) :
    Reaches (Instructions.writeTo x) (fun _ w => Instructions.writeToDst w x) ∧ OneWrite (Instructions.writeTo x) (fun _ w => Instructions.writeToDst w x) :=
  ⟨Wr.Whole.reaches (by unfold Instructions.writeTo; whole), Wr.toDst_oneWrite _⟩

theorem flowMod_destination (x : FlowMod) :
    Reaches x.writeTo (fun _ w => x.writeToDst w) ∧ OneWrite x.writeTo (fun _ w => x.writeToDst w) :=
  ⟨Wr.Whole.reaches (by unfold FlowMod.writeTo; whole), Wr.toDst_oneWrite _⟩

theorem flowRemoved_destination (x : FlowRemoved) :
    Reaches x.writeTo (fun _ w => x.writeToDst w) ∧ OneWrite x.writeTo (fun _ w => x.writeToDst w) :=
  ⟨Wr.Whole.reaches (by unfold FlowRemoved.writeTo; whole), Wr.toDst_oneWrite _⟩

theorem flowStatsRequest_destination (x : FlowStatsRequest) :
    Reaches x.writeTo (fun _ w => x.writeToDst w) ∧ OneWrite x.writeTo (fun _ w => x.writeToDst w) :=
  ⟨Wr.Whole.reaches (by unfold FlowStatsRequest.writeTo; whole), Wr.toDst_oneWrite _⟩

theorem aggregateStatsRequest_destination (x : AggregateStatsRequest) :
    Reaches x.writeTo (fun _ w => x.writeToDst w) ∧ OneWrite x.writeTo (fun _ w => x.writeToDst w) :=
  ⟨Wr.Whole.reaches (by unfold AggregateStatsRequest.writeTo; whole), Wr.toDst_oneWrite _⟩

theorem flowStats_destination (x : FlowStats) :
    Reaches x.writeTo (fun _ w => x.writeToDst w) ∧ OneWrite x.writeTo (fun _ w => x.writeToDst w) :=
  ⟨Wr.Whole.reaches (by unfold FlowStats.writeTo; whole), Wr.toDst_oneWrite _⟩

theorem packetIn_destination (x : PacketIn) :
    Reaches x.writeTo (fun _ w => x.writeToDst w) ∧ OneWrite x.writeTo (fun _ w => x.writeToDst w) :=
  ⟨Wr.Whole.reaches (by unfold PacketIn.writeTo; whole), Wr.toDst_oneWrite _⟩

theorem packetOut_destination (x : PacketOut) :
    Reaches x.writeTo (fun _ w => x.writeToDst w) ∧ OneWrite x.writeTo (fun _ w => x.writeToDst w) :=
  ⟨Wr.Whole.reaches (by unfold PacketOut.writeTo; whole), Wr.toDst_oneWrite _⟩

theorem port_destination (x : Port) :
    Reaches x.writeTo (fun _ w => x.writeToDst w) ∧ OneWrite x.writeTo (fun _ w => x.writeToDst w) :=
  ⟨Wr.Whole.reaches (by unfold Port.writeTo; whole), Wr.toDst_oneWrite _⟩

theorem portMod_destination (x : PortMod) :
    Reaches x.writeTo (fun _ w => x.writeToDst w) ∧ OneWrite x.writeTo (fun _ w => x.writeToDst w) :=
  ⟨Wr.Whole.reaches (by unfold PortMod.writeTo; whole), Wr.toDst_oneWrite _⟩

theorem portStatus_destination (x : PortStatus) :
    Reaches x.writeTo (fun _ w => x.writeToDst w) ∧ OneWrite x.writeTo (fun _ w => x.writeToDst w) :=
  ⟨Wr.Whole.reaches (by unfold PortStatus.writeTo; whole), Wr.toDst_oneWrite _⟩

theorem bucket_destination (x : Bucket) :
    Reaches x.writeTo (fun _ w => x.writeToDst w) ∧ OneWrite x.writeTo (fun _ w => x.writeToDst w) :=
  ⟨Wr.Whole.reaches (by unfold Bucket.writeTo; whole), Wr.toDst_oneWrite _⟩

theorem groupStats_destination (x : GroupStats) :
    Reaches x.writeTo (fun _ w => x.writeToDst w) ∧ OneWrite x.writeTo (fun _ w => x.writeToDst w) :=
  ⟨Wr.Whole.reaches (by unfold GroupStats.writeTo; whole), Wr.toDst_oneWrite _⟩

theorem groupDescStats_destination (x : GroupDescStats) :
    Reaches x.writeTo (fun _ w => x.writeToDst w) ∧ OneWrite x.writeTo (fun _ w => x.writeToDst w) :=
  ⟨Wr.Whole.reaches (by unfold GroupDescStats.writeTo; whole), Wr.toDst_oneWrite _⟩

theorem meterBand_destination (x : MeterBand) :
    Reaches x.writeTo (fun _ w => x.writeToDst w) ∧ OneWrite x.writeTo (fun _ w => x.writeToDst w) :=
  ⟨Wr.Whole.reaches (by unfold MeterBand.writeTo; whole), Wr.toDst_oneWrite _⟩

theorem meterMod_destination (x : MeterMod) :
    Reaches x.writeTo (fun _ w => x.writeToDst w) ∧ OneWrite x.writeTo (fun _ w => x.writeToDst w) :=
  ⟨Wr.Whole.reaches (by unfold MeterMod.writeTo; whole), Wr.toDst_oneWrite _⟩

theorem meterConfig_destination (x : MeterConfig) :
    Reaches x.writeTo (fun _ w => x.writeToDst w) ∧ OneWrite x.writeTo (fun _ w => x.writeToDst w) :=
  ⟨Wr.Whole.reaches (by unfold MeterConfig.writeTo; whole), Wr.toDst_oneWrite _⟩

theorem meterStats_destination (x : MeterStats) :
    Reaches x.writeTo (fun _ w => x.writeToDst w) ∧ OneWrite x.writeTo (fun _ w => x.writeToDst w) :=
  ⟨Wr.Whole.reaches (by unfold MeterStats.writeTo; whole), Wr.toDst_oneWrite _⟩

theorem queueProp_destination (x : QueueProp) :
    Reaches x.writeTo (fun _ w => x.writeToDst w) ∧ OneWrite x.writeTo (fun _ w => x.writeToDst w) :=
  ⟨Wr.Whole.reaches (by unfold QueueProp.writeTo; whole), Wr.toDst_oneWrite _⟩

theorem queueProps_destination (x : List QueueProp) :
    Reaches (QueueProps.writeTo x) (fun _ w => QueueProps.writeToDst w x) ∧ OneWrite (QueueProps.writeTo x) (fun _ w => QueueProps.writeToDst w x) :=
  ⟨Wr.Whole.reaches (by unfold QueueProps.writeTo; whole), Wr.toDst_oneWrite _⟩

theorem packetQueue_destination (x : PacketQueue) :
    Reaches x.writeTo (fun _ w => x.writeToDst w) ∧ OneWrite x.writeTo (fun _ w => x.writeToDst w) :=
  ⟨Wr.Whole.reaches (by unfold PacketQueue.writeTo; whole), Wr.toDst_oneWrite _⟩

theorem queueGetConfigReply_destination (x : QueueGetConfigReply) :
    Reaches x.writeTo (fun _ w => x.writeToDst w) ∧ OneWrite x.writeTo (fun _ w => x.writeToDst w) :=
  ⟨Wr.Whole.reaches (by unfold QueueGetConfigReply.writeTo; whole), Wr.toDst_oneWrite _⟩

theorem helloElem_destination (x : HelloElem) :
    Reaches x.writeTo (fun _ w => x.writeToDst w) ∧ OneWrite x.writeTo (fun _ w => x.writeToDst w) :=
  ⟨Wr.Whole.reaches (by unfold HelloElem.writeTo; whole), Wr.toDst_oneWrite _⟩

theorem helloElems_destination (x : List HelloElem) :
    Reaches (HelloElems.writeTo x) (fun _ w => HelloElems.writeToDst w x) ∧ OneWrite (HelloElems.writeTo x) (fun _ w => HelloElems.writeToDst w x) :=
  ⟨Wr.Whole.reaches (by unfold HelloElems.writeTo; whole), Wr.toDst_oneWrite _⟩

theorem hello_destination (x : Hello) :
    Reaches x.writeTo (fun _ w => x.writeToDst w) ∧ OneWrite x.writeTo (fun _ w => x.writeToDst w) :=
  ⟨Wr.Whole.reaches (by unfold Hello.writeTo; whole), Wr.toDst_oneWrite _⟩

theorem tableFeatures_destination (x : TableFeatures) :
    Reaches x.writeTo (fun _ w => x.writeToDst w) ∧ OneWrite x.writeTo (fun _ w => x.writeToDst w) :=
  ⟨Wr.Whole.reaches (by unfold TableFeatures.writeTo; whole), Wr.toDst_oneWrite _⟩

theorem echoRequest_destination (x : EchoRequest) :
    Reaches x.writeTo (fun _ w => x.writeToDst w) ∧ OneWrite x.writeTo (fun _ w => x.writeToDst w) :=
  ⟨Wr.Whole.reaches (by unfold EchoRequest.writeTo; whole), Wr.toDst_oneWrite _⟩

theorem echoReply_destination (x : EchoReply) :
    Reaches x.writeTo (fun _ w => x.writeToDst w) ∧ OneWrite x.writeTo (fun _ w => x.writeToDst w) :=
  ⟨Wr.Whole.reaches (by unfold EchoReply.writeTo; whole), Wr.toDst_oneWrite _⟩

theorem ofpError_destination (x : OfpError) :
    Reaches x.writeTo (fun _ w => x.writeToDst w) ∧ OneWrite x.writeTo (fun _ w => x.writeToDst w) :=
  ⟨Wr.Whole.reaches (by unfold OfpError.writeTo; whole), Wr.toDst_oneWrite _⟩

theorem errorExperimenter_destination (x : ErrorExperimenter) :
    Reaches x.writeTo (fun _ w => x.writeToDst w) ∧ OneWrite x.writeTo (fun _ w => x.writeToDst w) :=
  ⟨Wr.Whole.reaches (by unfold ErrorExperimenter.writeTo; whole), Wr.toDst_oneWrite _⟩

theorem description_destination (x : Description) :
    Reaches x.writeTo (fun _ w => x.writeToDst w) ∧ OneWrite x.writeTo (fun _ w => x.writeToDst w) :=
  ⟨Wr.Whole.reaches (by unfold Description.writeTo; whole), Wr.toDst_oneWrite _⟩

theorem multipartRequest_destination (x : MultipartRequest) :
    Reaches x.writeTo (fun _ w => x.writeToDst w) ∧ OneWrite x.writeTo (fun _ w => x.writeToDst w) :=
  ⟨Wr.Whole.reaches (by unfold MultipartRequest.writeTo; whole), Wr.toDst_oneWrite _⟩

theorem aggregateStats_destination (x : AggregateStats) :
    Reaches x.writeTo (fun _ w => x.writeToDst w) ∧ OneWrite x.writeTo (fun _ w => x.writeToDst w) :=
  ⟨Wr.Whole.reaches (by unfold AggregateStats.writeTo; whole), Wr.toDst_oneWrite _⟩

theorem switchFeatures_destination (x : SwitchFeatures) :
    Reaches x.writeTo (fun _ w => x.writeToDst w) ∧ OneWrite x.writeTo (fun _ w => x.writeToDst w) :=
  ⟨Wr.Whole.reaches (by unfold SwitchFeatures.writeTo; whole), Wr.toDst_oneWrite _⟩

theorem switchConfig_destination (x : SwitchConfig) :
    Reaches x.writeTo (fun _ w => x.writeToDst w) ∧ OneWrite x.writeTo (fun _ w => x.writeToDst w) :=
  ⟨Wr.Whole.reaches (by unfold SwitchConfig.writeTo; whole), Wr.toDst_oneWrite _⟩

theorem multipartReply_destination (x : MultipartReply) :
    Reaches x.writeTo (fun _ w => x.writeToDst w) ∧ OneWrite x.writeTo (fun _ w => x.writeToDst w) :=
  ⟨Wr.Whole.reaches (by unfold MultipartReply.writeTo; whole), Wr.toDst_oneWrite _⟩

theorem experimenterMultipartHeader_destination (x : ExperimenterMultipartHeader) :
    Reaches x.writeTo (fun _ w => x.writeToDst w) ∧ OneWrite x.writeTo (fun _ w => x.writeToDst w) :=
  ⟨Wr.Whole.reaches (by unfold ExperimenterMultipartHeader.writeTo; whole), Wr.toDst_oneWrite _⟩

theorem experimenter_destination (x : Experimenter) :
    Reaches x.writeTo (fun _ w => x.writeToDst w) ∧ OneWrite x.writeTo (fun _ w => x.writeToDst w) :=
  ⟨Wr.Whole.reaches (by unfold Experimenter.writeTo; whole), Wr.toDst_oneWrite _⟩

theorem roleRequest_destination (x : RoleRequest) :
    Reaches x.writeTo (fun _ w => x.writeToDst w) ∧ OneWrite x.writeTo (fun _ w => x.writeToDst w) :=
  ⟨Wr.Whole.reaches (by unfold RoleRequest.writeTo; whole), Wr.toDst_oneWrite _⟩

theorem asyncConfig_destination (x : AsyncConfig) :
    Reaches x.writeTo (fun _ w => x.writeToDst w) ∧ OneWrite x.writeTo (fun _ w => x.writeToDst w) :=
  ⟨Wr.Whole.reaches (by unfold AsyncConfig.writeTo; whole), Wr.toDst_oneWrite _⟩

theorem tableMod_destination (x : TableMod) :
    Reaches x.writeTo (fun _ w => x.writeToDst w) ∧ OneWrite x.writeTo (fun _ w => x.writeToDst w) :=
  ⟨Wr.Whole.reaches (by unfold TableMod.writeTo; whole), Wr.toDst_oneWrite _⟩

theorem tableStats_destination (x : TableStats) :
    Reaches x.writeTo (fun _ w => x.writeToDst w) ∧ OneWrite x.writeTo (fun _ w => x.writeToDst w) :=
  ⟨Wr.Whole.reaches (by unfold TableStats.writeTo; whole), Wr.toDst_oneWrite _⟩

theorem portStatsRequest_destination (x : PortStatsRequest) :
    Reaches x.writeTo (fun _ w => x.writeToDst w) ∧ OneWrite x.writeTo (fun _ w => x.writeToDst w) :=
  ⟨Wr.Whole.reaches (by unfold PortStatsRequest.writeTo; whole), Wr.toDst_oneWrite _⟩

theorem portStats_destination (x : PortStats) :
    Reaches x.writeTo (fun _ w => x.writeToDst w) ∧ OneWrite x.writeTo (fun _ w => x.writeToDst w) :=
  ⟨Wr.Whole.reaches (by unfold PortStats.writeTo; whole), Wr.toDst_oneWrite _⟩

theorem meterConfigRequest_destination (x : MeterConfigRequest) :
    Reaches x.writeTo (fun _ w => x.writeToDst w) ∧ OneWrite x.writeTo (fun _ w => x.writeToDst w) :=
  ⟨Wr.Whole.reaches (by unfold MeterConfigRequest.writeTo; whole), Wr.toDst_oneWrite _⟩

theorem meterFeatures_destination (x : MeterFeatures) :
    Reaches x.writeTo (fun _ w => x.writeToDst w) ∧ OneWrite x.writeTo (fun _ w => x.writeToDst w) :=
  ⟨Wr.Whole.reaches (by unfold MeterFeatures.writeTo; whole), Wr.toDst_oneWrite _⟩

theorem meterBandStats_destination (x : MeterBandStats) :
    Reaches x.writeTo (fun _ w => x.writeToDst w) ∧ OneWrite x.writeTo (fun _ w => x.writeToDst w) :=
  ⟨Wr.Whole.reaches (by unfold MeterBandStats.writeTo; whole), Wr.toDst_oneWrite _⟩

theorem meterStatsRequest_destination (x : MeterStatsRequest) :
    Reaches x.writeTo (fun _ w => x.writeToDst w) ∧ OneWrite x.writeTo (fun _ w => x.writeToDst w) :=
  ⟨Wr.Whole.reaches (by unfold MeterStatsRequest.writeTo; whole), Wr.toDst_oneWrite _⟩

theorem groupStatsRequest_destination (x : GroupStatsRequest) :
    Reaches x.writeTo (fun _ w => x.writeToDst w) ∧ OneWrite x.writeTo (fun _ w => x.writeToDst w) :=
  ⟨Wr.Whole.reaches (by unfold GroupStatsRequest.writeTo; whole), Wr.toDst_oneWrite _⟩

theorem bucketCounter_destination (x : BucketCounter) :
    Reaches x.writeTo (fun _ w => x.writeToDst w) ∧ OneWrite x.writeTo (fun _ w => x.writeToDst w) :=
  ⟨Wr.Whole.reaches (by unfold BucketCounter.writeTo; whole), Wr.toDst_oneWrite _⟩

theorem groupFeatures_destination (x : GroupFeatures) :
    Reaches x.writeTo (fun _ w => x.writeToDst w) ∧ OneWrite x.writeTo (fun _ w => x.writeToDst w) :=
  ⟨Wr.Whole.reaches (by unfold GroupFeatures.writeTo; whole), Wr.toDst_oneWrite _⟩

theorem queueStatsRequest_destination (x : QueueStatsRequest) :
    Reaches x.writeTo (fun _ w => x.writeToDst w) ∧ OneWrite x.writeTo (fun _ w => x.writeToDst w) :=
  ⟨Wr.Whole.reaches (by unfold QueueStatsRequest.writeTo; whole), Wr.toDst_oneWrite _⟩

theorem queueStats_destination (x : QueueStats) :
    Reaches x.writeTo (fun _ w => x.writeToDst w) ∧ OneWrite x.writeTo (fun _ w => x.writeToDst w) :=
  ⟨Wr.Whole.reaches (by unfold QueueStats.writeTo; whole), Wr.toDst_oneWrite _⟩

theorem queueGetConfigRequest_destination (x : QueueGetConfigRequest) :
    Reaches x.writeTo (fun _ w => x.writeToDst w) ∧ OneWrite x.writeTo (fun _ w => x.writeToDst w) :=
  ⟨Wr.Whole.reaches (by unfold QueueGetConfigRequest.writeTo; whole), Wr.toDst_oneWrite _⟩


theorem meterBands_destination_partial (x : List MeterBand) :
    Reaches (MeterBands.writeTo x) (fun _ w => MeterBands.writeToDst w x) :=
  Reaches.seq MeterBand.writeTo (fun b _ w => b.writeToDst w) x
    (fun b _ => (meterBand_destination b).1)

theorem groupMod_destination_partial (x : GroupMod) :
    Reaches x.writeTo (fun _ w => x.writeToDst w) := by
  have h := Reaches.pair
    (Enc.writeToDst_reaches [.bin (be x.command), .bin (be x.type), .bin (zeros 1), .bin (be x.group)])
    (Reaches.seq _ (fun b _ w => b.writeToDst w) x.buckets (fun b _ => (bucket_destination b).1))
  have e : x.writeTo = Enc.writeSliceTo [
      Enc.writeTo [.bin (be x.command), .bin (be x.type), .bin (zeros 1), .bin (be x.group)],
      Enc.writeSliceTo (x.buckets.map Bucket.writeTo)] := by
    unfold GroupMod.writeTo
    simp only [Enc.writeSliceTo]
    split
    · next h => simp [Enc.writeTo, Enc.gather] at h
    · next h =>
      simp only [h]
      cases hb : (Enc.writeSliceTo (x.buckets.map Bucket.writeTo)) with
      | mk o n e => cases e <;> simp
  rw [e]; exact h

theorem writeTablePropXM_reaches (t : UInt16) (xs : List XM) :
    Reaches (writeTablePropXM t xs) (fun _ w => writeTablePropXMDst w t xs) :=
  Reaches.triple (Enc.writeToDst_reaches [tablePropHeader t (4 + 4 * xs.length)])
    (Reaches.seq XM.writeTo (fun x _ w => x.writeToDst w) xs (fun x _ => (xm_destination x).1))
    (Enc.writeToDst_reaches [.bin (zeros (padLen (4 + 4 * xs.length)))])

theorem tableProp_destination_partial (x : TableProp) :
    Reaches x.writeTo (fun _ w => x.writeToDst w) := by
  cases x with
  | instructions m is =>
    exact Reaches.pair
      (Enc.writeToDst_reaches [tablePropHeader (TableProp.instructions m is).type (4 + 4 * is.length),
        .bin (is.flatMap (fun i => be i ++ be (4 : UInt16)))])
      (Enc.writeToDst_reaches [.bin (zeros (padLen (UInt16.ofNat (4 + 4 * is.length)).toNat))])
  | nextTables m ts => exact Wr.Whole.reaches (by unfold TableProp.writeTo; whole)
  | writeActions m as =>
    exact Wr.Whole.reaches (by unfold TableProp.writeTo writeTablePropActions; whole)
  | applyActions m as =>
    exact Wr.Whole.reaches (by unfold TableProp.writeTo writeTablePropActions; whole)
  | «matches» xs => exact writeTablePropXM_reaches _ xs
  | wildcards xs => exact writeTablePropXM_reaches _ xs
  | writeSetField m xs => exact writeTablePropXM_reaches _ xs
  | applySetField m xs => exact writeTablePropXM_reaches _ xs
  | experimenter m e t d => exact Wr.Whole.reaches (by unfold TableProp.writeTo; whole)

theorem header_destination (x : Header) :
    Reaches x.writeTo (fun _ w => x.writeToDst w) ∧ OneWrite x.writeTo (fun _ w => x.writeToDst w) := by
  have e : (fun (ω : Type) (w : Dst ω) => x.writeToDst w) =
      (fun (ω : Type) (w : Dst ω) => x.writeTo.toDst w) := by
    funext ω w; exact Enc.writeToDst_eq w x.elems
  rw [e]
  exact ⟨Wr.Whole.reaches (Enc.writeTo_whole _), Wr.toDst_oneWrite _⟩

/-- Requests, with any body: nothing at all is written and there is an error, which does not
depend on the destination, or there is one `Write` of one message. -/
theorem request_destination_partial (q : Request) :
    (∃ n e, ∀ (ω : Type) (w : Dst ω) (s : ω),
      (q.writeTo w s).n = n ∧ (q.writeTo w s).err = some e ∧ (q.writeTo w s).dst = s) ∨
    ∃ msg : Bytes, msg ≠ [] ∧
      Reaches ⟨msg, msg.length, none⟩
        (fun _ w s => ((q.writeTo w s).n, (q.writeTo w s).err, (q.writeTo w s).dst)) ∧
      OneWrite ⟨msg, msg.length, none⟩
        (fun _ w s => ((q.writeTo w s).n, (q.writeTo w s).err, (q.writeTo w s).dst)) := by
  rcases q.writeTo_any with ⟨n, e, q', h⟩ | ⟨msg, q', hne, h⟩
  · exact .inl ⟨n, e, fun ω w s => by rw [h]; exact ⟨rfl, rfl, rfl⟩⟩
  · refine .inr ⟨msg, hne, ?_⟩
    have e : (fun (ω : Type) (w : Dst ω) (s : ω) =>
        ((q.writeTo w s).n, (q.writeTo w s).err, (q.writeTo w s).dst)) =
        (fun (ω : Type) (w : Dst ω) => (Wr.mk msg msg.length none).toDst w) := by
      funext ω w s; rw [h]; rfl
    rw [e]
    exact ⟨Wr.Whole.reaches (by simp [Wr.Whole]), Wr.toDst_oneWrite _⟩

/-! ## What is not true of them -/

/-- A request whose body fails reports the bytes of the body that were read, though none of them
was written. -/
theorem request_count_false : ¬ ∀ (q : Request) (ω : Type) (w : Dst ω) (got : ω → Bytes) (s : ω),
    w.Honest got → (got (q.writeTo w s).dst).length = (got s).length + (q.writeTo w s).n := by
  intro h
  have := h { Request.zero with body := .reader (.src [5, 6] [0] (.io 1) false) } Bytes
    (fun s b => (b.length, none, s ++ b)) id [] (by intro s b; simp)
  revert this; decide

/-- The header of a group modification and its buckets are written by themselves: the message
reaches the destination in pieces. -/
theorem groupMod_oneWrite_false : ¬ ∀ x : GroupMod, OneWrite x.writeTo (fun _ w => x.writeToDst w) := by
  intro h
  have := h ⟨0, 0, 7, [⟨1, 2, 3, []⟩]⟩ recorder []
  revert this; decide

theorem meterBands_oneWrite_false :
    ¬ ∀ x : List MeterBand, OneWrite (MeterBands.writeTo x) (fun _ w => MeterBands.writeToDst w x) := by
  intro h
  have := h [.drop 1 2, .drop 3 4] recorder []
  revert this; decide

theorem tableProp_oneWrite_false :
    ¬ ∀ x : TableProp, OneWrite x.writeTo (fun _ w => x.writeToDst w) := by
  intro h
  have := h (.instructions false [1, 3]) recorder []
  revert this; decide

/-! ## A destination that takes `k` bytes -/

/-- It takes `k` bytes altogether and then fails. -/
def room (k : Nat) : Dst Bytes := fun s b =>
  ((b.take (k - s.length)).length, if k - s.length < b.length then some (.io 0) else none,
    s ++ b.take (k - s.length))

theorem room_honest (k : Nat) : (room k).Honest id := by
  intro s b
  refine ⟨by simp [room, Nat.min_le_right], ?_, ?_⟩
  · simp only [room, id, List.length_take, List.append_cancel_left_eq]
    rw [List.take_eq_take_iff]; omega
  · intro h
    simp only [room, List.length_take] at h ⊢
    rw [if_pos (by omega)]; simp

example : (EchoRequest.mk [1, 2, 3, 4]).writeToDst (room 3) [] = (3, some (.io 0), [1, 2, 3]) := by
  decide
example : (GroupMod.mk 0 0 7 [⟨1, 2, 3, []⟩]).writeToDst (room 10) [] =
    (10, some (.io 0), [0, 0, 0, 0, 0, 0, 0, 7, 0, 16]) := by decide

end Verif.Props
