import Verif.PadsAll
import Verif.Ofp.Hello
import Verif.Props.Pads

/-!
# C96: decoding in several goroutines, all message types

The table below has a row for every type of package ofp that decodes itself: what it always
stores to and what it may store to.
-/

namespace Verif.Props

open Logged

/-! ## The decoders are the ones of the other theorems -/

theorem action_logged : Action.logged.step = Action.readFrom := by
  funext a r; cases a <;> rfl

theorem actions_logged : Actions.logged.step = Actions.readFrom := by
  unfold Actions.logged Actions.readFrom
  steps
  rw [action_logged]

theorem instructionActions_logged : instructionActionsLogged.step = readInstructionActions := by
  unfold instructionActionsLogged readInstructionActions
  steps
  rw [actions_logged]

theorem instruction_logged : Instruction.logged.step = Instruction.readFrom := by
  have key : ∀ (f : List Action → Instruction) as r,
      Enc.wrap f instructionActionsLogged.step as r = Enc.wrap f readInstructionActions as r := by
    intro f as r; rw [instructionActions_logged]
  funext i r
  cases i with
  | writeActions as => exact key _ as r
  | applyActions as => exact key _ as r
  | _ => rfl

theorem instructions_logged : Instructions.logged.step = Instructions.readFrom := by
  unfold Instructions.logged Instructions.readFrom
  steps
  rw [instruction_logged]

theorem aggregateStatsRequest_logged : AggregateStatsRequest.logged.step = AggregateStatsRequest.readFrom := by
  unfold AggregateStatsRequest.logged AggregateStatsRequest.readFrom
  steps

theorem flowStatsRequest_logged : FlowStatsRequest.logged.step = FlowStatsRequest.readFrom := by
  unfold FlowStatsRequest.logged FlowStatsRequest.readFrom
  steps

theorem groupStatsRequest_logged : GroupStatsRequest.logged.step = GroupStatsRequest.readFrom := by
  unfold GroupStatsRequest.logged GroupStatsRequest.readFrom
  steps

theorem groupStats_logged : GroupStats.logged.step = GroupStats.readFrom := by
  unfold GroupStats.logged GroupStats.readFrom
  steps

theorem meterConfigRequest_logged : MeterConfigRequest.logged.step = MeterConfigRequest.readFrom := by
  unfold MeterConfigRequest.logged MeterConfigRequest.readFrom
  steps

theorem meterStatsRequest_logged : MeterStatsRequest.logged.step = MeterStatsRequest.readFrom := by
  unfold MeterStatsRequest.logged MeterStatsRequest.readFrom
  steps

theorem meterStats_logged : MeterStats.logged.step = MeterStats.readFrom := by
  unfold MeterStats.logged MeterStats.readFrom MeterStats.headerLogged MeterStats.header
  steps

theorem multipartRequest_logged : MultipartRequest.logged.step = MultipartRequest.readFrom := by
  unfold MultipartRequest.logged MultipartRequest.readFrom
  steps

theorem portMod_logged : PortMod.logged.step = PortMod.readFrom := by
  unfold PortMod.logged PortMod.readFrom
  steps

theorem portStatsRequest_logged : PortStatsRequest.logged.step = PortStatsRequest.readFrom := by
  unfold PortStatsRequest.logged PortStatsRequest.readFrom
  steps

theorem queueGetConfigRequest_logged : QueueGetConfigRequest.logged.step = QueueGetConfigRequest.readFrom := by
  unfold QueueGetConfigRequest.logged QueueGetConfigRequest.readFrom
  steps

theorem tableFeatures_logged : TableFeatures.logged.step = TableFeatures.readFrom := by
  unfold TableFeatures.logged TableFeatures.readFrom
  steps


theorem flowMod_logged : FlowMod.logged.step = FlowMod.readFrom := by
  unfold FlowMod.logged FlowMod.readFrom
  steps
  rw [instructions_logged]

theorem flowStats_logged : FlowStats.logged.step = FlowStats.readFrom := by
  unfold FlowStats.logged FlowStats.readFrom
  steps
  rw [instructions_logged]

theorem packetOut_logged : PacketOut.logged.step = PacketOut.readFrom := by
  unfold PacketOut.logged PacketOut.readFrom
  steps
  rw [actions_logged]

theorem bucket_logged : Bucket.logged.step = Bucket.readFrom := by
  unfold Bucket.logged Bucket.readFrom
  steps
  rw [actions_logged]

theorem groupMod_logged : GroupMod.logged.step = GroupMod.readFrom := by
  unfold GroupMod.logged GroupMod.readFrom
  steps
  rw [bucket_logged]

theorem groupDescStats_logged : GroupDescStats.logged.step = GroupDescStats.readFrom := by
  unfold GroupDescStats.logged GroupDescStats.readFrom
  steps
  rw [bucket_logged]

theorem meterBand_logged : MeterBand.logged.step = MeterBand.readFrom := by
  funext b r; cases b <;> rfl

theorem meterBands_logged : MeterBands.logged.step = MeterBands.readFrom := by
  unfold MeterBands.logged MeterBands.readFrom MeterBands.scan
  steps
  rw [meterBand_logged]

theorem meterMod_logged : MeterMod.logged.step = MeterMod.readFrom := by
  unfold MeterMod.logged MeterMod.readFrom
  steps
  rw [meterBands_logged]

theorem meterConfig_logged : MeterConfig.logged.step = MeterConfig.readFrom := by
  unfold MeterConfig.logged MeterConfig.readFrom
  steps
  rw [meterBands_logged]

theorem queueProp_logged : QueueProp.logged.step = QueueProp.readFrom := by
  funext b r; cases b <;> rfl

theorem queueProps_logged : QueueProps.logged.step = QueueProps.readFrom := by
  unfold QueueProps.logged QueueProps.readFrom QueueProps.scan
  steps
  rw [queueProp_logged]

theorem packetQueue_logged : PacketQueue.logged.step = PacketQueue.readFrom := by
  unfold PacketQueue.logged PacketQueue.readFrom
  steps
  rw [queueProps_logged]

theorem queueGetConfigReply_logged : QueueGetConfigReply.logged.step = QueueGetConfigReply.readFrom := by
  unfold QueueGetConfigReply.logged QueueGetConfigReply.readFrom
  steps
  rw [packetQueue_logged]

theorem ports_logged : Ports.logged.step = Ports.readFrom := id rfl

/-! ## Single actions -/

/-- What an action stores to, by its type. -/
def actionPads : Action → List Nat
  | .output .. => [6]
  | .copyTTLOut | .copyTTLIn | .decMPLSTTL | .popVLAN | .decNwTTL => [8]
  | .setMPLSTTL _ => [3]
  | .setNwTTL _ => [4, 3]
  | .pushVLAN _ | .pushMPLS _ | .popMPLS _ | .pushPBB _ => [4, 2]
  | .setQueue _ | .group _ | .experimenter _ => [4]
  | .setField _ => []

/-- An action that is decoded stores to exactly the variables of its type. -/
theorem action_stores_exact (a : Action) (r : Rd) (h : (Action.logged.step a r).err = none) :
    Action.logged.log a r = actionPads a := by
  refine (?_ : Exact (Action.loggedOf a) (actionPads a)) a r h
  cases a with
  | output => exact Exact.wrap (Exact.cons .own <| Exact.cons .own <| Exact.cons .own <|
      Exact.cons .pad .nil)
  | setMPLSTTL => exact Exact.wrap (Exact.cons .own <| Exact.cons .own <| Exact.cons .pad .nil)
  | setNwTTL => exact Exact.wrap (Exact.cons .pad <| Exact.cons .own <| Exact.cons .pad .nil)
  | pushVLAN => exact Exact.wrap (Exact.cons .pad <| Exact.cons .own <| Exact.cons .pad .nil)
  | pushMPLS => exact Exact.wrap (Exact.cons .pad <| Exact.cons .own <| Exact.cons .pad .nil)
  | popMPLS => exact Exact.wrap (Exact.cons .pad <| Exact.cons .own <| Exact.cons .pad .nil)
  | pushPBB => exact Exact.wrap (Exact.cons .pad <| Exact.cons .own <| Exact.cons .pad .nil)
  | setQueue => exact Exact.wrap (Exact.cons .pad <| Exact.cons .own .nil)
  | group => exact Exact.wrap (Exact.cons .pad <| Exact.cons .own .nil)
  | experimenter => exact Exact.wrap (Exact.cons .pad <| Exact.cons .own .nil)
  | setField => exact Exact.wrap .own
  | _ => exact Exact.wrap (Exact.cons .pad .nil)

/-- What an instruction stores to before its actions, by its type. -/
def instructionPads : Instruction → List Nat
  | .gotoTable _ => [3]
  | .writeMetadata .. | .writeActions _ | .applyActions _ => [4]
  | .clearActions => [8]
  | .meter _ => []

/-- An instruction that is decoded stores first to the variables of its type. -/
theorem instruction_stores_first (i : Instruction) (r : Rd) (h : (Instruction.logged.step i r).err = none) :
    instructionPads i <+: Instruction.logged.log i r := by
  have ha : Begins instructionActionsLogged [4] :=
    Begins.withLocal (Begins.cons .own <| Begins.cons .pad <| .nil)
  refine Begins.dyn (g := instructionPads) (fun i => ?_) i r h
  cases i with
  | gotoTable => exact (Exact.wrap (Exact.cons .own <| Exact.cons .own <| Exact.cons .pad .nil)).begins
  | writeMetadata =>
    exact (Exact.wrap (Exact.cons .own <| Exact.cons .pad <| Exact.cons .own <| Exact.cons .own .nil)).begins
  | writeActions => exact Begins.wrap ha
  | applyActions => exact Begins.wrap ha
  | clearActions => exact (Exact.wrap (Exact.cons .pad .nil)).begins
  | meter => exact (Exact.wrap (Exact.cons .own <| Exact.cons .own .nil)).begins

/-- An instruction without actions stores to nothing else. -/
theorem instruction_stores_exact (i : Instruction) (hi : ∀ as, i ≠ .writeActions as ∧ i ≠ .applyActions as)
    (r : Rd) (h : (Instruction.logged.step i r).err = none) :
    Instruction.logged.log i r = instructionPads i := by
  have key : ∀ f : Instruction → Logged Instruction, Instruction.logged = .dyn f → Exact (f i) (instructionPads i) →
      Instruction.logged.log i r = instructionPads i := by
    intro f hf he
    rw [hf] at h ⊢
    exact he i r h
  refine key _ rfl ?_
  cases i with
  | gotoTable => exact (Exact.wrap (Exact.cons .own <| Exact.cons .own <| Exact.cons .pad .nil))
  | writeMetadata =>
    exact (Exact.wrap (Exact.cons .own <| Exact.cons .pad <| Exact.cons .own <| Exact.cons .own .nil))
  | writeActions as => exact absurd rfl (hi as).1
  | applyActions as => exact absurd rfl (hi as).2
  | clearActions => exact (Exact.wrap (Exact.cons .pad .nil))
  | meter => exact (Exact.wrap (Exact.cons .own <| Exact.cons .own .nil))

/-- What a band stores to, by its type. -/
def meterBandPads : MeterBand → List Nat
  | .drop .. => [4]
  | .dscpRemark .. => [3]
  | .experimenter .. => []

/-- A band that is decoded stores to exactly the variables of its type. -/
theorem meterBand_stores_exact (b : MeterBand) (r : Rd) (h : (MeterBand.logged.step b r).err = none) :
    MeterBand.logged.log b r = meterBandPads b := by
  refine Exact.dyn (g := meterBandPads) (fun b => ?_) b r h
  cases b with
  | drop => exact (Exact.wrap (Exact.cons .own <| Exact.cons .own <| Exact.cons .own <| Exact.cons .pad .nil))
  | dscpRemark => exact (Exact.wrap (Exact.cons .own <| Exact.cons .own <| Exact.cons .own <| Exact.cons .own <|
      Exact.cons .pad .nil))
  | experimenter => exact (Exact.wrap (Exact.cons .own <| Exact.cons .own <| Exact.cons .own <| Exact.cons .own .nil))

/-- What a property of a queue stores to, by its type. -/
def queuePropPads : QueueProp → List Nat
  | .minRate _ | .maxRate _ => [8, 6]
  | .experimenter .. => [4, 4]

/-- A property of a queue that is decoded stores to exactly the variables of its type. -/
theorem queueProp_stores_exact (q : QueueProp) (r : Rd) (h : (QueueProp.logged.step q r).err = none) :
    QueueProp.logged.log q r = queuePropPads q := by
  have hr : Exact QueueProp.rateLogged [8, 6] := Exact.cons .pad <| Exact.cons .own <| Exact.cons .pad .nil
  refine Exact.dyn (g := queuePropPads) (fun q => ?_) q r h
  cases q with
  | minRate => exact (Exact.wrap hr)
  | maxRate => exact (Exact.wrap hr)
  | experimenter => exact (Exact.wrap (Exact.withLocal (Exact.cons .own <| Exact.cons .pad <| Exact.cons .own <|
      Exact.cons .pad <| Exact.cons .own .nil)))

/-- Buckets, queues and flow statistics store first to the variables of their fixed part. -/
theorem elements_store_first : Begins Bucket.logged [4] ∧ Begins PacketQueue.logged [6] ∧
    Begins FlowStats.logged [1, 4] ∧ Begins GroupStats.logged [2, 4] := by
  refine ⟨?_, ?_, ?_, ?_⟩
  · exact Begins.withLocal (Begins.cons .own <| Begins.cons .own <| Begins.cons .own <| Begins.cons .own <|
      Begins.cons .pad .nil)
  · exact Begins.withLocal (Begins.cons .own <| Begins.cons .own <| Begins.cons .own <| Begins.cons .pad .nil)
  · exact Begins.withLocal (Begins.andThen (Exact.cons .own <| Exact.cons .own <| Exact.cons .pad <| Exact.cons .own <|
      Exact.cons .own <| Exact.cons .own <| Exact.cons .own <| Exact.cons .own <| Exact.cons .own <|
      Exact.cons .pad <| Exact.cons .own <| Exact.cons .own <| Exact.cons .own <| Exact.cons .own .nil))
  · exact Begins.withLocal (Begins.cons .own <| Begins.cons .pad <| Begins.cons .own <| Begins.cons .own <|
      Begins.cons .pad .nil)

/-- Non-vacuity: an apply-actions instruction without actions is decoded. -/
example : (Instruction.logged.step (.applyActions []) (.src [0, 4, 0, 8, 0, 0, 0, 0] [] .eof false)).err = none := by
  decide +kernel

/-! ## What the decoders store to -/

theorem action_within : Action.logged.Within [2, 3, 4, 6, 8] := by
  refine Within.dyn fun a => ?_
  cases a <;> (unfold Action.loggedOf; withinAll)

theorem instructionActions_within : instructionActionsLogged.Within [2, 3, 4, 6, 8] := by
  have := action_within
  unfold instructionActionsLogged Actions.logged
  withinAll

theorem instruction_within : Instruction.logged.Within [2, 3, 4, 6, 8] := by
  have := instructionActions_within
  unfold Instruction.logged
  refine Within.dyn fun a => ?_
  cases a <;> (dsimp only; withinAll)

theorem meterBand_within : MeterBand.logged.Within [3, 4] := by
  unfold MeterBand.logged
  refine Within.dyn fun a => ?_
  cases a <;> (dsimp only; withinAll)

theorem queueProp_within : QueueProp.logged.Within [4, 6, 8] := by
  unfold QueueProp.logged QueueProp.rateLogged QueueProp.experimenterLogged
  refine Within.dyn fun a => ?_
  cases a <;> (dsimp only; withinAll)

theorem actions_within : Actions.logged.Within [2, 3, 4, 6, 8] := by
  have := action_within
  unfold Actions.logged
  withinAll

theorem instructions_within : Instructions.logged.Within [2, 3, 4, 6, 8] := by
  have := instruction_within
  unfold Instructions.logged
  withinAll

theorem aggregateStatsRequest_within : AggregateStatsRequest.logged.Within [3, 4] := by
  unfold AggregateStatsRequest.logged
  withinAll

theorem aggregateStats_within' : AggregateStats.logged.Within [4] := by
  unfold AggregateStats.logged
  withinAll

theorem flowMod_within : FlowMod.logged.Within [2, 3, 4, 6, 8] := by
  have := instruction_within
  unfold FlowMod.logged Instructions.logged
  withinAll

theorem flowStatsRequest_within : FlowStatsRequest.logged.Within [3, 4] := by
  unfold FlowStatsRequest.logged
  withinAll

theorem flowStats_within : FlowStats.logged.Within [1, 2, 3, 4, 6, 8] := by
  have : Instruction.logged.Within [1, 2, 3, 4, 6, 8] := fun s r k h =>
    (by decide : ∀ k ∈ [2, 3, 4, 6, 8], k ∈ [1, 2, 3, 4, 6, 8]) k (instruction_within s r k h)
  unfold FlowStats.logged Instructions.logged
  withinAll

theorem groupMod_within : GroupMod.logged.Within [1, 2, 3, 4, 6, 8] := by
  have : Action.logged.Within [1, 2, 3, 4, 6, 8] := fun s r k h =>
    (by decide : ∀ k ∈ [2, 3, 4, 6, 8], k ∈ [1, 2, 3, 4, 6, 8]) k (action_within s r k h)
  unfold GroupMod.logged Bucket.logged Actions.logged
  withinAll

theorem bucket_within : Bucket.logged.Within [2, 3, 4, 6, 8] := by
  have := action_within
  unfold Bucket.logged Actions.logged
  withinAll

theorem groupStatsRequest_within : GroupStatsRequest.logged.Within [4] := by
  unfold GroupStatsRequest.logged
  withinAll

theorem groupStats_within : GroupStats.logged.Within [2, 4] := by
  unfold GroupStats.logged
  withinAll

theorem groupDescStats_within : GroupDescStats.logged.Within [1, 2, 3, 4, 6, 8] := by
  have : Action.logged.Within [1, 2, 3, 4, 6, 8] := fun s r k h =>
    (by decide : ∀ k ∈ [2, 3, 4, 6, 8], k ∈ [1, 2, 3, 4, 6, 8]) k (action_within s r k h)
  unfold GroupDescStats.logged Bucket.logged Actions.logged
  withinAll

theorem roleRequest_within' : RoleRequest.logged.Within [4] := by
  unfold RoleRequest.logged
  withinAll

theorem meterBands_within : MeterBands.logged.Within [3, 4] := by
  have := meterBand_within
  unfold MeterBands.logged
  withinAll

theorem meterMod_within : MeterMod.logged.Within [3, 4] := by
  have := meterBand_within
  unfold MeterMod.logged MeterBands.logged
  withinAll

theorem meterConfigRequest_within : MeterConfigRequest.logged.Within [4] := by
  unfold MeterConfigRequest.logged
  withinAll

theorem meterConfig_within : MeterConfig.logged.Within [3, 4] := by
  have := meterBand_within
  unfold MeterConfig.logged MeterBands.logged
  withinAll

theorem meterFeatures_within' : MeterFeatures.logged.Within [2] := by
  unfold MeterFeatures.logged
  withinAll

theorem meterStatsRequest_within : MeterStatsRequest.logged.Within [4] := by
  unfold MeterStatsRequest.logged
  withinAll

theorem meterStats_within : MeterStats.logged.Within [6] := by
  unfold MeterStats.logged MeterStats.headerLogged
  withinAll

theorem multipartRequest_within : MultipartRequest.logged.Within [4] := by
  unfold MultipartRequest.logged
  withinAll

theorem multipartReply_within' : MultipartReply.logged.Within [4] := by
  unfold MultipartReply.logged
  withinAll

theorem packetIn_within' : PacketIn.logged.Within [2] := by
  unfold PacketIn.logged
  withinAll

theorem packetOut_within : PacketOut.logged.Within [2, 3, 4, 6, 8] := by
  have := action_within
  unfold PacketOut.logged Actions.logged
  withinAll

theorem port_within' : Port.logged.Within [2, 4] := by
  unfold Port.logged
  withinAll

theorem portMod_within : PortMod.logged.Within [2, 4] := by
  unfold PortMod.logged
  withinAll

theorem portStatus_within' : PortStatus.logged.Within [2, 4, 7] := by
  unfold PortStatus.logged Port.logged
  withinAll

theorem portStatsRequest_within : PortStatsRequest.logged.Within [4] := by
  unfold PortStatsRequest.logged
  withinAll

theorem portStats_within' : PortStats.logged.Within [4] := by
  unfold PortStats.logged
  withinAll

theorem queueProps_within : QueueProps.logged.Within [4, 6, 8] := by
  have := queueProp_within
  unfold QueueProps.logged
  withinAll

theorem packetQueue_within : PacketQueue.logged.Within [4, 6, 8] := by
  have := queueProp_within
  unfold PacketQueue.logged QueueProps.logged
  withinAll

theorem queueGetConfigRequest_within : QueueGetConfigRequest.logged.Within [4] := by
  unfold QueueGetConfigRequest.logged
  withinAll

theorem queueGetConfigReply_within : QueueGetConfigReply.logged.Within [4, 6, 8] := by
  have := queueProp_within
  unfold QueueGetConfigReply.logged PacketQueue.logged QueueProps.logged
  withinAll

theorem switchFeatures_within' : SwitchFeatures.logged.Within [2] := by
  unfold SwitchFeatures.logged
  withinAll

theorem tableStats_within' : TableStats.logged.Within [3] := by
  unfold TableStats.logged
  withinAll

theorem tableFeatures_within : TableFeatures.logged.Within [5] := by
  unfold TableFeatures.logged
  withinAll

theorem ports_within : Ports.logged.Within [2, 4] := fun _ r k h =>
  Within.readSliceFrom (zero := Port.zero) port_within' [] r k h

theorem aggregateStatsRequest_always : ∀ k ∈ [3, 4], AggregateStatsRequest.logged.Stores k := by
  unfold AggregateStatsRequest.logged
  simp only [List.forall_mem_cons]
  refine ⟨?_, ?_, by simp⟩
  · exact Stores.tail <| Stores.head <| Stores.pad
  · exact Stores.tail <| Stores.tail <| Stores.tail <| Stores.tail <| Stores.head <| Stores.pad

theorem aggregateStats_always : ∀ k ∈ [4], AggregateStats.logged.Stores k := by
  unfold AggregateStats.logged
  simp only [List.forall_mem_cons]
  refine ⟨?_, by simp⟩
  · exact Stores.tail <| Stores.tail <| Stores.tail <| Stores.head <| Stores.pad

theorem flowMod_always : ∀ k ∈ [2], FlowMod.logged.Stores k := by
  unfold FlowMod.logged
  simp only [List.forall_mem_cons]
  refine ⟨?_, by simp⟩
  · exact Stores.tail <| Stores.tail <| Stores.tail <| Stores.tail <| Stores.tail <| Stores.tail <| Stores.tail <| Stores.tail <| Stores.tail <| Stores.tail <| Stores.tail <| Stores.tail <| Stores.head <| Stores.pad

theorem flowStatsRequest_always : ∀ k ∈ [3, 4], FlowStatsRequest.logged.Stores k := by
  unfold FlowStatsRequest.logged
  simp only [List.forall_mem_cons]
  refine ⟨?_, ?_, by simp⟩
  · exact Stores.tail <| Stores.head <| Stores.pad
  · exact Stores.tail <| Stores.tail <| Stores.tail <| Stores.tail <| Stores.head <| Stores.pad

theorem flowStats_always : ∀ k ∈ [1, 4], FlowStats.logged.Stores k := by
  unfold FlowStats.logged
  simp only [List.forall_mem_cons]
  refine ⟨?_, ?_, by simp⟩
  · exact Stores.withLocal <| Stores.andThen <| Stores.tail <| Stores.tail <| Stores.head <| Stores.pad
  · exact Stores.withLocal <| Stores.andThen <| Stores.tail <| Stores.tail <| Stores.tail <| Stores.tail <| Stores.tail <| Stores.tail <| Stores.tail <| Stores.tail <| Stores.tail <| Stores.head <| Stores.pad

theorem groupMod_always : ∀ k ∈ [1], GroupMod.logged.Stores k := by
  unfold GroupMod.logged
  simp only [List.forall_mem_cons]
  refine ⟨?_, by simp⟩
  · exact Stores.tail <| Stores.tail <| Stores.head <| Stores.pad

theorem bucket_always : ∀ k ∈ [4], Bucket.logged.Stores k := by
  unfold Bucket.logged
  simp only [List.forall_mem_cons]
  refine ⟨?_, by simp⟩
  · exact Stores.withLocal <| Stores.tail <| Stores.tail <| Stores.tail <| Stores.tail <| Stores.head <| Stores.pad

theorem groupStatsRequest_always : ∀ k ∈ [4], GroupStatsRequest.logged.Stores k := by
  unfold GroupStatsRequest.logged
  simp only [List.forall_mem_cons]
  refine ⟨?_, by simp⟩
  · exact Stores.tail <| Stores.head <| Stores.pad

theorem groupStats_always : ∀ k ∈ [2, 4], GroupStats.logged.Stores k := by
  unfold GroupStats.logged
  simp only [List.forall_mem_cons]
  refine ⟨?_, ?_, by simp⟩
  · exact Stores.withLocal <| Stores.tail <| Stores.head <| Stores.pad
  · exact Stores.withLocal <| Stores.tail <| Stores.tail <| Stores.tail <| Stores.tail <| Stores.head <| Stores.pad

theorem roleRequest_always : ∀ k ∈ [4], RoleRequest.logged.Stores k := by
  unfold RoleRequest.logged
  simp only [List.forall_mem_cons]
  refine ⟨?_, by simp⟩
  · exact Stores.tail <| Stores.head <| Stores.pad

theorem meterConfigRequest_always : ∀ k ∈ [4], MeterConfigRequest.logged.Stores k := by
  unfold MeterConfigRequest.logged
  simp only [List.forall_mem_cons]
  refine ⟨?_, by simp⟩
  · exact Stores.tail <| Stores.head <| Stores.pad

theorem meterFeatures_always : ∀ k ∈ [2], MeterFeatures.logged.Stores k := by
  unfold MeterFeatures.logged
  simp only [List.forall_mem_cons]
  refine ⟨?_, by simp⟩
  · exact Stores.tail <| Stores.tail <| Stores.tail <| Stores.tail <| Stores.tail <| Stores.head <| Stores.pad

theorem meterStatsRequest_always : ∀ k ∈ [4], MeterStatsRequest.logged.Stores k := by
  unfold MeterStatsRequest.logged
  simp only [List.forall_mem_cons]
  refine ⟨?_, by simp⟩
  · exact Stores.tail <| Stores.head <| Stores.pad

theorem multipartRequest_always : ∀ k ∈ [4], MultipartRequest.logged.Stores k := by
  unfold MultipartRequest.logged
  simp only [List.forall_mem_cons]
  refine ⟨?_, by simp⟩
  · exact Stores.tail <| Stores.tail <| Stores.head <| Stores.pad

theorem multipartReply_always : ∀ k ∈ [4], MultipartReply.logged.Stores k := by
  unfold MultipartReply.logged
  simp only [List.forall_mem_cons]
  refine ⟨?_, by simp⟩
  · exact Stores.tail <| Stores.tail <| Stores.head <| Stores.pad

theorem packetIn_always : ∀ k ∈ [2], PacketIn.logged.Stores k := by
  unfold PacketIn.logged
  simp only [List.forall_mem_cons]
  refine ⟨?_, by simp⟩
  · exact Stores.tail <| Stores.tail <| Stores.tail <| Stores.tail <| Stores.tail <| Stores.tail <| Stores.head <| Stores.pad

theorem packetOut_always : ∀ k ∈ [6], PacketOut.logged.Stores k := by
  unfold PacketOut.logged
  simp only [List.forall_mem_cons]
  refine ⟨?_, by simp⟩
  · exact Stores.withLocal <| Stores.tail <| Stores.tail <| Stores.tail <| Stores.head <| Stores.pad

theorem port_always : ∀ k ∈ [2, 4], Port.logged.Stores k := by
  unfold Port.logged
  simp only [List.forall_mem_cons]
  refine ⟨?_, ?_, by simp⟩
  · exact Stores.withLocal <| Stores.always <| Stores.tail <| Stores.tail <| Stores.tail <| Stores.tail <| Stores.head <| Stores.pad
  · exact Stores.withLocal <| Stores.always <| Stores.tail <| Stores.tail <| Stores.head <| Stores.pad

theorem portMod_always : ∀ k ∈ [2, 4], PortMod.logged.Stores k := by
  unfold PortMod.logged
  simp only [List.forall_mem_cons]
  refine ⟨?_, ?_, by simp⟩
  · exact Stores.tail <| Stores.tail <| Stores.tail <| Stores.head <| Stores.pad
  · exact Stores.tail <| Stores.head <| Stores.pad

theorem portStatus_always : ∀ k ∈ [2, 4, 7], PortStatus.logged.Stores k := by
  unfold PortStatus.logged
  simp only [List.forall_mem_cons]
  refine ⟨?_, ?_, ?_, by simp⟩
  · exact Stores.tail <| Stores.tail <| Stores.head <| Stores.sub (port_stores.2)
  · exact Stores.tail <| Stores.tail <| Stores.head <| Stores.sub (port_stores.1)
  · exact Stores.tail <| Stores.head <| Stores.pad

theorem portStatsRequest_always : ∀ k ∈ [4], PortStatsRequest.logged.Stores k := by
  unfold PortStatsRequest.logged
  simp only [List.forall_mem_cons]
  refine ⟨?_, by simp⟩
  · exact Stores.tail <| Stores.head <| Stores.pad

theorem portStats_always : ∀ k ∈ [4], PortStats.logged.Stores k := by
  unfold PortStats.logged
  simp only [List.forall_mem_cons]
  refine ⟨?_, by simp⟩
  · exact Stores.tail <| Stores.head <| Stores.pad

theorem packetQueue_always : ∀ k ∈ [6], PacketQueue.logged.Stores k := by
  unfold PacketQueue.logged
  simp only [List.forall_mem_cons]
  refine ⟨?_, by simp⟩
  · exact Stores.withLocal <| Stores.tail <| Stores.tail <| Stores.tail <| Stores.head <| Stores.pad

theorem queueGetConfigRequest_always : ∀ k ∈ [4], QueueGetConfigRequest.logged.Stores k := by
  unfold QueueGetConfigRequest.logged
  simp only [List.forall_mem_cons]
  refine ⟨?_, by simp⟩
  · exact Stores.tail <| Stores.head <| Stores.pad

theorem queueGetConfigReply_always : ∀ k ∈ [4], QueueGetConfigReply.logged.Stores k := by
  unfold QueueGetConfigReply.logged
  simp only [List.forall_mem_cons]
  refine ⟨?_, by simp⟩
  · exact Stores.tail <| Stores.head <| Stores.pad

theorem switchFeatures_always : ∀ k ∈ [2], SwitchFeatures.logged.Stores k := by
  unfold SwitchFeatures.logged
  simp only [List.forall_mem_cons]
  refine ⟨?_, by simp⟩
  · exact Stores.tail <| Stores.tail <| Stores.tail <| Stores.tail <| Stores.head <| Stores.pad

theorem tableStats_always : ∀ k ∈ [3], TableStats.logged.Stores k := by
  unfold TableStats.logged
  simp only [List.forall_mem_cons]
  refine ⟨?_, by simp⟩
  · exact Stores.tail <| Stores.head <| Stores.pad

theorem tableFeatures_always : ∀ k ∈ [5], TableFeatures.logged.Stores k := by
  unfold TableFeatures.logged
  simp only [List.forall_mem_cons]
  refine ⟨?_, by simp⟩
  · exact Stores.withLocal <| Stores.tail <| Stores.tail <| Stores.head <| Stores.pad

/-! ## The table -/

/-- A row for every type that decodes itself.  The rows at the end have decoders without padding
variables: no padding, or padding in memory of the call (ofp/match.go:491, ofp/table.go:65). -/
def padTable : List PadRow := [
  ⟨_, Actions.logged, [], [2, 3, 4, 6, 8]⟩,
  ⟨_, Instructions.logged, [], [2, 3, 4, 6, 8]⟩,
  ⟨_, AggregateStatsRequest.logged, [3, 4], [3, 4]⟩,
  ⟨_, AggregateStats.logged, [4], [4]⟩,
  ⟨_, FlowMod.logged, [2], [2, 3, 4, 6, 8]⟩,
  ⟨_, FlowStatsRequest.logged, [3, 4], [3, 4]⟩,
  ⟨_, FlowStats.logged, [1, 4], [1, 2, 3, 4, 6, 8]⟩,
  ⟨_, GroupMod.logged, [1], [1, 2, 3, 4, 6, 8]⟩,
  ⟨_, Bucket.logged, [4], [2, 3, 4, 6, 8]⟩,
  ⟨_, GroupStatsRequest.logged, [4], [4]⟩,
  ⟨_, GroupStats.logged, [2, 4], [2, 4]⟩,
  ⟨_, GroupDescStats.logged, [], [1, 2, 3, 4, 6, 8]⟩,
  ⟨_, RoleRequest.logged, [4], [4]⟩,
  ⟨_, MeterBands.logged, [], [3, 4]⟩,
  ⟨_, MeterMod.logged, [], [3, 4]⟩,
  ⟨_, MeterConfigRequest.logged, [4], [4]⟩,
  ⟨_, MeterConfig.logged, [], [3, 4]⟩,
  ⟨_, MeterFeatures.logged, [2], [2]⟩,
  ⟨_, MeterStatsRequest.logged, [4], [4]⟩,
  ⟨_, MeterStats.logged, [], [6]⟩,
  ⟨_, MultipartRequest.logged, [4], [4]⟩,
  ⟨_, MultipartReply.logged, [4], [4]⟩,
  ⟨_, PacketIn.logged, [2], [2]⟩,
  ⟨_, PacketOut.logged, [6], [2, 3, 4, 6, 8]⟩,
  ⟨_, Port.logged, [2, 4], [2, 4]⟩,
  ⟨_, Ports.logged, [], [2, 4]⟩,
  ⟨_, PortMod.logged, [2, 4], [2, 4]⟩,
  ⟨_, PortStatus.logged, [2, 4, 7], [2, 4, 7]⟩,
  ⟨_, PortStatsRequest.logged, [4], [4]⟩,
  ⟨_, PortStats.logged, [4], [4]⟩,
  ⟨_, QueueProps.logged, [], [4, 6, 8]⟩,
  ⟨_, PacketQueue.logged, [6], [4, 6, 8]⟩,
  ⟨_, QueueGetConfigRequest.logged, [4], [4]⟩,
  ⟨_, QueueGetConfigReply.logged, [4], [4, 6, 8]⟩,
  ⟨_, SwitchFeatures.logged, [2], [2]⟩,
  ⟨_, TableStats.logged, [3], [3]⟩,
  ⟨_, TableFeatures.logged, [5], [5]⟩,
  ⟨_, .own Hello.readFrom, [], []⟩,
  ⟨_, .own HelloElems.readFrom, [], []⟩,
  ⟨_, .own EchoRequest.readFrom, [], []⟩,
  ⟨_, .own EchoReply.readFrom, [], []⟩,
  ⟨_, .own OfpError.readFrom, [], []⟩,
  ⟨_, .own ErrorExperimenter.readFrom, [], []⟩,
  ⟨_, .own Description.readFrom, [], []⟩,
  ⟨_, .own FlowRemoved.readFrom, [], []⟩,
  ⟨_, .own BucketCounter.readFrom, [], []⟩,
  ⟨_, .own GroupFeatures.readFrom, [], []⟩,
  ⟨_, .own Experimenter.readFrom, [], []⟩,
  ⟨_, .own AsyncConfig.readFrom, [], []⟩,
  ⟨_, .own Match.readFrom, [], []⟩,
  ⟨_, .own MeterBandStats.readFrom, [], []⟩,
  ⟨_, .own ExperimenterMultipartHeader.readFrom, [], []⟩,
  ⟨_, .own QueueStatsRequest.readFrom, [], []⟩,
  ⟨_, .own QueueStats.readFrom, [], []⟩,
  ⟨_, .own SwitchConfig.readFrom, [], []⟩,
  ⟨_, .own TableMod.readFrom, [], []⟩,
  ⟨_, .own TableProp.readFrom, [], []⟩]

private theorem row_cons {row : PadRow} {l : List PadRow} (ha : ∀ k ∈ row.always, row.dec.Stores k)
    (hw : row.dec.Within row.may)
    (hl : ∀ row ∈ l, (∀ k ∈ row.always, row.dec.Stores k) ∧ row.dec.Within row.may) :
    ∀ row' ∈ row :: l, (∀ k ∈ row'.always, row'.dec.Stores k) ∧ row'.dec.Within row'.may :=
  List.forall_mem_cons.mpr ⟨⟨ha, hw⟩, hl⟩

/-- Every row of the table says the truth about its decoder. -/
theorem pad_table : ∀ row ∈ padTable, (∀ k ∈ row.always, row.dec.Stores k) ∧ row.dec.Within row.may := by
  unfold padTable
  exact row_cons (by simp) actions_within <|
    row_cons (by simp) instructions_within <|
    row_cons aggregateStatsRequest_always aggregateStatsRequest_within <|
    row_cons aggregateStats_always aggregateStats_within' <|
    row_cons flowMod_always flowMod_within <|
    row_cons flowStatsRequest_always flowStatsRequest_within <|
    row_cons flowStats_always flowStats_within <|
    row_cons groupMod_always groupMod_within <|
    row_cons bucket_always bucket_within <|
    row_cons groupStatsRequest_always groupStatsRequest_within <|
    row_cons groupStats_always groupStats_within <|
    row_cons (by simp) groupDescStats_within <|
    row_cons roleRequest_always roleRequest_within' <|
    row_cons (by simp) meterBands_within <|
    row_cons (by simp) meterMod_within <|
    row_cons meterConfigRequest_always meterConfigRequest_within <|
    row_cons (by simp) meterConfig_within <|
    row_cons meterFeatures_always meterFeatures_within' <|
    row_cons meterStatsRequest_always meterStatsRequest_within <|
    row_cons (by simp) meterStats_within <|
    row_cons multipartRequest_always multipartRequest_within <|
    row_cons multipartReply_always multipartReply_within' <|
    row_cons packetIn_always packetIn_within' <|
    row_cons packetOut_always packetOut_within <|
    row_cons port_always port_within' <|
    row_cons (by simp) ports_within <|
    row_cons portMod_always portMod_within <|
    row_cons portStatus_always portStatus_within' <|
    row_cons portStatsRequest_always portStatsRequest_within <|
    row_cons portStats_always portStats_within' <|
    row_cons (by simp) queueProps_within <|
    row_cons packetQueue_always packetQueue_within <|
    row_cons queueGetConfigRequest_always queueGetConfigRequest_within <|
    row_cons queueGetConfigReply_always queueGetConfigReply_within <|
    row_cons switchFeatures_always switchFeatures_within' <|
    row_cons tableStats_always tableStats_within' <|
    row_cons tableFeatures_always tableFeatures_within <|
    row_cons (by simp) Within.own <|
    row_cons (by simp) Within.own <|
    row_cons (by simp) Within.own <|
    row_cons (by simp) Within.own <|
    row_cons (by simp) Within.own <|
    row_cons (by simp) Within.own <|
    row_cons (by simp) Within.own <|
    row_cons (by simp) Within.own <|
    row_cons (by simp) Within.own <|
    row_cons (by simp) Within.own <|
    row_cons (by simp) Within.own <|
    row_cons (by simp) Within.own <|
    row_cons (by simp) Within.own <|
    row_cons (by simp) Within.own <|
    row_cons (by simp) Within.own <|
    row_cons (by simp) Within.own <|
    row_cons (by simp) Within.own <|
    row_cons (by simp) Within.own <|
    row_cons (by simp) Within.own <|
    row_cons (by simp) Within.own <|
    fun _ h => absurd h List.not_mem_nil

/-- Goroutines that decode messages of types that have a padding variable in common which both always
store to: every execution in which both succeed races. -/
theorem table_race {ι : Type} [DecidableEq ι] (g : ι → Decoding) (tr : List (ι × Nat))
    (h : Executes g tr) {i j : ι} (hij : i ≠ j) (p q : PadRow) (hp : p ∈ padTable) (hq : q ∈ padTable)
    (s : p.σ) (t : q.σ) (r r' : Rd) (hi : g i = ⟨p.σ, p.dec, s, r⟩) (hj : g j = ⟨q.σ, q.dec, t, r'⟩)
    (oi : (g i).Succeeds) (oj : (g j).Succeeds) {k : Nat} (hkp : k ∈ p.always) (hkq : k ∈ q.always) :
    Race tr := by
  refine decoding_race g tr h hij (k := k) ?_ ?_ oi oj
  · rw [hi]; exact (pad_table p hp).1 k hkp
  · rw [hj]; exact (pad_table q hq).1 k hkq

/-- Goroutines that decode messages of types with no padding variable in common do not race, whatever
they decode and however it ends. -/
theorem table_no_race_partial {ι : Type} [DecidableEq ι] (g : ι → Decoding) (tr : List (ι × Nat))
    (h : Executes g tr) (row : ι → PadRow) (hrow : ∀ i, row i ∈ padTable)
    (hg : ∀ i, ∃ s r, g i = ⟨(row i).σ, (row i).dec, s, r⟩)
    (hd : ∀ i j, i ≠ j → ∀ k ∈ (row i).may, k ∉ (row j).may) : ¬ Race tr := by
  refine decoding_no_race_partial g tr h (fun i => (row i).may) (fun i => ?_) hd
  obtain ⟨s, r, hi⟩ := hg i
  rw [hi]
  exact (pad_table _ (hrow i)).2

/-- Two goroutines with the same decoder, the same variable and the same bytes race if the decoder
stores to a padding variable then. -/
theorem not_race_free_of_store {σ : Type} {dec : Logged σ} (s : σ) (r : Rd) (h : dec.log s r ≠ []) :
    ¬ DecodingRaceFree dec := by
  intro hf
  obtain ⟨k, hk⟩ := List.exists_mem_of_ne_nil _ h
  let d : Decoding := ⟨σ, dec, s, r⟩
  refine hf Bool (fun b => if b then d else d) (fun i => ⟨s, r, by cases i <;> rfl⟩) _
    (decoding_executes d d) ?_
  exact (decoding_race_iff _ _ (decoding_executes d d)).mpr ⟨false, true, k, by simp, hk, hk⟩

/-- A decoder without padding variables is free of races. -/
theorem race_free_of_within {σ : Type} {dec : Logged σ} (h : dec.Within []) : DecodingRaceFree dec := by
  intro ι _ g hg tr he
  refine decoding_no_race_partial g tr he (fun _ => []) (fun i => ?_) (by simp)
  obtain ⟨s, r, hi⟩ := hg i
  rw [hi]
  exact h

private theorem iff_cons {row : PadRow} {l : List PadRow} (h : DecodingRaceFree row.dec ↔ row.may = [])
    (hl : ∀ row ∈ l, (DecodingRaceFree row.dec ↔ row.may = [])) :
    ∀ row' ∈ row :: l, (DecodingRaceFree row'.dec ↔ row'.may = []) :=
  List.forall_mem_cons.mpr ⟨h, hl⟩

private theorem racy {row : PadRow} (s : row.σ) (b : Bytes)
    (h : row.dec.log s (.src b [] .eof false) ≠ []) (hm : row.may ≠ []) :
    DecodingRaceFree row.dec ↔ row.may = [] :=
  ⟨fun hf => absurd hf (not_race_free_of_store s _ h), fun he => absurd he hm⟩

private theorem free {row : PadRow} (h : row.dec.Within []) (hm : row.may = []) :
    DecodingRaceFree row.dec ↔ row.may = [] :=
  ⟨fun _ => hm, fun _ => race_free_of_within h⟩

/-- Goroutines that decode messages of one type, each into a variable of its own, are free of races
exactly for the types without padding variables: twenty of the fifty-seven. -/
theorem table_race_free_iff : ∀ row ∈ padTable, (DecodingRaceFree row.dec ↔ row.may = []) := by
  unfold padTable
  exact iff_cons (racy [] (zeros 16) (by decide +kernel) (by simp)) <|
    iff_cons (racy [] ([0, 1, 0, 8] ++ zeros 4) (by decide +kernel) (by simp)) <|
    iff_cons (racy default (zeros 120) (by decide +kernel) (by simp)) <|
    iff_cons (racy default (zeros 120) (by decide +kernel) (by simp)) <|
    iff_cons (racy default (zeros 48) (by decide +kernel) (by simp)) <|
    iff_cons (racy default (zeros 120) (by decide +kernel) (by simp)) <|
    iff_cons (racy default (zeros 56) (by decide +kernel) (by simp)) <|
    iff_cons (racy default (zeros 120) (by decide +kernel) (by simp)) <|
    iff_cons (racy default (zeros 120) (by decide +kernel) (by simp)) <|
    iff_cons (racy default (zeros 120) (by decide +kernel) (by simp)) <|
    iff_cons (racy default (zeros 120) (by decide +kernel) (by simp)) <|
    iff_cons (racy default (zeros 8) (by decide +kernel) (by simp)) <|
    iff_cons (racy default (zeros 120) (by decide +kernel) (by simp)) <|
    iff_cons (racy [] ([0, 1, 0, 16] ++ zeros 12) (by decide +kernel) (by simp)) <|
    iff_cons (racy default (zeros 8 ++ ([0, 1, 0, 16] ++ zeros 12)) (by decide +kernel) (by simp)) <|
    iff_cons (racy default (zeros 120) (by decide +kernel) (by simp)) <|
    iff_cons (racy default ([0, 24] ++ zeros 6 ++ ([0, 1, 0, 16] ++ zeros 12)) (by decide +kernel) (by simp)) <|
    iff_cons (racy default (zeros 120) (by decide +kernel) (by simp)) <|
    iff_cons (racy default (zeros 120) (by decide +kernel) (by simp)) <|
    iff_cons (racy default (zeros 40) (by decide +kernel) (by simp)) <|
    iff_cons (racy default (zeros 120) (by decide +kernel) (by simp)) <|
    iff_cons (racy default (zeros 120) (by decide +kernel) (by simp)) <|
    iff_cons (racy default (zeros 120) (by decide +kernel) (by simp)) <|
    iff_cons (racy default (zeros 120) (by decide +kernel) (by simp)) <|
    iff_cons (racy default (zeros 120) (by decide +kernel) (by simp)) <|
    iff_cons (racy [] (zeros 64) (by decide +kernel) (by simp)) <|
    iff_cons (racy default (zeros 120) (by decide +kernel) (by simp)) <|
    iff_cons (racy default (zeros 120) (by decide +kernel) (by simp)) <|
    iff_cons (racy default (zeros 120) (by decide +kernel) (by simp)) <|
    iff_cons (racy default (zeros 120) (by decide +kernel) (by simp)) <|
    iff_cons (racy [] ([0, 1, 0, 16] ++ zeros 12) (by decide +kernel) (by simp)) <|
    iff_cons (racy default (zeros 120) (by decide +kernel) (by simp)) <|
    iff_cons (racy default (zeros 120) (by decide +kernel) (by simp)) <|
    iff_cons (racy default (zeros 120) (by decide +kernel) (by simp)) <|
    iff_cons (racy default (zeros 120) (by decide +kernel) (by simp)) <|
    iff_cons (racy default (zeros 120) (by decide +kernel) (by simp)) <|
    iff_cons (racy default (zeros 120) (by decide +kernel) (by simp)) <|
    iff_cons (free Within.own rfl) <|
    iff_cons (free Within.own rfl) <|
    iff_cons (free Within.own rfl) <|
    iff_cons (free Within.own rfl) <|
    iff_cons (free Within.own rfl) <|
    iff_cons (free Within.own rfl) <|
    iff_cons (free Within.own rfl) <|
    iff_cons (free Within.own rfl) <|
    iff_cons (free Within.own rfl) <|
    iff_cons (free Within.own rfl) <|
    iff_cons (free Within.own rfl) <|
    iff_cons (free Within.own rfl) <|
    iff_cons (free Within.own rfl) <|
    iff_cons (free Within.own rfl) <|
    iff_cons (free Within.own rfl) <|
    iff_cons (free Within.own rfl) <|
    iff_cons (free Within.own rfl) <|
    iff_cons (free Within.own rfl) <|
    iff_cons (free Within.own rfl) <|
    iff_cons (free Within.own rfl) <|
    fun _ h => absurd h List.not_mem_nil

theorem table_race_free_count :
    padTable.length = 57 ∧ (padTable.filter (fun row => row.may = [])).length = 20 := by
  simp [padTable]

/-! ## Cases -/

/-- A list of two actions stores to the variables of both. -/
example : Actions.logged.log [] (.src (Actions.writeTo [.output 1 2, .pushVLAN 5]).out [] .eof false) =
    [6, 4, 2] := by decide +kernel

/-- A group description cut inside its header is decoded without an error and stores to nothing. -/
example : GroupDescStats.logged.log default (.src (zeros 3) [] .eof false) = [] ∧
    (GroupDescStats.logged.step default (.src (zeros 3) [] .eof false)).err = none := by
  constructor <;> decide +kernel

/-- A packet-out and a meter modification have variables in common, but not always: this packet-out
has a set-queue action and shares a variable with a drop band. -/
example : 4 ∈ PacketOut.logged.log default (.src ((PacketOut.mk 0 0 [.setQueue 1] []).writeTo.out) [] .eof false) ∧
    4 ∈ MeterMod.logged.log default (.src ((MeterMod.mk 0 0 0 [.drop 1 2]).writeTo.out) [] .eof false) := by
  constructor <;> decide +kernel

/-- Flow statistics and a group modification race whenever both are decoded. -/
example (f : FlowStats) (m : GroupMod) (r r' : Rd) (tr : List (Bool × Nat))
    (h : Executes (fun b => if b then ⟨_, GroupMod.logged, m, r'⟩ else ⟨_, FlowStats.logged, f, r⟩) tr)
    (h0 : (FlowStats.readFrom f r).err = none) (h1 : (GroupMod.readFrom m r').err = none) : Race tr :=
  table_race _ tr h (i := false) (j := true) (by simp) ⟨_, FlowStats.logged, [1, 4], [1, 2, 3, 4, 6, 8]⟩
    ⟨_, GroupMod.logged, [1], [1, 2, 3, 4, 6, 8]⟩ (by simp [padTable]) (by simp [padTable]) f m r r' rfl rfl
    (by rw [← flowStats_logged] at h0; exact h0) (by rw [← groupMod_logged] at h1; exact h1)
    (k := 1) (by simp) (by simp)

/-- Table features, table statistics and a removed flow do not race. -/
example (a : TableFeatures) (b : TableStats) (c : FlowRemoved) (r0 r1 r2 : Rd) (tr : List (Fin 3 × Nat))
    (g : Fin 3 → Decoding) (h : Executes g tr) (h0 : g 0 = ⟨_, TableFeatures.logged, a, r0⟩)
    (h1 : g 1 = ⟨_, TableStats.logged, b, r1⟩) (h2 : g 2 = ⟨_, .own FlowRemoved.readFrom, c, r2⟩) :
    ¬ Race tr := by
  refine table_no_race_partial g tr h (fun i => [⟨_, TableFeatures.logged, [5], [5]⟩,
    ⟨_, TableStats.logged, [3], [3]⟩, ⟨_, .own FlowRemoved.readFrom, [], []⟩][i]) ?_ ?_ ?_
  · intro i
    match i with
    | 0 => simp [padTable]
    | 1 => simp [padTable]
    | 2 => simp [padTable]
  · intro i
    match i with
    | 0 => exact ⟨a, r0, h0⟩
    | 1 => exact ⟨b, r1, h1⟩
    | 2 => exact ⟨c, r2, h2⟩
  · intro i j hij k hi hj
    match i, j with
    | 0, 0 => exact hij rfl
    | 0, 1 => simp at hi hj; omega
    | 0, 2 => simp at hj
    | 1, 0 => simp at hi hj; omega
    | 1, 1 => exact hij rfl
    | 1, 2 => simp at hj
    | 2, 0 => simp at hi
    | 2, 1 => simp at hi
    | 2, 2 => exact hij rfl

end Verif.Props
