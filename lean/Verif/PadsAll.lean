import Verif.Pads
import Verif.Ofp.Queue
import Verif.Ofp.Table

/-!
# The padding variables: the remaining decoders

Verif/Pads.lean pairs the decoders of a fixed layout with the padding variables they store to.
Here are the decoders with lists inside: actions, instructions, buckets, bands, queues and the
messages that hold them.
-/

namespace Verif

namespace Logged

variable {σ τ : Type}

/-- A decoder computed from the receiver (its dynamic type, a length read before). -/
def dyn (f : σ → Logged σ) : Logged σ :=
  ⟨Enc.dyn (fun s => (f s).step), fun s r => (f s).log s r⟩

/-- A decoder on an `io.LimitReader`. -/
def limited (n : Nat) (a : Logged σ) : Logged σ :=
  ⟨Enc.limited n a.step, fun s r => a.log s (.lim n r)⟩

/-- An argument with a value receiver. -/
def subVal (get : σ → τ) (a : Logged τ) : Logged σ :=
  ⟨Enc.subVal get a.step, fun s r => a.log (get s) r⟩

/-- A call whose error is overwritten. -/
def ignoreErr (a : Logged σ) : Logged σ := ⟨Enc.ignoreErr a.step, a.log⟩

/-- Two calls of `encoding.ReadFrom`; the second is not reached after an error. -/
def andThen (a : Logged σ) (f : Nat → Logged σ) : Logged σ :=
  ⟨Enc.andThen a.step (fun n => (f n).step), fun s r =>
    a.log s r ++
      match (a.step s r).err with
      | some _ => []
      | none => (f (a.step s r).n).log (a.step s r).val (a.step s r).rd⟩

/-- A value of dynamic type `τ` in a variable of interface type `σ`. -/
def wrap (f : τ → σ) (a : Logged τ) (t : τ) : Logged σ :=
  ⟨fun _ r => Enc.wrap f a.step t r, fun _ r => a.log t r⟩

/-- The stores of the loop of `encoding.ReadFunc`, encoding.go:160-178: those of every element, up
to and including the first that fails. -/
def readFuncLog (zero : τ) (a : Logged τ) : Nat → Rd → List Nat
  | 0, _ => []
  | fuel + 1, r =>
    a.log zero r ++
      match (a.step zero r).err with
      | some _ => []
      | none => readFuncLog zero a fuel (a.step zero r).rd

/-- `encoding.ReadSliceFrom`, encoding.go:148-154. -/
def readSliceFrom (zero : τ) (a : Logged τ) : Logged (List τ) :=
  ⟨Enc.readSliceFrom zero a.step, fun _ r => readFuncLog zero a (r.content.length + 1) r⟩

/-- The stores of the loop of `encoding.ScanFrom`, encoding.go:217-244. -/
def scanLog (mk : UInt16 → Except Err τ) (a : Logged τ) : Nat → Rd → List Nat
  | 0, _ => []
  | fuel + 1, r =>
    match r.peek2 with
    | (_, some _, _) => []
    | (b, none, r1) =>
      match mk (ofBE UInt16 b) with
      | .error _ => []
      | .ok z =>
        a.log z r1 ++
          match (a.step z r1).err with
          | some _ => []
          | none => scanLog mk a fuel (a.step z r1).rd

/-- `encoding.ScanFrom`, encoding.go:204-245. -/
def scanFrom (mk : UInt16 → Except Err τ) (a : Logged τ) : Logged (List τ) :=
  ⟨Enc.scanFrom mk a.step, fun _ r => scanLog mk a (r.content.length + 1) r.wrapBuf⟩

end Logged

/-- `(PortStatsRequest) ReadFrom`, ofp/port.go:458-460. -/
def PortStatsRequest.logged : Logged PortStatsRequest :=
  .readFrom [
    .own (Enc.num (fun v s => { s with portNo := v })), .pad 4]

/-- `(MeterConfigRequest) ReadFrom`, ofp/meter.go:302-304. -/
def MeterConfigRequest.logged : Logged MeterConfigRequest :=
  .readFrom [
    .own (Enc.num (fun v s => { s with meter := v })), .pad 4]

/-- `(MeterStatsRequest) ReadFrom`, ofp/meter.go:430-432. -/
def MeterStatsRequest.logged : Logged MeterStatsRequest :=
  .readFrom [
    .own (Enc.num (fun v s => { s with meter := v })), .pad 4]

/-- `(GroupStatsRequest) ReadFrom`, ofp/group.go:206-208. -/
def GroupStatsRequest.logged : Logged GroupStatsRequest :=
  .readFrom [
    .own (Enc.num (fun v s => { s with group := v })), .pad 4]

/-- `(QueueGetConfigRequest) ReadFrom`, ofp/queue.go:337-339. -/
def QueueGetConfigRequest.logged : Logged QueueGetConfigRequest :=
  .readFrom [
    .own (Enc.num (fun v s => { s with port := v })), .pad 4]

/-- `(f *FlowStatsRequest) ReadFrom`, ofp/flow.go:401-405. -/
def FlowStatsRequest.logged : Logged FlowStatsRequest :=
  .readFrom [
    .own (Enc.num (fun v s => { s with table := v })), .pad 3,
    .own (Enc.num (fun v s => { s with outPort := v })),
    .own (Enc.num (fun v s => { s with outGroup := v })), .pad 4,
    .own (Enc.num (fun v s => { s with cookie := v })),
    .own (Enc.num (fun v s => { s with cookieMask := v })),
    .own (Enc.sub (fun s => s.mtch) (fun v s => { s with mtch := v }) Match.readFrom)]

/-- `(a *AggregateStatsRequest) ReadFrom`, ofp/aggregate.go:75-79. -/
def AggregateStatsRequest.logged : Logged AggregateStatsRequest :=
  .readFrom [
    .own (Enc.num (fun v s => { s with table := v })), .pad 3,
    .own (Enc.num (fun v s => { s with outPort := v })),
    .own (Enc.num (fun v s => { s with outGroup := v })), .pad 4,
    .own (Enc.num (fun v s => { s with cookie := v })),
    .own (Enc.num (fun v s => { s with cookieMask := v })),
    .own (Enc.sub (fun s => s.mtch) (fun v s => { s with mtch := v }) Match.readFrom)]

/-- `(p *PortMod) ReadFrom`, ofp/port.go:390-394. -/
def PortMod.logged : Logged PortMod :=
  .readFrom [
    .own (Enc.num (fun v s => { s with portNo := v })), .pad 4,
    .own (Enc.dyn (fun s => Enc.bin s.hwAddr.length (fun v s => { s with hwAddr := v }))), .pad 2,
    .own (Enc.num (fun v s => { s with config := v })),
    .own (Enc.num (fun v s => { s with mask := v })),
    .own (Enc.num (fun v s => { s with advertise := v })), .pad 4]

/-- `(m *MultipartRequest) ReadFrom`, ofp/multipart.go:246-258. -/
def MultipartRequest.logged : Logged MultipartRequest :=
  .readFrom [
    .own (Enc.num (fun v s => { s with type := v })),
    .own (Enc.num (fun v s => { s with flags := v })), .pad 4,
    .own (Enc.rest (fun b s => { s with body := .buffer b }))]

/-- The `ReadFrom` methods of ofp/action.go:245-642, by the dynamic type. -/
def Action.loggedOf : Action → Logged Action
  -- ofp/action.go:245-247
  | .output p m => .wrap (fun s : UInt32 × UInt16 => Action.output s.1 s.2)
      (.readFrom [.own skipActionHeader, .own (Enc.num (fun v s => (v, s.2))),
        .own (Enc.num (fun v s => (s.1, v))), .pad 6]) (p, m)
  -- ofp/action.go:266-268, 287-289, 332-334, 381-383, 529-531
  | .copyTTLOut => .wrap (fun _ : Unit => Action.copyTTLOut) (.readFrom [.pad 8]) ()
  | .copyTTLIn => .wrap (fun _ : Unit => Action.copyTTLIn) (.readFrom [.pad 8]) ()
  | .decMPLSTTL => .wrap (fun _ : Unit => Action.decMPLSTTL) (.readFrom [.pad 8]) ()
  | .popVLAN => .wrap (fun _ : Unit => Action.popVLAN) (.readFrom [.pad 8]) ()
  | .decNwTTL => .wrap (fun _ : Unit => Action.decNwTTL) (.readFrom [.pad 8]) ()
  -- ofp/action.go:311-313
  | .setMPLSTTL t => .wrap Action.setMPLSTTL
      (.readFrom [.own skipActionHeader, .own (Enc.num (fun v _ => v)), .pad 3]) t
  -- ofp/action.go:508-510
  | .setNwTTL t => .wrap Action.setNwTTL
      (.readFrom [.pad 4, .own (Enc.num (fun v _ => v)), .pad 3]) t
  -- ofp/action.go:360-362, 405-407, 430-432, 613-615
  | .pushVLAN t => .wrap Action.pushVLAN
      (.readFrom [.pad 4, .own (Enc.num (fun v _ => v)), .pad 2]) t
  | .pushMPLS t => .wrap Action.pushMPLS
      (.readFrom [.pad 4, .own (Enc.num (fun v _ => v)), .pad 2]) t
  | .popMPLS t => .wrap Action.popMPLS
      (.readFrom [.pad 4, .own (Enc.num (fun v _ => v)), .pad 2]) t
  | .pushPBB t => .wrap Action.pushPBB
      (.readFrom [.pad 4, .own (Enc.num (fun v _ => v)), .pad 2]) t
  -- ofp/action.go:459-461, 484-486, 640-642
  | .setQueue q => .wrap Action.setQueue (.readFrom [.pad 4, .own (Enc.num (fun v _ => v))]) q
  | .group g => .wrap Action.group (.readFrom [.pad 4, .own (Enc.num (fun v _ => v))]) g
  | .experimenter e =>
    .wrap Action.experimenter (.readFrom [.pad 4, .own (Enc.num (fun v _ => v))]) e
  -- ofp/action.go:571-591: the padding is read by `ioutil.ReadAll`
  | .setField f => .wrap Action.setField (.own setField.readFrom) f

/-- The `ReadFrom` methods of ofp/action.go:245-642. -/
def Action.logged : Logged Action := .dyn Action.loggedOf

/-- `(a *Actions) ReadFrom`, ofp/action.go:197-214. -/
def Actions.logged : Logged (List Action) :=
  .readFrom [.own (Enc.assign (fun _ => [])), .scanFrom actionMake Action.logged]

/-- `readInstructionActions`, ofp/instruction.go:224-244. -/
def instructionActionsLogged : Logged (List Action) :=
  .withLocal ((0, 0) : UInt16 × UInt16) <| .readFrom [
    .own (Enc.sub (fun s => s.2) (fun h s => (s.1, h)) instructionHeader.readFrom), .pad 4,
    .dyn (fun s => .limited (s.2.2 - 8).toNat
      (.sub (fun s => s.1) (fun as s => (as, s.2)) Actions.logged))]

/-- The `ReadFrom` methods of ofp/instruction.go:164-341. -/
def Instruction.logged : Logged Instruction := .dyn fun i =>
  match i with
  -- ofp/instruction.go:164-166
  | .gotoTable t => .wrap Instruction.gotoTable
      (.readFrom [.own skipInstructionHeader, .own (Enc.num (fun v _ => v)), .pad 3]) t
  -- ofp/instruction.go:198-201
  | .writeMetadata m k => .wrap (fun s : UInt64 × UInt64 => Instruction.writeMetadata s.1 s.2)
      (.readFrom [.own skipInstructionHeader, .pad 4, .own (Enc.num (fun v s => (v, s.2))),
        .own (Enc.num (fun v s => (s.1, v)))]) (m, k)
  -- ofp/instruction.go:292-294, 267-269
  | .writeActions as => .wrap Instruction.writeActions instructionActionsLogged as
  | .applyActions as => .wrap Instruction.applyActions instructionActionsLogged as
  -- ofp/instruction.go:314-316
  | .clearActions => .wrap (fun _ : Unit => Instruction.clearActions) (.readFrom [.pad 8]) ()
  -- ofp/instruction.go:339-341
  | .meter m => .wrap Instruction.meter
      (.readFrom [.own skipInstructionHeader, .own (Enc.num (fun v _ => v))]) m

/-- `(i *Instructions) ReadFrom`, ofp/instruction.go:123-138. -/
def Instructions.logged : Logged (List Instruction) :=
  .scanFrom instructionMake Instruction.logged

/-- `(f *FlowMod) ReadFrom`, ofp/flow.go:235-245. -/
def FlowMod.logged : Logged FlowMod :=
  .readFrom [
    .own (Enc.assign (fun s => { s with instructions := [] })),
    .own (Enc.num (fun v s => { s with cookie := v })),
    .own (Enc.num (fun v s => { s with cookieMask := v })),
    .own (Enc.num (fun v s => { s with table := v })),
    .own (Enc.num (fun v s => { s with command := v })),
    .own (Enc.num (fun v s => { s with idleTimeout := v })),
    .own (Enc.num (fun v s => { s with hardTimeout := v })),
    .own (Enc.num (fun v s => { s with priority := v })),
    .own (Enc.num (fun v s => { s with buffer := v })),
    .own (Enc.num (fun v s => { s with outPort := v })),
    .own (Enc.num (fun v s => { s with outGroup := v })),
    .own (Enc.num (fun v s => { s with flags := v })), .pad 2,
    .own (Enc.sub (fun s => s.mtch) (fun v s => { s with mtch := v }) Match.readFrom),
    .sub (fun s => s.instructions) (fun v s => { s with instructions := v }) Instructions.logged]

/-- `(f *FlowStats) ReadFrom`, ofp/flow.go:480-497. -/
def FlowStats.logged : Logged FlowStats :=
  .withLocal (0 : UInt16) <| .andThen (.readFrom [
    .own (Enc.num (fun v s => (s.1, v))),
    .own (Enc.num (fun v s => ({ s.1 with table := v }, s.2))), .pad 1,
    .own (Enc.num (fun v s => ({ s.1 with durationSec := v }, s.2))),
    .own (Enc.num (fun v s => ({ s.1 with durationNSec := v }, s.2))),
    .own (Enc.num (fun v s => ({ s.1 with priority := v }, s.2))),
    .own (Enc.num (fun v s => ({ s.1 with idleTimeout := v }, s.2))),
    .own (Enc.num (fun v s => ({ s.1 with hardTimeout := v }, s.2))),
    .own (Enc.num (fun v s => ({ s.1 with flags := v }, s.2))), .pad 4,
    .own (Enc.num (fun v s => ({ s.1 with cookie := v }, s.2))),
    .own (Enc.num (fun v s => ({ s.1 with packetCount := v }, s.2))),
    .own (Enc.num (fun v s => ({ s.1 with byteCount := v }, s.2))),
    .own (Enc.sub (fun s => s.1.mtch) (fun v s => ({ s.1 with mtch := v }, s.2)) Match.readFrom)])
    (fun n => .readFrom [
    .own (Enc.assign (fun s => ({ s.1 with instructions := [] }, s.2))),
    .dyn (fun s => .limited (s.2.toNat - n)
      (.sub (fun s => s.1.instructions) (fun v s => ({ s.1 with instructions := v }, s.2))
        Instructions.logged))])

/-- `(p *PacketOut) ReadFrom`, ofp/packet.go:171-191. -/
def PacketOut.logged : Logged PacketOut :=
  .withLocal (0 : UInt16) <| .readFrom [
    .own (Enc.num (fun v s => ({ s.1 with buffer := v }, s.2))),
    .own (Enc.num (fun v s => ({ s.1 with inPort := v }, s.2))),
    .own (Enc.num (fun v s => (s.1, v))), .pad 6,
    .own (Enc.assign (fun s => ({ s.1 with actions := [] }, s.2))),
    .dyn (fun s => .limited s.2.toNat
      (.sub (fun s => s.1.actions) (fun v s => ({ s.1 with actions := v }, s.2)) Actions.logged)),
    .own (Enc.rest (fun b s => ({ s.1 with data := b }, s.2)))]

/-- `(b *Bucket) ReadFrom`, ofp/group.go:166-181. -/
def Bucket.logged : Logged Bucket :=
  .withLocal (0 : UInt16) <| .readFrom [
    .own (Enc.num (fun v s => (s.1, v))),
    .own (Enc.num (fun v s => ({ s.1 with weight := v }, s.2))),
    .own (Enc.num (fun v s => ({ s.1 with watchPort := v }, s.2))),
    .own (Enc.num (fun v s => ({ s.1 with watchGroup := v }, s.2))), .pad 4,
    .own (Enc.assign (fun s => ({ s.1 with actions := [] }, s.2))),
    .dyn (fun s => .limited (s.2 - 16).toNat
      (.sub (fun s => s.1.actions) (fun v s => ({ s.1 with actions := v }, s.2)) Actions.logged))]

/-- `(g *GroupMod) ReadFrom`, ofp/group.go:108-118. -/
def GroupMod.logged : Logged GroupMod :=
  .readFrom [
    .own (Enc.num (fun v s => { s with command := v })),
    .own (Enc.num (fun v s => { s with type := v })), .pad 1,
    .own (Enc.num (fun v s => { s with group := v })),
    .sub (fun s => s.buckets) (fun v s => { s with buckets := v })
      (.readSliceFrom Bucket.zero Bucket.logged)]

/-- `(g *GroupStats) ReadFrom`, ofp/group.go:258-274. -/
def GroupStats.logged : Logged GroupStats :=
  .withLocal (0 : UInt16) <| .readFrom [
    .own (Enc.num (fun v s => (s.1, v))), .pad 2,
    .own (Enc.num (fun v s => ({ s.1 with group := v }, s.2))),
    .own (Enc.num (fun v s => ({ s.1 with refCount := v }, s.2))), .pad 4,
    .own (Enc.num (fun v s => ({ s.1 with packetCount := v }, s.2))),
    .own (Enc.num (fun v s => ({ s.1 with byteCount := v }, s.2))),
    .own (Enc.num (fun v s => ({ s.1 with durationSec := v }, s.2))),
    .own (Enc.num (fun v s => ({ s.1 with durationNSec := v }, s.2))),
    .own (Enc.dyn (fun s => Enc.limited (s.2 - 40).toNat
      (Enc.sub (fun s => s.1.bucketStats) (fun v s => ({ s.1 with bucketStats := v }, s.2))
        (Enc.readSliceFrom ⟨0, 0⟩ BucketCounter.readFrom))))]

/-- `(g *GroupDescStats) ReadFrom`, ofp/group.go:337-350. -/
def GroupDescStats.logged : Logged GroupDescStats :=
  .withLocal (0 : UInt16) <| .readFrom [
    .ignoreErr (.readFrom [
    .own (Enc.num (fun v s => (s.1, v))), .own (Enc.num (fun v s => ({ s.1 with type := v }, s.2))),
    .pad 1, .own (Enc.num (fun v s => ({ s.1 with group := v }, s.2)))]),
    .dyn (fun s => .limited (s.2 - 8).toNat
      (.sub (fun s => s.1.buckets) (fun v s => ({ s.1 with buckets := v }, s.2))
        (.readSliceFrom Bucket.zero Bucket.logged)))]

/-- The `ReadFrom` methods of the bands, ofp/meter.go:165-237; the header goes to a temporary
(`&meterBand{}`). -/
def MeterBand.logged : Logged MeterBand := .dyn fun b =>
  match b with
  -- ofp/meter.go:165-168
  | .drop r0 u0 => .wrap (fun s : UInt32 × UInt32 => MeterBand.drop s.1 s.2)
      (.readFrom [.own (Enc.skip 4), .own (Enc.num (fun v s => (v, s.2))),
        .own (Enc.num (fun v s => (s.1, v))), .pad 4]) (r0, u0)
  -- ofp/meter.go:201-204
  | .dscpRemark r0 u0 p0 =>
      .wrap (fun s : UInt32 × UInt32 × UInt8 => MeterBand.dscpRemark s.1 s.2.1 s.2.2)
      (.readFrom [.own (Enc.skip 4), .own (Enc.num (fun v s => (v, s.2))),
        .own (Enc.num (fun v s => (s.1, v, s.2.2))), .own (Enc.num (fun v s => (s.1, s.2.1, v))),
        .pad 3]) (r0, u0, p0)
  -- ofp/meter.go:234-237
  | .experimenter r0 u0 e0 =>
      .wrap (fun s : UInt32 × UInt32 × UInt32 => MeterBand.experimenter s.1 s.2.1 s.2.2)
      (.readFrom [.own (Enc.skip 4), .own (Enc.num (fun v s => (v, s.2))),
        .own (Enc.num (fun v s => (s.1, v, s.2.2))), .own (Enc.num (fun v s => (s.1, s.2.1, v)))])
      (r0, u0, e0)

/-- `(m MeterBands) ReadFrom`, ofp/meter.go:121-138. -/
def MeterBands.logged : Logged (List MeterBand) :=
  .subVal id (.scanFrom meterBandMake MeterBand.logged)

/-- `(m *MeterMod) ReadFrom`, ofp/meter.go:283-285. -/
def MeterMod.logged : Logged MeterMod :=
  .readFrom [
    .own (Enc.num (fun v s => { s with command := v })),
    .own (Enc.num (fun v s => { s with flags := v })),
    .own (Enc.num (fun v s => { s with meter := v })),
    .sub (fun s => s.bands) (fun v s => { s with bands := v }) MeterBands.logged]

/-- `(m *MeterConfig) ReadFrom`, ofp/meter.go:340-354. -/
def MeterConfig.logged : Logged MeterConfig :=
  .withLocal (0 : UInt16) <| .readFrom [
    .own (Enc.num (fun v s => (s.1, v))),
    .own (Enc.num (fun v s => ({ s.1 with flags := v }, s.2))),
    .own (Enc.num (fun v s => ({ s.1 with meter := v }, s.2))),
    .dyn (fun s => .limited (s.2 - 8).toNat
      (.sub (fun s => s.1.bands) (fun v s => ({ s.1 with bands := v }, s.2)) MeterBands.logged))]

/-- The header of `(m *MeterStats) ReadFrom`, ofp/meter.go:492-494. -/
def MeterStats.headerLogged : Logged (MeterStats × UInt16) :=
  .readFrom [
    .own (Enc.num (fun v s => ({ s.1 with meter := v }, s.2))),
    .own (Enc.num (fun v s => (s.1, v))), .pad 6,
    .own (Enc.num (fun v s => ({ s.1 with flowCount := v }, s.2))),
    .own (Enc.num (fun v s => ({ s.1 with packetInCount := v }, s.2))),
    .own (Enc.num (fun v s => ({ s.1 with byteInCount := v }, s.2))),
    .own (Enc.num (fun v s => ({ s.1 with durationSec := v }, s.2))),
    .own (Enc.num (fun v s => ({ s.1 with durationNSec := v }, s.2)))]

/-- `(m *MeterStats) ReadFrom`, ofp/meter.go:487-501. -/
def MeterStats.logged : Logged MeterStats :=
  .withLocal (0 : UInt16) <| .readFrom [
    .ignoreErr MeterStats.headerLogged,
    .own (Enc.dyn (fun s => Enc.limited (s.2 - 40).toNat
      (Enc.sub (fun s => s.1.bandStats) (fun v s => ({ s.1 with bandStats := v }, s.2))
        (Enc.readSliceFrom ⟨0, 0⟩ MeterBandStats.readFrom))))]

/-- `ReadFrom` of `QueuePropMinRate` and `QueuePropMaxRate`, ofp/queue.go:181-183, 207-209. -/
def QueueProp.rateLogged : Logged UInt16 :=
  .readFrom [
    .pad 8, .own (Enc.num (fun v _ => v)), .pad 6]

/-- `(q *QueuePropExperimenter) ReadFrom`, ofp/queue.go:236-248. -/
def QueueProp.experimenterLogged : Logged (UInt32 × Bytes) :=
  .withLocal (0 : UInt16) <| .readFrom [
    .own (Enc.bin 4 (fun b s => (s.1, ofBE UInt16 (b.drop 2)))), .pad 4,
    .own (Enc.num (fun v s => ((v, s.1.2), s.2))), .pad 4,
    .own (Enc.dyn (fun s => Enc.limited (s.2 - 16).toNat (Enc.rest (fun b s => ((s.1.1, b), s.2)))))]

/-- The `ReadFrom` methods of the properties, ofp/queue.go:181-248. -/
def QueueProp.logged : Logged QueueProp := .dyn fun q =>
  match q with
  | .minRate x => .wrap .minRate QueueProp.rateLogged x
  | .maxRate x => .wrap .maxRate QueueProp.rateLogged x
  | .experimenter e d => .wrap (fun s => .experimenter s.1 s.2) QueueProp.experimenterLogged (e, d)

/-- `(q QueueProps) ReadFrom`, ofp/queue.go:72-88. -/
def QueueProps.logged : Logged (List QueueProp) :=
  .subVal id (.scanFrom queuePropMake QueueProp.logged)

/-- `(q *PacketQueue) ReadFrom`, ofp/queue.go:126-138. -/
def PacketQueue.logged : Logged PacketQueue :=
  .withLocal (0 : UInt16) <| .readFrom [
    .own (Enc.num (fun v s => ({ s.1 with queue := v }, s.2))),
    .own (Enc.num (fun v s => ({ s.1 with port := v }, s.2))), .own (Enc.num (fun v s => (s.1, v))),
    .pad 6,
    .dyn (fun s => .limited (s.2 - 16).toNat
      (.sub (fun s => s.1.properties) (fun v s => ({ s.1 with properties := v }, s.2))
        QueueProps.logged))]

/-- `(q *QueueGetConfigReply) ReadFrom`, ofp/queue.go:367-380. -/
def QueueGetConfigReply.logged : Logged QueueGetConfigReply :=
  .readFrom [
    .own (Enc.num (fun v s => { s with port := v })), .pad 4,
    .sub (fun s => s.queues) (fun v s => { s with queues := v })
      (.readSliceFrom PacketQueue.zero PacketQueue.logged)]

/-- `(t *TableFeatures) ReadFrom`, ofp/table.go:159-191.  The padding of the properties has memory
of its own (`makePad`, ofp/table.go:380, 420, 494, 543, 787). -/
def TableFeatures.logged : Logged TableFeatures :=
  .withLocal ((zeros 32, 0) : Bytes × UInt16) <| .readFrom [
    .own (Enc.num (fun v s => (s.1, s.2.1, v))),
    .own (Enc.num (fun v s => ({ s.1 with table := v }, s.2))), .pad 5,
    .own (Enc.bin 32 (fun b s => (s.1, b, s.2.2))),
    .own (Enc.num (fun v s => ({ s.1 with metadataMatch := v }, s.2))),
    .own (Enc.num (fun v s => ({ s.1 with metadataWrite := v }, s.2))),
    .own (Enc.num (fun v s => ({ s.1 with config := v }, s.2))),
    .own (Enc.num (fun v s => ({ s.1 with maxEntries := v }, s.2))),
    .own (Enc.assign (fun s => ({ s.1 with name := s.2.1, properties := [] }, s.2))),
    .own (Enc.dyn (fun s => Enc.limited (s.2.2.toNat - 64)
      (Enc.sub (fun s => s.1.properties) (fun v s => ({ s.1 with properties := v }, s.2))
        (Enc.scanFrom tablePropMake TableProp.readFrom))))]

/-- `(p *Ports) ReadFrom`, ofp/port.go:325-342: the stores of every port, up to and including the
first that fails. -/
def Ports.logged : Logged (List Port) :=
  ⟨Ports.readFrom, fun _ r => Logged.readFuncLog Port.zero Port.logged (r.content.length + 1) r⟩

/-! ## Helper lemmas -/

namespace Logged

variable {σ τ : Type}

theorem Stores.dyn {f : σ → Logged σ} {k : Nat} (h : ∀ s, Stores (f s) k) : Stores (Logged.dyn f) k :=
  fun s r hs => h s s r hs

theorem Stores.limited {n : Nat} {a : Logged σ} {k : Nat} (h : Stores a k) :
    Stores (Logged.limited n a) k := fun s r hs => h s (.lim n r) hs

theorem Stores.andThen {a : Logged σ} {f : Nat → Logged σ} {k : Nat} (h : Stores a k) :
    Stores (Logged.andThen a f) k := by
  intro s r hs
  refine List.mem_append_left _ (h s r ?_)
  simp only [Logged.andThen, Enc.andThen] at hs
  rcases hf : a.step s r with ⟨v, n, e, r'⟩
  rw [hf] at hs
  cases e with
  | none => rfl
  | some e => simp at hs

theorem Stores.wrap {f : τ → σ} {a : Logged τ} {t : τ} {k : Nat} (h : Stores a k) :
    Stores (Logged.wrap f a t) k := fun _ r hs => h t r hs

theorem Within.dyn {f : σ → Logged σ} {ks : List Nat} (h : ∀ s, Within (f s) ks) :
    Within (Logged.dyn f) ks := fun s r k hk => h s s r k hk

theorem Within.limited {n : Nat} {a : Logged σ} {ks : List Nat} (h : Within a ks) :
    Within (Logged.limited n a) ks := fun s r k hk => h s (.lim n r) k hk

theorem Within.subVal {get : σ → τ} {a : Logged τ} {ks : List Nat} (h : Within a ks) :
    Within (Logged.subVal get a) ks := fun s r k hk => h (get s) r k hk

theorem Within.ignoreErr {a : Logged σ} {ks : List Nat} (h : Within a ks) :
    Within (Logged.ignoreErr a) ks := fun s r k hk => h s r k hk

theorem Within.andThen {a : Logged σ} {f : Nat → Logged σ} {ks : List Nat} (h : Within a ks)
    (hf : ∀ n, Within (f n) ks) : Within (Logged.andThen a f) ks := by
  intro s r k hk
  rcases List.mem_append.mp hk with hk | hk
  · exact h s r k hk
  · split at hk
    · simp at hk
    · exact hf _ _ _ k hk

theorem Within.wrap {f : τ → σ} {a : Logged τ} {t : τ} {ks : List Nat} (h : Within a ks) :
    Within (Logged.wrap f a t) ks := fun _ r k hk => h t r k hk

theorem Within.readSliceFrom {zero : τ} {a : Logged τ} {ks : List Nat} (h : Within a ks) :
    Within (Logged.readSliceFrom zero a) ks := by
  have key : ∀ fuel r, ∀ k ∈ readFuncLog zero a fuel r, k ∈ ks := by
    intro fuel
    induction fuel with
    | zero => intro r k hk; simp [readFuncLog] at hk
    | succ fuel ih =>
      intro r k hk
      rcases List.mem_append.mp hk with hk | hk
      · exact h _ _ k hk
      · split at hk
        · simp at hk
        · exact ih _ k hk
  exact fun _ r k hk => key _ _ k hk

theorem Within.scanFrom {mk : UInt16 → Except Err τ} {a : Logged τ} {ks : List Nat} (h : Within a ks) :
    Within (Logged.scanFrom mk a) ks := by
  have key : ∀ fuel r, ∀ k ∈ scanLog mk a fuel r, k ∈ ks := by
    intro fuel
    induction fuel with
    | zero => intro r k hk; simp [scanLog] at hk
    | succ fuel ih =>
      intro r k hk
      rw [scanLog] at hk
      split at hk
      · simp at hk
      · split at hk
        · simp at hk
        · rcases List.mem_append.mp hk with hk | hk
          · exact h _ _ k hk
          · split at hk
            · simp at hk
            · exact ih _ k hk
  exact fun _ r k hk => key _ _ k hk

/-! The decoder behind each combinator. -/

theorem step_own (st : Step σ) : (Logged.own st).step = st := rfl
theorem step_pad (k : Nat) : (Logged.pad k : Logged σ).step = Enc.skip k := rfl
theorem step_readFrom (l : List (Logged σ)) :
    (Logged.readFrom l).step = Enc.readFrom (l.map Logged.step) := rfl
theorem step_sub (get : σ → τ) (set : τ → σ → σ) (a : Logged τ) :
    (Logged.sub get set a).step = Enc.sub get set a.step := rfl
theorem step_subVal (get : σ → τ) (a : Logged τ) :
    (Logged.subVal get a).step = Enc.subVal get a.step := rfl
theorem step_withLocal {l : Type} (init : l) (a : Logged (σ × l)) :
    (Logged.withLocal init a).step = Enc.withLocal init a.step := rfl
theorem step_dyn (f : σ → Logged σ) : (Logged.dyn f).step = Enc.dyn (fun s => (f s).step) := rfl
theorem step_limited (n : Nat) (a : Logged σ) : (Logged.limited n a).step = Enc.limited n a.step := rfl
theorem step_ignoreErr (a : Logged σ) : (Logged.ignoreErr a).step = Enc.ignoreErr a.step := rfl
theorem step_andThen (a : Logged σ) (f : Nat → Logged σ) :
    (Logged.andThen a f).step = Enc.andThen a.step (fun n => (f n).step) := rfl
theorem step_readSliceFrom (zero : τ) (a : Logged τ) :
    (Logged.readSliceFrom zero a).step = Enc.readSliceFrom zero a.step := rfl
theorem step_scanFrom (mk : UInt16 → Except Err τ) (a : Logged τ) :
    (Logged.scanFrom mk a).step = Enc.scanFrom mk a.step := rfl

/-- A call that succeeds stores to exactly `ks`, in this order. -/
def Exact (a : Logged σ) (ks : List Nat) : Prop := ∀ s r, (a.step s r).err = none → a.log s r = ks

theorem Exact.own {st : Step σ} : Exact (Logged.own st) [] := fun _ _ _ => rfl

theorem Exact.pad {k : Nat} : Exact (Logged.pad k : Logged σ) [k] := by
  intro s r h
  simp only [Logged.pad, Enc.skip, Enc.bin] at h ⊢
  rcases hf : readFull k r with ⟨o, e, r'⟩
  rw [hf] at h
  cases e with
  | none => rfl
  | some e => simp at h

theorem Exact.nil : Exact (Logged.readFrom ([] : List (Logged σ))) [] := fun _ _ _ => rfl

theorem Exact.cons {a : Logged σ} {l : List (Logged σ)} {ks js : List Nat} (ha : Exact a ks)
    (hl : Exact (Logged.readFrom l) js) : Exact (Logged.readFrom (a :: l)) (ks ++ js) := by
  intro s r h
  simp only [Logged.readFrom, List.map_cons, Enc.readFrom, readFromLog] at h ⊢
  have h1 := ha s r
  rcases hf : a.step s r with ⟨v, n, e, r'⟩
  rw [hf] at h h1
  cases e with
  | none => rw [h1 rfl]; exact congrArg (ks ++ ·) (hl v r' h)
  | some e => simp at h

theorem Exact.wrap {f : τ → σ} {a : Logged τ} {t : τ} {ks : List Nat} (h : Exact a ks) :
    Exact (Logged.wrap f a t) ks := fun _ r hs => h t r hs

theorem Exact.withLocal {l : Type} {init : l} {a : Logged (σ × l)} {ks : List Nat} (h : Exact a ks) :
    Exact (Logged.withLocal init a) ks := fun s r hs => h (s, init) r hs

theorem Exact.dyn {f : σ → Logged σ} {g : σ → List Nat} (h : ∀ s, Exact (f s) (g s)) (s : σ) (r : Rd)
    (hs : ((Logged.dyn f).step s r).err = none) : (Logged.dyn f).log s r = g s := h s s r hs

/-- A call that succeeds stores to `ks`, in this order, and then to others. -/
def Begins (a : Logged σ) (ks : List Nat) : Prop := ∀ s r, (a.step s r).err = none → ks <+: a.log s r

theorem Begins.nil {a : Logged σ} : Begins a [] := fun _ _ _ => List.nil_prefix

theorem Begins.cons {a : Logged σ} {l : List (Logged σ)} {ks js : List Nat} (ha : Exact a ks)
    (hl : Begins (Logged.readFrom l) js) : Begins (Logged.readFrom (a :: l)) (ks ++ js) := by
  intro s r h
  simp only [Logged.readFrom, List.map_cons, Enc.readFrom, readFromLog] at h ⊢
  have h1 := ha s r
  rcases hf : a.step s r with ⟨v, n, e, r'⟩
  rw [hf] at h h1
  cases e with
  | none => rw [h1 rfl]; exact (List.prefix_append_right_inj ks).mpr (hl v r' h)
  | some e => simp at h

theorem Begins.withLocal {l : Type} {init : l} {a : Logged (σ × l)} {ks : List Nat} (h : Begins a ks) :
    Begins (Logged.withLocal init a) ks := fun s r hs => h (s, init) r hs

theorem Begins.wrap {f : τ → σ} {a : Logged τ} {t : τ} {ks : List Nat} (h : Begins a ks) :
    Begins (Logged.wrap f a t) ks := fun _ r hs => h t r hs

theorem Begins.dyn {f : σ → Logged σ} {g : σ → List Nat} (h : ∀ s, Begins (f s) (g s)) (s : σ) (r : Rd)
    (hs : ((Logged.dyn f).step s r).err = none) : g s <+: (Logged.dyn f).log s r := h s s r hs

theorem Begins.andThen {a : Logged σ} {f : Nat → Logged σ} {ks : List Nat} (h : Exact a ks) :
    Begins (Logged.andThen a f) ks := by
  intro s r hs
  simp only [Logged.andThen, Enc.andThen] at hs ⊢
  have h1 := h s r
  rcases hf : a.step s r with ⟨v, n, e, r'⟩
  rw [hf] at hs h1
  cases e with
  | none => rw [h1 rfl]; exact List.prefix_append _ _
  | some e => simp at hs

theorem Exact.begins {a : Logged σ} {ks : List Nat} (h : Exact a ks) : Begins a ks :=
  fun s r hs => by rw [h s r hs]; exact List.prefix_refl _

theorem Exact.stores {a : Logged σ} {ks : List Nat} {k : Nat} (h : Exact a ks) (hk : k ∈ ks) :
    Stores a k := fun s r hs => by rw [h s r hs]; exact hk

end Logged

/-- A decoder of a message type, the padding variables that it stores to whenever it succeeds, and
those that it stores to at all. -/
structure PadRow where
  σ : Type
  dec : Logged σ
  always : List Nat
  may : List Nat

/-- Goes through the arguments of a decoder with lists inside. -/
macro "withinAll" : tactic => `(tactic|
  repeat' first
    | with_reducible assumption
    | with_reducible exact Logged.Within.nil
    | with_reducible exact Logged.Within.own
    | with_reducible exact Logged.Within.pad (by decide)
    | with_reducible apply Logged.Within.cons
    | with_reducible apply Logged.Within.sub
    | with_reducible apply Logged.Within.subVal
    | with_reducible apply Logged.Within.withLocal
    | with_reducible apply Logged.Within.always
    | with_reducible apply Logged.Within.limited
    | with_reducible apply Logged.Within.ignoreErr
    | with_reducible apply Logged.Within.andThen
    | with_reducible apply Logged.Within.wrap
    | with_reducible apply Logged.Within.readSliceFrom
    | with_reducible apply Logged.Within.scanFrom
    | (with_reducible apply Logged.Within.dyn; intro _)
    | intro _)

/-- Takes the decoder out of a pair. -/
macro "steps" : tactic => `(tactic|
  simp only [Logged.step_own, Logged.step_pad, Logged.step_readFrom, Logged.step_sub,
    Logged.step_subVal, Logged.step_withLocal, Logged.step_dyn, Logged.step_limited,
    Logged.step_ignoreErr, Logged.step_andThen, Logged.step_readSliceFrom, Logged.step_scanFrom,
    List.map_cons, List.map_nil])

end Verif
