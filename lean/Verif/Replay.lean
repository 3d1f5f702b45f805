import Verif.Ofp.Table
import Verif.Ofp.Queue
import Verif.Ofp.Hello
import Verif.Ofp.Group
import Verif.Ofp.Meter
import Verif.Ofp.Flow
import Verif.Ofp.Packet
import Verif.Ofp.Port
import Verif.Ofp.Fixed
import Verif.Ofp.Raw

/-!
# The test vectors of the repository, replayed on the model

These are tests of the transcription, not properties: each `example` is one entry of the
tables passed to `encodingtest.RunMU` in ofp/*_test.go, and checks what `RunMU` checks
(internal/encodingtest/runner.go:18-110), on the same receiver: `RunMU` decodes into the value
that was just encoded, which is why the tests of the repository do not notice the lists that
decoding loses.
-/

namespace Verif.Replay

/-- `RunMU`, internal/encodingtest/runner.go:18-110. -/
def runMU {σ : Type} [DecidableEq σ] (write : σ → Wr) (read : Step σ) (x : σ) (bs : Bytes) : Bool :=
  let w := write x
  let o := read x (.src bs [] .eof false)
  w.out == bs && w.n == bs.length && w.err == none && o.val == x && o.n == bs.length && o.err == none

/-- `TestActionCopyTTLInOut`, ofp/action_test.go -/
example : runMU Action.writeTo Action.readFrom
    (.copyTTLOut : Action)
    [0, 11, 0, 8, 0, 0, 0, 0] = true := by decide +kernel

/-- `TestActionCopyTTLInOut`, ofp/action_test.go -/
example : runMU Action.writeTo Action.readFrom
    (.copyTTLIn : Action)
    [0, 12, 0, 8, 0, 0, 0, 0] = true := by decide +kernel

/-- `TestActionOutput`, ofp/action_test.go -/
example : runMU Action.writeTo Action.readFrom
    (.output 0xfffffff8 0 : Action)
    [0, 0, 0, 16, 255, 255, 255, 248, 0, 0, 0, 0, 0, 0, 0, 0] = true := by decide +kernel

/-- `TestActionOutput`, ofp/action_test.go -/
example : runMU Action.writeTo Action.readFrom
    (.output 0xfffffffb 0 : Action)
    [0, 0, 0, 16, 255, 255, 255, 251, 0, 0, 0, 0, 0, 0, 0, 0] = true := by decide +kernel

/-- `TestActionOutput`, ofp/action_test.go -/
example : runMU Action.writeTo Action.readFrom
    (.output 0xfffffffd 0x80 : Action)
    [0, 0, 0, 16, 255, 255, 255, 253, 0, 128, 0, 0, 0, 0, 0, 0] = true := by decide +kernel

/-- `TestActionGroup`, ofp/action_test.go -/
example : runMU Action.writeTo Action.readFrom
    (.group 0xffffff00 : Action)
    [0, 22, 0, 8, 255, 255, 255, 0] = true := by decide +kernel

/-- `TestActionGroup`, ofp/action_test.go -/
example : runMU Action.writeTo Action.readFrom
    (.group 0xfffffffc : Action)
    [0, 22, 0, 8, 255, 255, 255, 252] = true := by decide +kernel

/-- `TestActionGroup`, ofp/action_test.go -/
example : runMU Action.writeTo Action.readFrom
    (.group 0xffffffff : Action)
    [0, 22, 0, 8, 255, 255, 255, 255] = true := by decide +kernel

/-- `TestActionSetQueue`, ofp/action_test.go -/
example : runMU Action.writeTo Action.readFrom
    (.setQueue 0xffffffff : Action)
    [0, 21, 0, 8, 255, 255, 255, 255] = true := by decide +kernel

/-- `TestActionSetQueue`, ofp/action_test.go -/
example : runMU Action.writeTo Action.readFrom
    (.setQueue 0x4200 : Action)
    [0, 21, 0, 8, 0, 0, 66, 0] = true := by decide +kernel

/-- `TestActionMPLSTTL`, ofp/action_test.go -/
example : runMU Action.writeTo Action.readFrom
    (.setMPLSTTL 64 : Action)
    [0, 15, 0, 8, 64, 0, 0, 0] = true := by decide +kernel

/-- `TestActionMPLSTTL`, ofp/action_test.go -/
example : runMU Action.writeTo Action.readFrom
    (.setMPLSTTL 32 : Action)
    [0, 15, 0, 8, 32, 0, 0, 0] = true := by decide +kernel

/-- `TestActionSetNetworkTTL`, ofp/action_test.go -/
example : runMU Action.writeTo Action.readFrom
    (.setNwTTL 48 : Action)
    [0, 23, 0, 8, 48, 0, 0, 0] = true := by decide +kernel

/-- `TestActionPushPopVLAN`, ofp/action_test.go -/
example : runMU Action.writeTo Action.readFrom
    (.pushVLAN 1000 : Action)
    [0, 17, 0, 8, 3, 232, 0, 0] = true := by decide +kernel

/-- `TestActionPushPopVLAN`, ofp/action_test.go -/
example : runMU Action.writeTo Action.readFrom
    (.popVLAN : Action)
    [0, 18, 0, 8, 0, 0, 0, 0] = true := by decide +kernel

/-- `TestActionPopMPLS`, ofp/action_test.go -/
example : runMU Action.writeTo Action.readFrom
    (.popMPLS 1001 : Action)
    [0, 20, 0, 8, 3, 233, 0, 0] = true := by decide +kernel

/-- `TestActionPopMPLS`, ofp/action_test.go -/
example : runMU Action.writeTo Action.readFrom
    (.popMPLS 9 : Action)
    [0, 20, 0, 8, 0, 9, 0, 0] = true := by decide +kernel

/-- `TestActionSetField`, ofp/action_test.go -/
example : runMU Action.writeTo Action.readFrom
    (.setField ⟨0x8000, 0, [0, 1], [0, 0xff]⟩ : Action)
    [0, 25, 0, 16, 128, 0, 1, 4, 0, 1, 0, 255, 0, 0, 0, 0] = true := by decide +kernel

/-- `TestActionSetField`, ofp/action_test.go -/
example : runMU Action.writeTo Action.readFrom
    (.setField ⟨0x8000, 11, [172, 17, 0, 25], []⟩ : Action)
    [0, 25, 0, 16, 128, 0, 22, 4, 172, 17, 0, 25, 0, 0, 0, 0] = true := by decide +kernel

/-- `TestActionExperimenter`, ofp/action_test.go -/
example : runMU Action.writeTo Action.readFrom
    (.experimenter 41 : Action)
    [255, 255, 0, 8, 0, 0, 0, 41] = true := by decide +kernel

/-- `TestActionExperimenter`, ofp/action_test.go -/
example : runMU Action.writeTo Action.readFrom
    (.experimenter 42 : Action)
    [255, 255, 0, 8, 0, 0, 0, 42] = true := by decide +kernel

/-- `TestInstructionGotoTable`, ofp/instruction_test.go -/
example : runMU Instruction.writeTo Instruction.readFrom
    (.gotoTable 15 : Instruction)
    [0, 1, 0, 8, 15, 0, 0, 0] = true := by decide +kernel

/-- `TestIntructionWriteMetadata`, ofp/instruction_test.go -/
example : runMU Instruction.writeTo Instruction.readFrom
    (.writeMetadata 0x5091aedc9697445e 0x3ec894d841073494 : Instruction)
    [0, 2, 0, 24, 0, 0, 0, 0, 80, 145, 174, 220, 150, 151, 68, 94, 62, 200, 148, 216, 65, 7, 52,
     148] = true := by decide +kernel

/-- `TestInstructionApplyActions`, ofp/instruction_test.go -/
example : runMU Instruction.writeTo Instruction.readFrom
    (.applyActions [.group 0xfffffffc, .copyTTLOut] : Instruction)
    [0, 4, 0, 24, 0, 0, 0, 0, 0, 22, 0, 8, 255, 255, 255, 252, 0, 11, 0, 8, 0, 0, 0, 0] = true := by decide +kernel

/-- `TestIntructionMeter`, ofp/instruction_test.go -/
example : runMU Instruction.writeTo Instruction.readFrom
    (.meter 0x6bb97a25 : Instruction)
    [0, 6, 0, 8, 107, 185, 122, 37] = true := by decide +kernel

/-- `TestAggregateStatsRequest`, ofp/aggregate_test.go -/
example : runMU AggregateStatsRequest.writeTo AggregateStatsRequest.readFrom
    (⟨0xfe, 0xfffffffa, 0xfffffffc, 0xaabbccdd, 0xff00ff00, ⟨1, [⟨0x8000, 0, [0, 0, 0, 3],
      []⟩]⟩⟩ : AggregateStatsRequest)
    [254, 0, 0, 0, 255, 255, 255, 250, 255, 255, 255, 252, 0, 0, 0, 0, 0, 0, 0, 0, 170, 187,
     204, 221, 0, 0, 0, 0, 255, 0, 255, 0, 0, 1, 0, 12, 128, 0, 0, 4, 0, 0, 0, 3, 0, 0, 0, 0] = true := by decide +kernel

/-- `TestAggregateStats`, ofp/aggregate_test.go -/
example : runMU AggregateStats.writeTo AggregateStats.readFrom
    (⟨0x0906caed7a9289a1, 0x202bba4297c31ce6, 0xcd348340⟩ : AggregateStats)
    [9, 6, 202, 237, 122, 146, 137, 161, 32, 43, 186, 66, 151, 195, 28, 230, 205, 52, 131, 64,
     0, 0, 0, 0] = true := by decide +kernel

/-- `TestEchoRequest`, ofp/echo_test.go -/
example : runMU EchoRequest.writeTo EchoRequest.readFrom
    (⟨[0, 1, 2, 3]⟩ : EchoRequest)
    [0, 1, 2, 3] = true := by decide +kernel

/-- `TestEchoReply`, ofp/echo_test.go -/
example : runMU EchoReply.writeTo EchoReply.readFrom
    (⟨[0, 1, 2, 3]⟩ : EchoReply)
    [0, 1, 2, 3] = true := by decide +kernel

/-- `TestError`, ofp/error_test.go -/
example : runMU OfpError.writeTo OfpError.readFrom
    (⟨7, 0, [0, 1, 2, 3]⟩ : OfpError)
    [0, 7, 0, 0, 0, 1, 2, 3] = true := by decide +kernel

/-- `TestErrorExperimenterMsg`, ofp/error_test.go -/
example : runMU ErrorExperimenter.writeTo ErrorExperimenter.readFrom
    (⟨4, 42, [3, 2, 1, 0]⟩ : ErrorExperimenter)
    [255, 255, 0, 4, 0, 0, 0, 42, 3, 2, 1, 0] = true := by decide +kernel

/-- `TestFlowMod`, ofp/flow_test.go -/
example : runMU FlowMod.writeTo FlowMod.readFrom
    (⟨0xdbf7525e57bd7eef, 0x44d8b8f011090dcb, 0xfe, 0, 45, 90, 10, 0xffffffff, 0xfffffffb,
      0xffffffff, 3, ⟨1, [⟨0x8000, 0, [0, 0, 0, 3], []⟩]⟩, [.clearActions]⟩ : FlowMod)
    [219, 247, 82, 94, 87, 189, 126, 239, 68, 216, 184, 240, 17, 9, 13, 203, 254, 0, 0, 45, 0,
     90, 0, 10, 255, 255, 255, 255, 255, 255, 255, 251, 255, 255, 255, 255, 0, 3, 0, 0, 0, 1, 0,
     12, 128, 0, 0, 4, 0, 0, 0, 3, 0, 0, 0, 0, 0, 5, 0, 8, 0, 0, 0, 0] = true := by decide +kernel

/-- `TestFlowRemoved`, ofp/flow_test.go -/
example : runMU FlowRemoved.writeTo FlowRemoved.readFrom
    (⟨0xf22884334a8def04, 11, 1, 0xfe, 929584189, 1244051003, 46, 91, 8005984375916722949,
      3104105491404993109, ⟨1, [⟨0x8000, 0, [0, 0, 0, 3], []⟩]⟩⟩ : FlowRemoved)
    [242, 40, 132, 51, 74, 141, 239, 4, 0, 11, 1, 254, 55, 104, 84, 61, 74, 38, 182, 59, 0, 46,
     0, 91, 111, 26, 248, 95, 83, 215, 251, 5, 43, 19, 255, 127, 136, 136, 178, 85, 0, 1, 0, 12,
     128, 0, 0, 4, 0, 0, 0, 3, 0, 0, 0, 0] = true := by decide +kernel

/-- `TestFlowStatsRequest`, ofp/flow_test.go -/
example : runMU FlowStatsRequest.writeTo FlowStatsRequest.readFrom
    (⟨0xfe, 0xfffffffb, 0xffffffff, 0xdbf7525e57bd7eef, 0x44d8b8f011090dcb, ⟨1, [⟨0x8000, 0, [0,
      0, 0, 2], []⟩]⟩⟩ : FlowStatsRequest)
    [254, 0, 0, 0, 255, 255, 255, 251, 255, 255, 255, 255, 0, 0, 0, 0, 219, 247, 82, 94, 87,
     189, 126, 239, 68, 216, 184, 240, 17, 9, 13, 203, 0, 1, 0, 12, 128, 0, 0, 4, 0, 0, 0, 2, 0,
     0, 0, 0] = true := by decide +kernel

/-- `TestFlowStats`, ofp/flow_test.go -/
example : runMU FlowStats.writeTo FlowStats.readFrom
    (⟨23, 929584189, 1244051003, 13, 47, 92, 3, 0xf22884334a8def04, 8005984375916722949,
      3104105491404993109, ⟨1, [⟨0x8000, 0, [0, 0, 0, 3], []⟩]⟩, [.clearActions]⟩ : FlowStats)
    [0, 72, 23, 0, 55, 104, 84, 61, 74, 38, 182, 59, 0, 13, 0, 47, 0, 92, 0, 3, 0, 0, 0, 0, 242,
     40, 132, 51, 74, 141, 239, 4, 111, 26, 248, 95, 83, 215, 251, 5, 43, 19, 255, 127, 136,
     136, 178, 85, 0, 1, 0, 12, 128, 0, 0, 4, 0, 0, 0, 3, 0, 0, 0, 0, 0, 5, 0, 8, 0, 0, 0, 0] = true := by decide +kernel

/-- `TestBucket`, ofp/group_test.go -/
example : runMU Bucket.writeTo Bucket.readFrom
    (⟨42, 5, 7, [.copyTTLIn, .output 3 65535]⟩ : Bucket)
    [0, 40, 0, 42, 0, 0, 0, 5, 0, 0, 0, 7, 0, 0, 0, 0, 0, 12, 0, 8, 0, 0, 0, 0, 0, 0, 0, 16, 0,
     0, 0, 3, 255, 255, 0, 0, 0, 0, 0, 0] = true := by decide +kernel

/-- `TestGroupMod`, ofp/group_test.go -/
example : runMU GroupMod.writeTo GroupMod.readFrom
    (⟨1, 2, 3, [⟨10, 2, 5, [.copyTTLIn]⟩, ⟨20, 3, 6, [.copyTTLOut]⟩]⟩ : GroupMod)
    [0, 1, 2, 0, 0, 0, 0, 3, 0, 24, 0, 10, 0, 0, 0, 2, 0, 0, 0, 5, 0, 0, 0, 0, 0, 12, 0, 8, 0,
     0, 0, 0, 0, 24, 0, 20, 0, 0, 0, 3, 0, 0, 0, 6, 0, 0, 0, 0, 0, 11, 0, 8, 0, 0, 0, 0] = true := by decide +kernel

/-- `TestBucketCounter`, ofp/group_test.go -/
example : runMU BucketCounter.writeTo BucketCounter.readFrom
    (⟨10838451347809794865, 9634678394999596076⟩ : BucketCounter)
    [150, 105, 234, 19, 133, 142, 123, 49, 133, 181, 64, 244, 27, 20, 228, 44] = true := by decide +kernel

/-- `TestBucketCounter`, ofp/group_test.go -/
example : runMU BucketCounter.writeTo BucketCounter.readFrom
    (⟨5523660708591555761, 14713084686717327527⟩ : BucketCounter)
    [76, 167, 252, 38, 27, 97, 212, 177, 204, 47, 96, 145, 190, 6, 152, 167] = true := by decide +kernel

/-- `TestGroupStatsRequest`, ofp/group_test.go -/
example : runMU GroupStatsRequest.writeTo GroupStatsRequest.readFrom
    (⟨7⟩ : GroupStatsRequest)
    [0, 0, 0, 7, 0, 0, 0, 0] = true := by decide +kernel

/-- `TestGroupDescStats`, ofp/group_test.go -/
example : runMU GroupDescStats.writeTo GroupDescStats.readFrom
    (⟨1, 42, [⟨1, 2, 42, [.copyTTLIn]⟩]⟩ : GroupDescStats)
    [0, 32, 1, 0, 0, 0, 0, 42, 0, 24, 0, 1, 0, 0, 0, 2, 0, 0, 0, 42, 0, 0, 0, 0, 0, 12, 0, 8, 0,
     0, 0, 0] = true := by decide +kernel

/-- `TestGroupStats`, ofp/group_test.go -/
example : runMU GroupStats.writeTo GroupStats.readFrom
    (⟨4, 7, 15724173823290642489, 17210585649678657194, 2042699544, 2073841368,
      [⟨16024454786759363784, 9638326023866500405⟩]⟩ : GroupStats)
    [0, 56, 0, 0, 0, 0, 0, 4, 0, 0, 0, 7, 0, 0, 0, 0, 218, 55, 124, 200, 51, 188, 16, 57, 238,
     216, 72, 118, 121, 136, 38, 170, 121, 193, 31, 24, 123, 156, 78, 216, 222, 98, 76, 186, 52,
     25, 140, 200, 133, 194, 54, 115, 225, 247, 69, 53] = true := by decide +kernel

/-- `TestGroupFeatures`, ofp/group_test.go -/
example : runMU GroupFeatures.writeTo GroupFeatures.readFrom
    (⟨0xf, 0x11, (4, 5, 6, 7), (0x180000, 0, 0, 0)⟩ : GroupFeatures)
    [0, 0, 0, 15, 0, 0, 0, 17, 0, 0, 0, 4, 0, 0, 0, 5, 0, 0, 0, 6, 0, 0, 0, 7, 0, 24, 0, 0, 0,
     0, 0, 0, 0, 0, 0, 0, 0, 0, 0, 0] = true := by decide +kernel

/-- `TestHello`, ofp/handshake_test.go -/
example : runMU Hello.writeTo Hello.readFrom
    (⟨[]⟩ : Hello)
    [] = true := by decide +kernel

/-- `TestHello`, ofp/handshake_test.go -/
example : runMU Hello.writeTo Hello.readFrom
    (⟨[.versionBitmap [0x10, 0x13, 0x14, 0x15]]⟩ : Hello)
    [0, 1, 0, 24, 0, 0, 0, 16, 0, 0, 0, 19, 0, 0, 0, 20, 0, 0, 0, 21, 0, 0, 0, 0] = true := by decide +kernel

/-- `TestExperimenter`, ofp/handshake_test.go -/
example : runMU Experimenter.writeTo Experimenter.readFrom
    (⟨42, 43⟩ : Experimenter)
    [0, 0, 0, 42, 0, 0, 0, 43] = true := by decide +kernel

/-- `TestRoleRequest`, ofp/handshake_test.go -/
example : runMU RoleRequest.writeTo RoleRequest.readFrom
    (⟨2, 0x22e92b72b39cab3a⟩ : RoleRequest)
    [0, 0, 0, 2, 0, 0, 0, 0, 34, 233, 43, 114, 179, 156, 171, 58] = true := by decide +kernel

/-- `TestAsyncConfig`, ofp/handshake_test.go -/
example : runMU AsyncConfig.writeTo AsyncConfig.readFrom
    (⟨(2, 0), (0, 4), (0, 8)⟩ : AsyncConfig)
    [0, 0, 0, 2, 0, 0, 0, 0, 0, 0, 0, 0, 0, 0, 0, 4, 0, 0, 0, 0, 0, 0, 0, 8] = true := by decide +kernel

/-- `TestXM`, ofp/match_test.go -/
example : runMU XM.writeTo XM.readFrom
    (⟨0x8000, 15, [0, 0x35], [0xff, 0xff]⟩ : XM)
    [128, 0, 31, 4, 0, 53, 255, 255] = true := by decide +kernel

/-- `TestMatch`, ofp/match_test.go -/
example : runMU Match.writeTo Match.readFrom
    (⟨1, [⟨0x8000, 0, [0, 0, 0, 3], []⟩]⟩ : Match)
    [0, 1, 0, 12, 128, 0, 0, 4, 0, 0, 0, 3, 0, 0, 0, 0] = true := by decide +kernel

/-- `TestMeterMod`, ofp/meter_test.go -/
example : runMU MeterMod.writeTo MeterMod.readFrom
    (⟨1, 12, 42, [.drop 64 128, .dscpRemark 128 256 6, .experimenter 256 512 42]⟩ : MeterMod)
    [0, 1, 0, 12, 0, 0, 0, 42, 0, 1, 0, 16, 0, 0, 0, 64, 0, 0, 0, 128, 0, 0, 0, 0, 0, 2, 0, 16,
     0, 0, 0, 128, 0, 0, 1, 0, 6, 0, 0, 0, 255, 255, 0, 16, 0, 0, 1, 0, 0, 0, 2, 0, 0, 0, 0, 42] = true := by decide +kernel

/-- `TestMeterConfigRequest`, ofp/meter_test.go -/
example : runMU MeterConfigRequest.writeTo MeterConfigRequest.readFrom
    (⟨2⟩ : MeterConfigRequest)
    [0, 0, 0, 2, 0, 0, 0, 0] = true := by decide +kernel

/-- `TestMeterConfig`, ofp/meter_test.go -/
example : runMU MeterConfig.writeTo MeterConfig.readFrom
    (⟨5, 42, [.drop 64 128]⟩ : MeterConfig)
    [0, 24, 0, 5, 0, 0, 0, 42, 0, 1, 0, 16, 0, 0, 0, 64, 0, 0, 0, 128, 0, 0, 0, 0] = true := by decide +kernel

/-- `TestMeterFeatures`, ofp/meter_test.go -/
example : runMU MeterFeatures.writeTo MeterFeatures.readFrom
    (⟨45, 6, 0x10, 128, 16⟩ : MeterFeatures)
    [0, 0, 0, 45, 0, 0, 0, 6, 0, 0, 0, 16, 128, 16, 0, 0] = true := by decide +kernel

/-- `TestMeterStats`, ofp/meter_test.go -/
example : runMU MeterStats.writeTo MeterStats.readFrom
    (⟨42, 2716600054, 3600438613393559849, 7110296996057607002, 50, 10, [⟨1413263059007179439,
      7830709349700751879⟩, ⟨15621460444570393343, 13154395619072477107⟩]⟩ : MeterStats)
    [0, 0, 0, 42, 0, 72, 0, 0, 0, 0, 0, 0, 161, 236, 6, 246, 49, 247, 83, 215, 202, 236, 81, 41,
     98, 172, 217, 114, 41, 138, 107, 90, 0, 0, 0, 50, 0, 0, 0, 10, 19, 156, 235, 67, 174, 78,
     10, 175, 108, 172, 68, 170, 40, 62, 82, 7, 216, 202, 147, 130, 31, 111, 26, 255, 182, 141,
     205, 30, 221, 197, 7, 179] = true := by decide +kernel

/-- `TestMultipartReply`, ofp/multipart_test.go -/
example : runMU MultipartReply.writeTo MultipartReply.readFrom
    (⟨4, 1⟩ : MultipartReply)
    [0, 4, 0, 1, 0, 0, 0, 0] = true := by decide +kernel

/-- `TestExperimenterMultipartHeader`, ofp/multipart_test.go -/
example : runMU ExperimenterMultipartHeader.writeTo ExperimenterMultipartHeader.readFrom
    (⟨42, 14⟩ : ExperimenterMultipartHeader)
    [0, 0, 0, 42, 0, 0, 0, 14] = true := by decide +kernel

/-- `TestPacketIn`, ofp/packet_test.go -/
example : runMU PacketIn.writeTo PacketIn.readFrom
    (⟨0xffffffff, 0x38, 1, 2, 0xdeadbeef, ⟨1, [⟨0x8000, 0, [0, 0, 0, 3], []⟩]⟩, [0xff, 0xff,
      0xff, 0xff, 0xff, 0xff, 0x11, 0x11, 0x11, 0x11, 0x11, 0x11, 0x08, 0x06]⟩ : PacketIn)
    [255, 255, 255, 255, 0, 56, 1, 2, 0, 0, 0, 0, 222, 173, 190, 239, 0, 1, 0, 12, 128, 0, 0, 4,
     0, 0, 0, 3, 0, 0, 0, 0, 0, 0, 255, 255, 255, 255, 255, 255, 17, 17, 17, 17, 17, 17, 8, 6] = true := by decide +kernel

/-- `TestPacketOut`, ofp/packet_test.go -/
example : runMU PacketOut.writeTo PacketOut.readFrom
    (⟨1, 0xfffffffd, [.group 0xfffffffc], []⟩ : PacketOut)
    [0, 0, 0, 1, 255, 255, 255, 253, 0, 8, 0, 0, 0, 0, 0, 0, 0, 22, 0, 8, 255, 255, 255, 252] = true := by decide +kernel

/-- `TestPacketOut`, ofp/packet_test.go -/
example : runMU PacketOut.writeTo PacketOut.readFrom
    (⟨0xffffffff, 0xfffffffd, [.output 1 0], [0xff, 0xff, 0xff, 0xff, 0xff, 0xff, 0x11, 0x11,
      0x11, 0x11, 0x11, 0x11, 0x08, 0x06]⟩ : PacketOut)
    [255, 255, 255, 255, 255, 255, 255, 253, 0, 16, 0, 0, 0, 0, 0, 0, 0, 0, 0, 16, 0, 0, 0, 1,
     0, 0, 0, 0, 0, 0, 0, 0, 255, 255, 255, 255, 255, 255, 17, 17, 17, 17, 17, 17, 8, 6] = true := by decide +kernel

/-- `TestPort`, ofp/port_test.go -/
example : runMU Port.writeTo Port.readFrom
    (⟨0xfffffffa, [0x01, 0x23, 0x45, 0x67, 0x89, 0xab], [0x73, 0x77, 0x31, 0x2d, 0x65, 0x74,
      0x68, 0x30, 0x00, 0x00, 0x00, 0x00, 0x00, 0x00, 0x00, 0x00], 1, 1, 0x1020, 0x1020, 0x1020,
      0x0840, 42, 43⟩ : Port)
    [255, 255, 255, 250, 0, 0, 0, 0, 1, 35, 69, 103, 137, 171, 0, 0, 115, 119, 49, 45, 101, 116,
     104, 48, 0, 0, 0, 0, 0, 0, 0, 0, 0, 0, 0, 1, 0, 0, 0, 1, 0, 0, 16, 32, 0, 0, 16, 32, 0, 0,
     16, 32, 0, 0, 8, 64, 0, 0, 0, 42, 0, 0, 0, 43] = true := by decide +kernel

/-- `TestPortMod`, ofp/port_test.go -/
example : runMU PortMod.writeTo PortMod.readFrom
    (⟨0xfffffffb, [0x01, 0x23, 0x45, 0x67, 0x89, 0xab], 0x20, 0, 0x2040⟩ : PortMod)
    [255, 255, 255, 251, 0, 0, 0, 0, 1, 35, 69, 103, 137, 171, 0, 0, 0, 0, 0, 32, 0, 0, 0, 0, 0,
     0, 32, 64, 0, 0, 0, 0] = true := by decide +kernel

/-- `TestPortStatus`, ofp/port_test.go -/
example : runMU PortStatus.writeTo PortStatus.readFrom
    (⟨0, ⟨0xfffffffb, [0x01, 0x23, 0x45, 0x67, 0x89, 0xab], [0x73, 0x77, 0x31, 0x2d, 0x65, 0x74,
      0x68, 0x31, 0x00, 0x00, 0x00, 0x00, 0x00, 0x00, 0x00, 0x00], 1, 1, 0x1080, 0x1080, 0x1080,
      0x0801, 2047, 65535⟩⟩ : PortStatus)
    [0, 0, 0, 0, 0, 0, 0, 0, 255, 255, 255, 251, 0, 0, 0, 0, 1, 35, 69, 103, 137, 171, 0, 0,
     115, 119, 49, 45, 101, 116, 104, 49, 0, 0, 0, 0, 0, 0, 0, 0, 0, 0, 0, 1, 0, 0, 0, 1, 0, 0,
     16, 128, 0, 0, 16, 128, 0, 0, 16, 128, 0, 0, 8, 1, 0, 0, 7, 255, 0, 0, 255, 255] = true := by decide +kernel

/-- `TestPortStatsRequest`, ofp/port_test.go -/
example : runMU PortStatsRequest.writeTo PortStatsRequest.readFrom
    (⟨2⟩ : PortStatsRequest)
    [0, 0, 0, 2, 0, 0, 0, 0] = true := by decide +kernel

/-- `TestPortStats`, ofp/port_test.go -/
example : runMU PortStats.writeTo PortStats.readFrom
    (⟨3, 6773009508081008653, 4449515516159517871, 5376522659808774614, 13087997567122713610,
      14817532963293049516, 1483028468767136997, 8919350792100524585, 8235451563360597435,
      12151775103618862338, 8345656100423014979, 7312308705513999709, 7394863223143382373,
      684498643, 2789499113⟩ : PortStats)
    [0, 0, 0, 3, 0, 0, 0, 0, 93, 254, 144, 67, 61, 131, 0, 13, 61, 191, 218, 201, 147, 70, 228,
     175, 74, 157, 62, 223, 128, 189, 137, 214, 181, 161, 232, 113, 177, 134, 172, 10, 205, 162,
     115, 185, 52, 185, 50, 172, 20, 148, 198, 136, 240, 168, 28, 229, 123, 199, 230, 73, 230,
     64, 50, 41, 114, 74, 51, 144, 71, 11, 53, 187, 168, 163, 199, 18, 233, 163, 77, 2, 115,
     209, 186, 1, 147, 73, 26, 67, 101, 122, 138, 6, 128, 40, 141, 93, 102, 159, 212, 235, 250,
     15, 189, 101, 40, 204, 158, 211, 166, 68, 96, 233] = true := by decide +kernel

/-- `TestPacketQueue`, ofp/queue_test.go -/
example : runMU PacketQueue.writeTo PacketQueue.readFrom
    (⟨0xffffffff, 0xfffffffa, [.minRate 42, .maxRate 43]⟩ : PacketQueue)
    [255, 255, 255, 255, 255, 255, 255, 250, 0, 48, 0, 0, 0, 0, 0, 0, 0, 1, 0, 16, 0, 0, 0, 0,
     0, 42, 0, 0, 0, 0, 0, 0, 0, 2, 0, 16, 0, 0, 0, 0, 0, 43, 0, 0, 0, 0, 0, 0] = true := by decide +kernel

/-- `TestQueuePropExperimenter`, ofp/queue_test.go -/
example : runMU QueueProp.writeTo QueueProp.readFrom
    (.experimenter 359 [0, 1, 2, 3] : QueueProp)
    [255, 255, 0, 20, 0, 0, 0, 0, 0, 0, 1, 103, 0, 0, 0, 0, 0, 1, 2, 3] = true := by decide +kernel

/-- `TestQueueStastsRequest`, ofp/queue_test.go -/
example : runMU QueueStatsRequest.writeTo QueueStatsRequest.readFrom
    (⟨1, 2⟩ : QueueStatsRequest)
    [0, 0, 0, 1, 0, 0, 0, 2] = true := by decide +kernel

/-- `TestQueueStats`, ofp/queue_test.go -/
example : runMU QueueStats.writeTo QueueStats.readFrom
    (⟨42, 9, 5631918746835501714, 13419917410144254707, 9021256935579401134, 3332165368,
      3773668775⟩ : QueueStats)
    [0, 0, 0, 42, 0, 0, 0, 9, 78, 40, 152, 66, 212, 254, 66, 146, 186, 61, 31, 200, 98, 186,
     122, 243, 125, 49, 241, 98, 224, 189, 59, 174, 198, 156, 206, 248, 224, 237, 157, 167] = true := by decide +kernel

/-- `TestQueueGetConfigRequest`, ofp/queue_test.go -/
example : runMU QueueGetConfigRequest.writeTo QueueGetConfigRequest.readFrom
    (⟨42⟩ : QueueGetConfigRequest)
    [0, 0, 0, 42, 0, 0, 0, 0] = true := by decide +kernel

/-- `TestQueueGetConfigReply`, ofp/queue_test.go -/
example : runMU QueueGetConfigReply.writeTo QueueGetConfigReply.readFrom
    (⟨43, [⟨1, 4, [.minRate 1, .maxRate 2]⟩, ⟨2, 4, [.minRate 3, .maxRate 4]⟩]⟩ :
      QueueGetConfigReply)
    [0, 0, 0, 43, 0, 0, 0, 0, 0, 0, 0, 1, 0, 0, 0, 4, 0, 48, 0, 0, 0, 0, 0, 0, 0, 1, 0, 16, 0,
     0, 0, 0, 0, 1, 0, 0, 0, 0, 0, 0, 0, 2, 0, 16, 0, 0, 0, 0, 0, 2, 0, 0, 0, 0, 0, 0, 0, 0, 0,
     2, 0, 0, 0, 4, 0, 48, 0, 0, 0, 0, 0, 0, 0, 1, 0, 16, 0, 0, 0, 0, 0, 3, 0, 0, 0, 0, 0, 0, 0,
     2, 0, 16, 0, 0, 0, 0, 0, 4, 0, 0, 0, 0, 0, 0] = true := by decide +kernel

/-- `TestSwitchFeatures`, ofp/switch_test.go -/
example : runMU SwitchFeatures.writeTo SwitchFeatures.readFrom
    (⟨0xd824a830a6001794, 255, 127, 0xfc, 5, 0⟩ : SwitchFeatures)
    [216, 36, 168, 48, 166, 0, 23, 148, 0, 0, 0, 255, 127, 252, 0, 0, 0, 0, 0, 5, 0, 0, 0, 0] = true := by decide +kernel

/-- `TestSwitchConfig`, ofp/switch_test.go -/
example : runMU SwitchConfig.writeTo SwitchConfig.readFrom
    (⟨1, 65535⟩ : SwitchConfig)
    [0, 1, 255, 255] = true := by decide +kernel

/-- `TestTableMod`, ofp/table_test.go -/
example : runMU TableMod.writeTo TableMod.readFrom
    (⟨0xfe, 3⟩ : TableMod)
    [254, 0, 0, 0, 0, 0, 0, 3] = true := by decide +kernel

/-- `TestTableStats`, ofp/table_test.go -/
example : runMU TableStats.writeTo TableStats.readFrom
    (⟨0xfe, 267, 132, 54⟩ : TableStats)
    [254, 0, 0, 0, 0, 0, 1, 11, 0, 0, 0, 0, 0, 0, 0, 132, 0, 0, 0, 0, 0, 0, 0, 54] = true := by decide +kernel

/-- `TestTablePropInstructions`, ofp/table_test.go -/
example : runMU TableProp.writeTo TableProp.readFrom
    (.instructions false [6, 1] : TableProp)
    [0, 0, 0, 12, 0, 6, 0, 4, 0, 1, 0, 4, 0, 0, 0, 0] = true := by decide +kernel

/-- `TestTablePropNextTables`, ofp/table_test.go -/
example : runMU TableProp.writeTo TableProp.readFrom
    (.nextTables false [1, 2, 3] : TableProp)
    [0, 2, 0, 7, 1, 2, 3, 0] = true := by decide +kernel

/-- `TestTablePropWriteActions`, ofp/table_test.go -/
example : runMU TableProp.writeTo TableProp.readFrom
    (.writeActions false [11, 12] : TableProp)
    [0, 4, 0, 12, 0, 11, 0, 4, 0, 12, 0, 4, 0, 0, 0, 0] = true := by decide +kernel

/-- `TestTablePropApplyActions`, ofp/table_test.go -/
example : runMU TableProp.writeTo TableProp.readFrom
    (.applyActions true [22] : TableProp)
    [0, 7, 0, 8, 0, 22, 0, 4] = true := by decide +kernel

/-- `TestTablePropMatch`, ofp/table_test.go -/
example : runMU TableProp.writeTo TableProp.readFrom
    (.matches [⟨0x8000, 15, [], []⟩, ⟨0x8000, 0, [], []⟩] : TableProp)
    [0, 8, 0, 12, 128, 0, 30, 0, 128, 0, 0, 0, 0, 0, 0, 0] = true := by decide +kernel

/-- `TestTablePropWildcards`, ofp/table_test.go -/
example : runMU TableProp.writeTo TableProp.readFrom
    (.wildcards [⟨0x8000, 15, [], []⟩, ⟨0x8000, 0, [], []⟩] : TableProp)
    [0, 10, 0, 12, 128, 0, 30, 0, 128, 0, 0, 0, 0, 0, 0, 0] = true := by decide +kernel

/-- `TestTablePropWriteSetField`, ofp/table_test.go -/
example : runMU TableProp.writeTo TableProp.readFrom
    (.writeSetField false [⟨0x8000, 15, [], []⟩, ⟨0x8000, 0, [], []⟩] : TableProp)
    [0, 12, 0, 12, 128, 0, 30, 0, 128, 0, 0, 0, 0, 0, 0, 0] = true := by decide +kernel

/-- `TestTablePropApplySetField`, ofp/table_test.go -/
example : runMU TableProp.writeTo TableProp.readFrom
    (.applySetField true [⟨0x8000, 15, [], []⟩, ⟨0x8000, 0, [], []⟩] : TableProp)
    [0, 15, 0, 12, 128, 0, 30, 0, 128, 0, 0, 0, 0, 0, 0, 0] = true := by decide +kernel

/-- `TestTablePropExperimenter`, ofp/table_test.go -/
example : runMU TableProp.writeTo TableProp.readFrom
    (.experimenter false 42 43 [0x11, 0x22] : TableProp)
    [255, 254, 0, 14, 0, 0, 0, 42, 0, 0, 0, 43, 17, 34, 0, 0] = true := by decide +kernel

/-- `TestTableFeatures`, ofp/table_test.go -/
example : runMU TableFeatures.writeTo TableFeatures.readFrom
    (⟨3, [116, 97, 98, 108, 101, 45, 49, 0, 0, 0, 0, 0, 0, 0, 0, 0, 0, 0, 0, 0, 0, 0, 0, 0, 0,
      0, 0, 0, 0, 0, 0, 0], 0xff, 0xfe, 0, 512, [.applyActions false [22], .instructions false
      [6]]⟩ : TableFeatures)
    [0, 80, 3, 0, 0, 0, 0, 0, 116, 97, 98, 108, 101, 45, 49, 0, 0, 0, 0, 0, 0, 0, 0, 0, 0, 0, 0,
     0, 0, 0, 0, 0, 0, 0, 0, 0, 0, 0, 0, 0, 0, 0, 0, 0, 0, 0, 0, 255, 0, 0, 0, 0, 0, 0, 0, 254,
     0, 0, 0, 0, 0, 0, 2, 0, 0, 6, 0, 8, 0, 22, 0, 4, 0, 0, 0, 8, 0, 6, 0, 4] = true := by decide +kernel

end Verif.Replay
