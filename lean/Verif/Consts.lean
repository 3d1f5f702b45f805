/-!
# The constants of the package: header.go, net.go and ofp

The `const` blocks as they are written in the source, and Go's rules for them: `iota` is the
position in the block, and a constant without an expression repeats the last one.  A constant
that does not fit its type is rejected by the compiler, so that values are natural numbers here.
Comments are left out, and the types of the constants, which the comments of the blocks name.
-/

namespace Verif

/-- The constant expressions that occur in the blocks. -/
inductive ConstExpr where
  | iota
  | lit (n : Nat)
  | add (a b : ConstExpr)
  | shl (a b : ConstExpr)
  deriving DecidableEq, Repr

/-- The value of an expression at position `i` of its block. -/
def ConstExpr.eval (i : Nat) : ConstExpr → Nat
  | .iota => i
  | .lit n => n
  | .add a b => a.eval i + b.eval i
  | .shl a b => a.eval i * 2 ^ b.eval i

/-- A constant of a block, with its expression if it has one. -/
structure ConstSpec where
  name : String
  expr : Option ConstExpr
  deriving DecidableEq, Repr

/-- The values of the constants from position `i` on, where `prev` is the last expression.  The
compiler rejects a block that does not begin with an expression. -/
def constValuesFrom : Nat → Option ConstExpr → List ConstSpec → List (String × Nat)
  | _, _, [] => []
  | i, prev, c :: t =>
    match c.expr.or prev with
    | none => []
    | some e => (c.name, e.eval i) :: constValuesFrom (i + 1) (some e) t

/-- The constants of a block with their values. -/
def constValues (b : List ConstSpec) : List (String × Nat) := constValuesFrom 0 none b

/-- net.go:16-43. -/
def connStateConsts : List ConstSpec :=
  [⟨"StateNew", some .iota⟩,
   ⟨"StateHandshake", none⟩,
   ⟨"StateActive", none⟩,
   ⟨"StateIdle", none⟩,
   ⟨"StateClosed", none⟩]

/-- header.go:11-157. -/
def typeConsts : List ConstSpec :=
  [⟨"TypeHello", some .iota⟩,
   ⟨"TypeError", none⟩,
   ⟨"TypeEchoRequest", none⟩,
   ⟨"TypeEchoReply", none⟩,
   ⟨"TypeExperiment", none⟩,
   ⟨"TypeFeaturesRequest", none⟩,
   ⟨"TypeFeaturesReply", none⟩,
   ⟨"TypeGetConfigRequest", none⟩,
   ⟨"TypeGetConfigReply", none⟩,
   ⟨"TypeSetConfig", none⟩,
   ⟨"TypePacketIn", none⟩,
   ⟨"TypeFlowRemoved", none⟩,
   ⟨"TypePortStatus", none⟩,
   ⟨"TypePacketOut", none⟩,
   ⟨"TypeFlowMod", none⟩,
   ⟨"TypeGroupMod", none⟩,
   ⟨"TypePortMod", none⟩,
   ⟨"TypeTableMod", none⟩,
   ⟨"TypeMultipartRequest", none⟩,
   ⟨"TypeMultipartReply", none⟩,
   ⟨"TypeBarrierRequest", none⟩,
   ⟨"TypeBarrierReply", none⟩,
   ⟨"TypeQueueGetConfigRequest", none⟩,
   ⟨"TypeQueueGetConfigReply", none⟩,
   ⟨"TypeRoleRequest", none⟩,
   ⟨"TypeRoleReply", none⟩,
   ⟨"TypeGetAsyncRequest", none⟩,
   ⟨"TypeGetAsyncReply", none⟩,
   ⟨"TypeSetAsync", none⟩,
   ⟨"TypeMeterMod", none⟩]

/-- ofp/action.go:26-88. -/
def actionTypeConsts : List ConstSpec :=
  [⟨"ActionTypeOutput", some .iota⟩,
   ⟨"ActionTypeCopyTTLOut", some (.add (.lit 10) .iota)⟩,
   ⟨"ActionTypeCopyTTLIn", some (.add (.lit 10) .iota)⟩,
   ⟨"ActionTypeSetMPLSTTL", some (.add (.lit 12) .iota)⟩,
   ⟨"ActionTypeDecMPLSTTL", some (.add (.lit 12) .iota)⟩,
   ⟨"ActionTypePushVLAN", some (.add (.lit 12) .iota)⟩,
   ⟨"ActionTypePopVLAN", some (.add (.lit 12) .iota)⟩,
   ⟨"ActionTypePushMPLS", some (.add (.lit 12) .iota)⟩,
   ⟨"ActionTypePopMPLS", some (.add (.lit 12) .iota)⟩,
   ⟨"ActionTypeSetQueue", some (.add (.lit 12) .iota)⟩,
   ⟨"ActionTypeGroup", some (.add (.lit 12) .iota)⟩,
   ⟨"ActionTypeSetNwTTL", some (.add (.lit 12) .iota)⟩,
   ⟨"ActionTypeDecNwTTL", some (.add (.lit 12) .iota)⟩,
   ⟨"ActionTypeSetField", some (.add (.lit 12) .iota)⟩,
   ⟨"ActionTypePushPBB", some (.add (.lit 12) .iota)⟩,
   ⟨"ActionTypePopPBB", some (.add (.lit 12) .iota)⟩,
   ⟨"ActionTypeExperimenter", some (.lit 0xffff)⟩]

/-- ofp/action.go:130-138. -/
def controllerMaxLenConsts : List ConstSpec :=
  [⟨"ContentLenMax", some (.lit 0xffe5)⟩,
   ⟨"ContentLenNoBuffer", some (.lit 0xffff)⟩]

/-- ofp/error.go:18-72. -/
def errorTypeConsts : List ConstSpec :=
  [⟨"ErrTypeHelloFailed", some .iota⟩,
   ⟨"ErrTypeBadRequest", none⟩,
   ⟨"ErrTypeBadAction", none⟩,
   ⟨"ErrTypeBadInstruction", none⟩,
   ⟨"ErrTypeBadMatch", none⟩,
   ⟨"ErrTypeFlowModFailed", none⟩,
   ⟨"ErrTypeGroupModFailed", none⟩,
   ⟨"ErrTypePortModFailed", none⟩,
   ⟨"ErrTypeTableModFailed", none⟩,
   ⟨"ErrTypeQueueOpFailed", none⟩,
   ⟨"ErrTypeSwitchConfigFailed", none⟩,
   ⟨"ErrTypeRoleRequestFailed", none⟩,
   ⟨"ErrTypeMeterModFailed", none⟩,
   ⟨"ErrTypeTableFeaturesFailed", none⟩,
   ⟨"ErrTypeExperimenter", some (.lit 0xffff)⟩]

/-- ofp/error.go:100-107. -/
def helloFailedCodeConsts : List ConstSpec :=
  [⟨"ErrCodeHelloFailedIncompatible", some .iota⟩,
   ⟨"ErrCodeHelloFailedPerm", none⟩]

/-- ofp/error.go:109-163. -/
def badRequestCodeConsts : List ConstSpec :=
  [⟨"ErrCodeBadRequestBadVersion", some .iota⟩,
   ⟨"ErrCodeBadRequestBadType", none⟩,
   ⟨"ErrCodeBadRequestBadMultipart", none⟩,
   ⟨"ErrCodeBadRequestBadExperimenter", none⟩,
   ⟨"ErrCodeBadRequestBadExpType", none⟩,
   ⟨"ErrCodeBadRequestPerm", none⟩,
   ⟨"ErrCodeBadRequestLen", none⟩,
   ⟨"ErrCodeBadRequestBufferEmpty", none⟩,
   ⟨"ErrCodeBadRequestBufferUnknown", none⟩,
   ⟨"ErrCodeBadRequestBadTableID", none⟩,
   ⟨"ErrCodeBadRequestIsSlave", none⟩,
   ⟨"ErrCodeBadRequestBadPort", none⟩,
   ⟨"ErrCodeBadRequestBadPacket", none⟩,
   ⟨"ErrCodeBadRequestMultipartBufferOverflow", none⟩]

/-- ofp/error.go:165-228. -/
def badActionCodeConsts : List ConstSpec :=
  [⟨"ErrCodeBadActionType", some .iota⟩,
   ⟨"ErrCodeBadActionLen", none⟩,
   ⟨"ErrCodeBadActionExperimenter", none⟩,
   ⟨"ErrCodeBadActionExpType", none⟩,
   ⟨"ErrCodeBadActionOutPort", none⟩,
   ⟨"ErrCodeBadActionArgument", none⟩,
   ⟨"ErrCodeBadActionPerm", none⟩,
   ⟨"ErrCodeBadActionTooMany", none⟩,
   ⟨"ErrCodeBadActionQueue", none⟩,
   ⟨"ErrCodeBadActionOutGroup", none⟩,
   ⟨"ErrCodeBadActionMatchInconsistent", none⟩,
   ⟨"ErrCodeBadActionUnsupportedOrder", none⟩,
   ⟨"ErrCodeBadActionTag", none⟩,
   ⟨"ErrCodeBadActionSetType", none⟩,
   ⟨"ErrCodeBadActionSetLen", none⟩,
   ⟨"ErrCodeBadActionSetArgument", none⟩]

/-- ofp/error.go:230-265. -/
def badInstructionCodeConsts : List ConstSpec :=
  [⟨"ErrCodeBadInstructionUnknown", some .iota⟩,
   ⟨"ErrCodeBadInstructionUnsupported", none⟩,
   ⟨"ErrCodeBadInstructionTableID", none⟩,
   ⟨"ErrCodeBadInstructionUnsupportedMetadata", none⟩,
   ⟨"ErrCodeBadInstructionUnsupportedMetadataMask", none⟩,
   ⟨"ErrCodeBadInstructionExperimenter", none⟩,
   ⟨"ErrCodeBadInstructionExpType", none⟩,
   ⟨"ErrCodeBadInstructionLen", none⟩,
   ⟨"ErrCodeBadInstructionPerm", none⟩]

/-- ofp/error.go:267-315. -/
def badMatchCodeConsts : List ConstSpec :=
  [⟨"ErrCodeBadMatchBadType", some .iota⟩,
   ⟨"ErrCodeBadMatchBadLen", none⟩,
   ⟨"ErrCodeBadMatchBadTag", none⟩,
   ⟨"ErrCodeBadMatchBadLinkMask", none⟩,
   ⟨"ErrCodeBadMatchBadNetMask", none⟩,
   ⟨"ErrCodeBadMatchBadWildcards", none⟩,
   ⟨"ErrCodeBadMatchBadField", none⟩,
   ⟨"ErrCodeBadMatchBadValue", none⟩,
   ⟨"ErrCodeBadMatchBadMask", none⟩,
   ⟨"ErrCodeBadMatchBadPrereq", none⟩,
   ⟨"ErrCodeBadMatchDupField", none⟩,
   ⟨"ErrCodeBadMatchPerm", none⟩]

/-- ofp/error.go:317-346. -/
def flowModFailedCodeConsts : List ConstSpec :=
  [⟨"ErrCodeFlowModFailedUnknown", some .iota⟩,
   ⟨"ErrCodeFlowModFailedTableFull", none⟩,
   ⟨"ErrCodeFlowModFailedBadTableID", none⟩,
   ⟨"ErrCodeFlowModFailedOverlap", none⟩,
   ⟨"ErrCodeFlowModFailedPerm", none⟩,
   ⟨"ErrCodeFlowModFailedBadTimeout", none⟩,
   ⟨"ErrCodeFlowModFailedBadCommand", none⟩,
   ⟨"ErrCodeFlowModFailedBadFlags", none⟩]

/-- ofp/error.go:348-407. -/
def groupModFailedCodeConsts : List ConstSpec :=
  [⟨"ErrCodeGroupModFailedGroupExists", some .iota⟩,
   ⟨"ErrCodeGroupModFailedInvalidGroup", none⟩,
   ⟨"ErrCodeGroupModFailedWeightUnsupported", none⟩,
   ⟨"ErrCodeGroupModFailedOutOfGroups", none⟩,
   ⟨"ErrCodeGroupModFailedOutOfBuckets", none⟩,
   ⟨"ErrCodeGroupModFailedChainingUnsupported", none⟩,
   ⟨"ErrCodeGroupModFailedWatchUnsupported", none⟩,
   ⟨"ErrCodeGroupModFailedLoop", none⟩,
   ⟨"ErrCodeGroupModFailedUnknownGroup", none⟩,
   ⟨"ErrCodeGroupModFailedChainedGroup", none⟩,
   ⟨"ErrCodeGroupModBadType", none⟩,
   ⟨"ErrCodeGroupModBadCommand", none⟩,
   ⟨"ErrCodeGroupModBadBucket", none⟩,
   ⟨"ErrCodeGroupModBadWatch", none⟩,
   ⟨"ErrCodeGroupModPerm", none⟩]

/-- ofp/error.go:409-428. -/
def portModFailedCodeConsts : List ConstSpec :=
  [⟨"ErrCodePortModFailedBadPort", some .iota⟩,
   ⟨"ErrCodePortModFailedBadHwAddr", none⟩,
   ⟨"ErrCodePortModFailedBadConfig", none⟩,
   ⟨"ErrCodePortModFailedBadAdvertise", none⟩,
   ⟨"ErrCodePortModFailedPerm", none⟩]

/-- ofp/error.go:430-441. -/
def tableModFailedCodeConsts : List ConstSpec :=
  [⟨"ErrCodeTableModFailedBadTable", some .iota⟩,
   ⟨"ErrCodeTableModFailedBadConfig", none⟩,
   ⟨"ErrCodeTableModFailedPerm", none⟩]

/-- ofp/error.go:443-454. -/
def queueOpFailedCodeConsts : List ConstSpec :=
  [⟨"ErrCodeQueueOpFailedBadPort", some .iota⟩,
   ⟨"ErrCodeQueueOpFailedBadQueue", none⟩,
   ⟨"ErrCodeQueueOpFailedPerm", none⟩]

/-- ofp/error.go:456-467. -/
def switchConfigFailedCodeConsts : List ConstSpec :=
  [⟨"ErrCodeSwitchConfigFailedBadFlags", some .iota⟩,
   ⟨"ErrCodeSwitchConfigFailedBadLen", none⟩,
   ⟨"ErrCodeSwitchConfigFailedPerm", none⟩]

/-- ofp/error.go:469-481. -/
def roleRequestFailedCodeConsts : List ConstSpec :=
  [⟨"ErrCodeRoleRequestFailedStale", some .iota⟩,
   ⟨"ErrCodeRoleRequestFailedUnsup", none⟩,
   ⟨"ErrCodeRoleRequestFailedBadRole", none⟩]

/-- ofp/error.go:483-530. -/
def meterModFailedCodeConsts : List ConstSpec :=
  [⟨"ErrCodeMeterModFailedUnknown", some .iota⟩,
   ⟨"ErrCodeMeterModFailedMeterExists", none⟩,
   ⟨"ErrCodeMeterModFailedInvalidMeter", none⟩,
   ⟨"ErrCodeMeterModFailedUnknownMeter", none⟩,
   ⟨"ErrCodeMeterModFailedBadCommand", none⟩,
   ⟨"ErrCodeMeterModFailedBadFlags", none⟩,
   ⟨"ErrCodeMeterModFailedBadRate", none⟩,
   ⟨"ErrCodeMeterModFailedBadBurst", none⟩,
   ⟨"ErrCodeMeterModFailedBadBand", none⟩,
   ⟨"ErrCodeMeterModFailedBadBandValue", none⟩,
   ⟨"ErrCodeMeterModFailedOutOfMeters", none⟩,
   ⟨"ErrCodeMeterModFailedOutOfBands", none⟩]

/-- ofp/error.go:532-555. -/
def tableFeaturesFailedCodeConsts : List ConstSpec :=
  [⟨"ErrCodeTableFeaturesFailedBadTable", some .iota⟩,
   ⟨"ErrCodeTableFeaturesFailedBadMetadata", none⟩,
   ⟨"ErrCodeTableFeaturesFailedBadType", none⟩,
   ⟨"ErrCodeTableFeaturesFailedBadLen", none⟩,
   ⟨"ErrCodeTableFeaturesFailedBadArgument", none⟩,
   ⟨"ErrCodeTableFeaturesFailedPerm", none⟩]

/-- ofp/flow.go:14-31. -/
def flowModCommandConsts : List ConstSpec :=
  [⟨"FlowAdd", some .iota⟩,
   ⟨"FlowModify", none⟩,
   ⟨"FlowModifyStrict", none⟩,
   ⟨"FlowDelete", none⟩,
   ⟨"FlowDeleteStrict", none⟩]

/-- ofp/flow.go:36-60. -/
def flowModFlagsConsts : List ConstSpec :=
  [⟨"FlowFlagSendFlowRem", some (.shl (.lit 1) .iota)⟩,
   ⟨"FlowFlagCheckOverlap", none⟩,
   ⟨"FlowFlagResetCounts", none⟩,
   ⟨"FlowFlagNoPktCounts", none⟩,
   ⟨"FlowFlagNoByteCounts", none⟩]

/-- ofp/flow.go:250-264. -/
def flowRemovedReasonConsts : List ConstSpec :=
  [⟨"FlowReasonIdleTimeout", some .iota⟩,
   ⟨"FlowReasonHardTimeout", none⟩,
   ⟨"FlowReasonDelete", none⟩,
   ⟨"FlowReasonGroupDelete", none⟩]

/-- ofp/group.go:13-22. -/
def groupModCommandConsts : List ConstSpec :=
  [⟨"GroupAdd", some .iota⟩,
   ⟨"GroupModify", none⟩,
   ⟨"GroupDelete", none⟩]

/-- ofp/group.go:28-40. -/
def groupTypeConsts : List ConstSpec :=
  [⟨"GroupTypeAll", some .iota⟩,
   ⟨"GroupTypeSelect", none⟩,
   ⟨"GroupTypeIndirect", none⟩,
   ⟨"GroupTypeFastFailover", none⟩]

/-- ofp/group.go:45-56. -/
def groupConsts : List ConstSpec :=
  [⟨"GroupMax", some (.lit 0xffffff00)⟩,
   ⟨"GroupAll", some (.lit 0xfffffffc)⟩,
   ⟨"GroupAny", some (.lit 0xffffffff)⟩]

/-- ofp/group.go:355-371. -/
def groupCapabilitiesConsts : List ConstSpec :=
  [⟨"GroupCapabilitySelectWeight", some (.shl (.lit 1) .iota)⟩,
   ⟨"GroupCapabilitySelectLiveness", none⟩,
   ⟨"GroupCapabilityChaining", none⟩,
   ⟨"GroupCapabilityChainingChecks", none⟩]

/-- ofp/handshake.go:15-18. -/
def helloElemTypeConsts : List ConstSpec :=
  [⟨"HelloElemTypeVersionBitmap", some (.lit 1)⟩]

/-- ofp/handshake.go:196-213. -/
def controllerRoleConsts : List ConstSpec :=
  [⟨"ControllerRoleNoChange", some .iota⟩,
   ⟨"ControllerRoleEqual", none⟩,
   ⟨"ControllerRoleMaster", none⟩,
   ⟨"ControllerRoleSlave", none⟩]

/-- ofp/instruction.go:11-37. -/
def instructionTypeConsts : List ConstSpec :=
  [⟨"InstructionTypeGotoTable", some (.add (.lit 1) .iota)⟩,
   ⟨"InstructionTypeWriteMetadata", some (.add (.lit 1) .iota)⟩,
   ⟨"InstructionTypeWriteActions", some (.add (.lit 1) .iota)⟩,
   ⟨"InstructionTypeApplyActions", some (.add (.lit 1) .iota)⟩,
   ⟨"InstructionTypeClearActions", some (.add (.lit 1) .iota)⟩,
   ⟨"InstructionTypeMeter", some (.add (.lit 1) .iota)⟩,
   ⟨"InstructionTypeExperimenter", some (.lit 0xffff)⟩]

/-- ofp/match.go:23-143. -/
def oxmFieldConsts : List ConstSpec :=
  [⟨"XMTypeInPort", some .iota⟩,
   ⟨"XMTypeInPhyPort", none⟩,
   ⟨"XMTypeMetadata", none⟩,
   ⟨"XMTypeEthDst", none⟩,
   ⟨"XMTypeEthSrc", none⟩,
   ⟨"XMTypeEthType", none⟩,
   ⟨"XMTypeVlanID", none⟩,
   ⟨"XMTypeVlanPCP", none⟩,
   ⟨"XMTypeIPDSCP", none⟩,
   ⟨"XMTypeIPECN", none⟩,
   ⟨"XMTypeIPProto", none⟩,
   ⟨"XMTypeIPv4Src", none⟩,
   ⟨"XMTypeIPv4Dst", none⟩,
   ⟨"XMTypeTCPSrc", none⟩,
   ⟨"XMTypeTCPDst", none⟩,
   ⟨"XMTypeUDPSrc", none⟩,
   ⟨"XMTypeUDPDst", none⟩,
   ⟨"XMTypeSCTPSrc", none⟩,
   ⟨"XMTypeSCTPDst", none⟩,
   ⟨"XMTypeICMPv4Type", none⟩,
   ⟨"XMTypeICMPv4Code", none⟩,
   ⟨"XMTypeARPOpcode", none⟩,
   ⟨"XMTypeARPSPA", none⟩,
   ⟨"XMTypeARPTPA", none⟩,
   ⟨"XMTypeARPSHA", none⟩,
   ⟨"XMTypeARPTHA", none⟩,
   ⟨"XMTypeIPv6Src", none⟩,
   ⟨"XMTypeIPv6Dst", none⟩,
   ⟨"XMTypeIPv6FLabel", none⟩,
   ⟨"XMTypeICMPv6Type", none⟩,
   ⟨"XMTypeICMPv6Code", none⟩,
   ⟨"XMTypeIPv6NDTarget", none⟩,
   ⟨"XMTypeIPv6NDSLL", none⟩,
   ⟨"XMTypeIPv6NDTLL", none⟩,
   ⟨"XMTypeMPLSLabel", none⟩,
   ⟨"XMTypeMPLSTC", none⟩,
   ⟨"XMTypeMPLSBOS", none⟩,
   ⟨"XMTypePBBISID", none⟩,
   ⟨"XMTypeTunnelID", none⟩,
   ⟨"XMTypeIPv6ExtHeader", none⟩]

/-- ofp/match.go:205-218. -/
def oxmClassConsts : List ConstSpec :=
  [⟨"XMClassNicira0", some .iota⟩,
   ⟨"XMClassNicira1", none⟩,
   ⟨"XMClassOpenflowBasic", some (.lit 0x8000)⟩,
   ⟨"XMClassExperimenter", some (.lit 0xffff)⟩]

/-- ofp/match.go:234-240. -/
def vlanIdConsts : List ConstSpec :=
  [⟨"VlanNone", some (.shl .iota (.lit 12))⟩,
   ⟨"VlanPresent", some (.shl .iota (.lit 12))⟩]

/-- ofp/match.go:249-282. -/
def iPv6ExtHdrConsts : List ConstSpec :=
  [⟨"IPv6ExtensionHeaderNoNext", some (.shl (.lit 1) .iota)⟩,
   ⟨"IPv6ExtensionHeaderESP", none⟩,
   ⟨"IPv6ExtensionHeaderAuth", none⟩,
   ⟨"IPv6ExtensionHeaderDest", none⟩,
   ⟨"IPv6ExtensionHeaderFrag", none⟩,
   ⟨"IPv6ExtensionHeaderRouter", none⟩,
   ⟨"IPv6ExtensionHeaderHop", none⟩,
   ⟨"IPv6ExtensionHeaderUnrep", none⟩,
   ⟨"IPv6ExtensionHeaderUnseq", none⟩]

/-- ofp/match.go:424-431. -/
def matchTypeConsts : List ConstSpec :=
  [⟨"MatchTypeStandard", some .iota⟩,
   ⟨"MatchTypeXM", none⟩]

/-- ofp/meter.go:14-23. -/
def meterModCommandConsts : List ConstSpec :=
  [⟨"MeterAdd", some .iota⟩,
   ⟨"MeterModify", none⟩,
   ⟨"MeterDelete", none⟩]

/-- ofp/meter.go:28-40. -/
def meterFlagsConsts : List ConstSpec :=
  [⟨"MeterFlagKBitPerSec", some (.shl (.lit 1) .iota)⟩,
   ⟨"MeterFlagPacketPerSec", none⟩,
   ⟨"MeterFlagBurst", none⟩,
   ⟨"MeterFlagStats", none⟩]

/-- ofp/meter.go:48-60. -/
def meterConsts : List ConstSpec :=
  [⟨"MeterMax", some (.lit 0xffff0000)⟩,
   ⟨"MeterSlowpath", some (.lit 0xfffffffd)⟩,
   ⟨"MeterController", some (.lit 0xfffffffe)⟩,
   ⟨"MeterAll", some (.lit 0xffffffff)⟩]

/-- ofp/meter.go:65-74. -/
def meterBandTypeConsts : List ConstSpec :=
  [⟨"MeterBandTypeDrop", some (.add (.lit 1) .iota)⟩,
   ⟨"MeterBandTypeDSCPRemark", some (.add (.lit 1) .iota)⟩,
   ⟨"MeterBandTypeExperimenter", some (.lit 0xffff)⟩]

/-- ofp/multipart.go:17-109. -/
def multipartTypeConsts : List ConstSpec :=
  [⟨"MultipartTypeDescription", some .iota⟩,
   ⟨"MultipartTypeFlow", none⟩,
   ⟨"MultipartTypeAggregate", none⟩,
   ⟨"MultipartTypeTable", none⟩,
   ⟨"MultipartTypePortStats", none⟩,
   ⟨"MultipartTypeQueue", none⟩,
   ⟨"MultipartTypeGroup", none⟩,
   ⟨"MultipartTypeGroupDescription", none⟩,
   ⟨"MultipartTypeGroupFeatures", none⟩,
   ⟨"MultipartTypeMeter", none⟩,
   ⟨"MultipartTypeMeterConfig", none⟩,
   ⟨"MultipartTypeMeterFeatures", none⟩,
   ⟨"MultipartTypeTableFeatures", none⟩,
   ⟨"MultipartTypePortDescription", none⟩,
   ⟨"MultipartTypeExperimenter", some (.lit 0xffff)⟩]

/-- ofp/multipart.go:140-143. -/
def multipartRequestFlagsConsts : List ConstSpec :=
  [⟨"MultipartRequestMode", some (.shl (.lit 1) .iota)⟩]

/-- ofp/multipart.go:148-151. -/
def multipartReplyFlagsConsts : List ConstSpec :=
  [⟨"MultipartReplyMode", some (.shl (.lit 1) .iota)⟩]

/-- ofp/packet.go:12-16. -/
def noBufferConsts : List ConstSpec :=
  [⟨"NoBuffer", some (.lit 0xffffffff)⟩]

/-- ofp/packet.go:18-29. -/
def packetInReasonConsts : List ConstSpec :=
  [⟨"PacketInReasonNoMatch", some .iota⟩,
   ⟨"PacketInReasonAction", none⟩,
   ⟨"PacketInReasonInvalidTTL", none⟩]

/-- ofp/port.go:14-77. -/
def portFeaturesConsts : List ConstSpec :=
  [⟨"PortFeature10MbitHalfDuplex", some (.shl (.lit 1) .iota)⟩,
   ⟨"PortFeature10MbitFullDuplex", none⟩,
   ⟨"PortFeature100MbitHalfDuplex", none⟩,
   ⟨"PortFeature100MbitFullDuplex", none⟩,
   ⟨"PortFeature1GbitHalfDuplex", none⟩,
   ⟨"PortFeature1GbitFullDuplex", none⟩,
   ⟨"PortFeature10GbitFullDuplex", none⟩,
   ⟨"PortFeature40GbitFullDuplex", none⟩,
   ⟨"PortFeature100GbitFullDuplex", none⟩,
   ⟨"PortFeature1TbitFullDuplex", none⟩,
   ⟨"PortFeatureOther", none⟩,
   ⟨"PortFeatureCopper", none⟩,
   ⟨"PortFeatureFiber", none⟩,
   ⟨"PortFeatureAutoneg", none⟩,
   ⟨"PortFeaturePause", none⟩,
   ⟨"PortFeaturePauseAsym", none⟩]

/-- ofp/port.go:124-147. -/
def portConfigConsts : List ConstSpec :=
  [⟨"PortConfigDown", some (.shl (.lit 1) .iota)⟩,
   ⟨"PortConfigNoSTP", none⟩,
   ⟨"PortConfigNoRcv", none⟩,
   ⟨"PortConfigNoRcvSTP", none⟩,
   ⟨"PortConfigNoFlood", none⟩,
   ⟨"PortConfigNoFwd", none⟩,
   ⟨"PortConfigNoPacketIn", none⟩]

/-- ofp/port.go:185-198. -/
def portStateConsts : List ConstSpec :=
  [⟨"PortStateLinkDown", some (.shl (.lit 1) .iota)⟩,
   ⟨"PortStateBlocked", none⟩,
   ⟨"PortStateLive", none⟩]

/-- ofp/port.go:218-251. -/
def portNoConsts : List ConstSpec :=
  [⟨"PortIn", some (.add (.lit 0xfffffff8) .iota)⟩,
   ⟨"PortTable", some (.add (.lit 0xfffffff8) .iota)⟩,
   ⟨"PortNormal", some (.add (.lit 0xfffffff8) .iota)⟩,
   ⟨"PortFlood", some (.add (.lit 0xfffffff8) .iota)⟩,
   ⟨"PortAll", some (.add (.lit 0xfffffff8) .iota)⟩,
   ⟨"PortController", some (.add (.lit 0xfffffff8) .iota)⟩,
   ⟨"PortLocal", some (.add (.lit 0xfffffff8) .iota)⟩,
   ⟨"PortAny", some (.lit 0xffffffff)⟩,
   ⟨"PortMax", some (.lit 0xffffff00)⟩]

/-- ofp/port.go:399-409. -/
def portReasonConsts : List ConstSpec :=
  [⟨"PortReasonAdd", some .iota⟩,
   ⟨"PortReasonDelete", none⟩,
   ⟨"PortReasonModify", none⟩]

/-- ofp/queue.go:15-27. -/
def queuePropertiesConsts : List ConstSpec :=
  [⟨"QueuePropTypeMinRate", some (.lit 1)⟩,
   ⟨"QueuePropTypeMaxRate", some (.lit 2)⟩,
   ⟨"QueuePropTypeExperimenter", some (.lit 0xffff)⟩]

/-- ofp/queue.go:39-42. -/
def queueConsts : List ConstSpec :=
  [⟨"QueueAll", some (.lit 0xffffffff)⟩]

/-- ofp/queue.go:149-157. -/
def queueRateConsts : List ConstSpec :=
  [⟨"QueueMinRateUncfg", some (.lit 0xffff)⟩,
   ⟨"QueueMaxRateUncfg", some (.lit 0xffff)⟩]

/-- ofp/switch.go:12-44. -/
def capabilitiesConsts : List ConstSpec :=
  [⟨"CapabilityFlowStats", some (.shl (.lit 1) .iota)⟩,
   ⟨"CapabilityTableStats", none⟩,
   ⟨"CapabilityPortStats", none⟩,
   ⟨"CapabilityGroupStats", none⟩,
   ⟨"CapabilityIPReasm", none⟩,
   ⟨"CapabilityQueueStats", none⟩,
   ⟨"CapabilityPortBlocked", some (.shl (.lit 1) (.lit 8))⟩]

/-- ofp/switch.go:49-67. -/
def configFlagsConsts : List ConstSpec :=
  [⟨"ConfigFlagFragNormal", some .iota⟩,
   ⟨"ConfigFlagFragDrop", none⟩,
   ⟨"ConfigFlagFragReasm", none⟩,
   ⟨"ConfigFlagFragMask", none⟩]

/-- ofp/table.go:23-30. -/
def tableConsts : List ConstSpec :=
  [⟨"TableMax", some (.lit 0xfe)⟩,
   ⟨"TableAll", some (.lit 0xff)⟩]

/-- ofp/table.go:36-40. -/
def tableConfigConsts : List ConstSpec :=
  [⟨"TableConfigDeprecatedMask", some (.lit 3)⟩]

/-- ofp/table.go:206-261. -/
def tablePropTypeConsts : List ConstSpec :=
  [⟨"TablePropTypeInstructions", some .iota⟩,
   ⟨"TablePropTypeInstructionsMiss", none⟩,
   ⟨"TablePropTypeNextTables", none⟩,
   ⟨"TablePropTypeNextTablesMiss", none⟩,
   ⟨"TablePropTypeWriteActions", none⟩,
   ⟨"TablePropTypeWriteActionsMiss", none⟩,
   ⟨"TablePropTypeApplyActions", none⟩,
   ⟨"TablePropTypeApplyActionsMiss", none⟩,
   ⟨"TablePropTypeMatch", none⟩,
   ⟨"TablePropTypeWildcards", some (.add (.lit 1) .iota)⟩,
   ⟨"TablePropTypeWriteSetField", some (.add (.lit 2) .iota)⟩,
   ⟨"TablePropTypeWriteSetFieldMiss", none⟩,
   ⟨"TablePropTypeApplySetField", none⟩,
   ⟨"TablePropTypeApplySetFieldMiss", none⟩,
   ⟨"TablePropTypeExperimenter", some (.lit 0xfffe)⟩,
   ⟨"TablePropTypeExperimenterMiss", some (.lit 0xffff)⟩]

end Verif
