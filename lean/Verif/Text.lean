import Verif.Ofp.Match

/-!
# The texts of the types: header.go, net.go and ofp

The `String` methods.  Values are given as natural numbers (`ConnState` as an integer), Go
strings as Lean strings; all texts are ASCII.  A Go map literal is a list: the compiler
rejects a literal with two equal constant keys, so the order does not matter.
-/

namespace Verif

/-- `fmt.Sprintf("%d", n)`. -/
def decimal (n : Nat) : String := Nat.repr n

/-- `fmt.Sprintf("%d", i)` for a signed integer. -/
def decimalInt : Int → String
  | .ofNat n => decimal n
  | .negSucc n => "-" ++ decimal (n + 1)

/-- The common shape of the `String` methods: the text of the map, or the name of the type
with the number. -/
def textOf (tbl : List (Nat × String)) (pre : String) (v : Nat) : String :=
  match tbl.lookup v with
  | some t => t
  | none => pre ++ "(" ++ decimal v ++ ")"

/-- `typeText`, header.go:171-202. -/
def typeText : List (Nat × String) :=
  [(0, "TypeHello"),
   (1, "TypeError"),
   (2, "TypeEchoRequest"),
   (3, "TypeEchoReply"),
   (4, "TypeExperiment"),
   (5, "TypeFeaturesRequest"),
   (6, "TypeFeaturesReply"),
   (7, "TypeGetConfigRequest"),
   (8, "TypeGetConfigReply"),
   (9, "TypeSetConfig"),
   (10, "TypePacketIn"),
   (11, "TypeFlowRemoved"),
   (12, "TypePortStatus"),
   (13, "TypePacketOut"),
   (14, "TypeFlowMod"),
   (15, "TypeGroupMod"),
   (16, "TypePortMod"),
   (17, "TypeTableMod"),
   (18, "TypeMultipartRequest"),
   (19, "TypeMultipartReply"),
   (20, "TypeBarrierRequest"),
   (21, "TypeBarrierReply"),
   (22, "TypeQueueGetConfigRequest"),
   (23, "TypeQueueGetConfigReply"),
   (24, "TypeRoleRequest"),
   (25, "TypeRoleReply"),
   (26, "TypeGetAsyncRequest"),
   (27, "TypeGetAsyncReply"),
   (28, "TypeSetAsync"),
   (29, "TypeMeterMod")]

/-- `connStateText`, net.go:54-60. -/
def connStateText : List (Nat × String) :=
  [(0, "StateNew"),
   (1, "StateHandshake"),
   (2, "StateActive"),
   (3, "StateIdle"),
   (4, "StateClosed")]

/-- `multipartTypeText`, ofp/multipart.go:119-135. -/
def multipartTypeText : List (Nat × String) :=
  [(0, "MultipartTypeDescription"),
   (1, "MultipartTypeFlow"),
   (2, "MultipartTypeAggregate"),
   (3, "MultipartTypeTable"),
   (4, "MultipartTypePortStats"),
   (5, "MultipartTypeQueue"),
   (6, "MultipartTypeGroup"),
   (7, "MultipartTypeGroupDescription"),
   (8, "MultipartTypeGroupFeatures"),
   (9, "MultipartTypeMeter"),
   (10, "MultipartTypeMeterConfig"),
   (11, "MultipartTypeMeterFeatures"),
   (12, "MultipartTypeTableFeatures"),
   (13, "MultipartTypePortDescription"),
   (65535, "MultipartTypeExperimenter")]

/-- `xmTypeText`, ofp/match.go:145-186. -/
def xmTypeText : List (Nat × String) :=
  [(0, "XMTypeInPort"),
   (1, "XMTypeInPhyPort"),
   (2, "XMTypeMetadata"),
   (3, "XMTypeEthDst"),
   (4, "XMTypeEthSrc"),
   (5, "XMTypeEthType"),
   (6, "XMTypeVlanID"),
   (7, "XMTypeVlanPCP"),
   (8, "XMTypeIPDSCP"),
   (9, "XMTypeIPECN"),
   (10, "XMTypeIPProto"),
   (11, "XMTypeIPv4Src"),
   (12, "XMTypeIPv4Dst"),
   (13, "XMTypeTCPSrc"),
   (14, "XMTypeTCPDst"),
   (15, "XMTypeUDPSrc"),
   (16, "XMTypeUDPDst"),
   (17, "XMTypeSCTPSrc"),
   (18, "XMTypeSCTPDst"),
   (19, "XMTypeICMPv4Type"),
   (20, "XMTypeICMPv4Code"),
   (21, "XMTypeARPOpcode"),
   (22, "XMTypeARPSPA"),
   (23, "XMTypeARPTPA"),
   (24, "XMTypeARPSHA"),
   (25, "XMTypeARPTHA"),
   (26, "XMTypeIPv6Src"),
   (27, "XMTypeIPv6Dst"),
   (28, "XMTypeIPv6FLabel"),
   (29, "XMTypeICMPv6Type"),
   (30, "XMTypeICMPv6Code"),
   (31, "XMTypeIPv6NDTarget"),
   (32, "XMTypeIPv6NDSLL"),
   (33, "XMTypeIPv6NDTLL"),
   (34, "XMTypeMPLSLabel"),
   (35, "XMTypeMPLSTC"),
   (36, "XMTypeMPLSBOS"),
   (37, "XMTypePBBISID"),
   (38, "XMTypeTunnelID"),
   (39, "XMTypeIPv6ExtHeader")]

/-- `classText`, ofp/match.go:220-225. -/
def xmClassText : List (Nat × String) :=
  [(0, "XMClassNicira0"),
   (1, "XMClassNicira1"),
   (32768, "XMClassOpenflowBasic"),
   (65535, "XMClassExperimeter")]

/-- `tablePropTypeText`, ofp/table.go:263-280. -/
def tablePropTypeText : List (Nat × String) :=
  [(0, "TablePropTypeInstructions"),
   (1, "TablePropTypeInstructionsMiss"),
   (2, "TablePropTypeNextTables"),
   (3, "TablePropTypeNextTablesMiss"),
   (4, "TablePropTypeWriteActions"),
   (5, "TablePropTypeWriteActionsMiss"),
   (6, "TablePropTypeApplyActions"),
   (7, "TablePropTypeApplyActionsMiss"),
   (8, "TablePropTypeMatch"),
   (10, "TablePropTypeWildcards"),
   (12, "TablePropTypeWriteSetField"),
   (13, "TablePropTypeWriteSetFieldMiss"),
   (14, "TablePropTypeApplySetField"),
   (15, "TablePropTypeApplySetFieldMiss"),
   (65534, "TablePropTypeExperimenter"),
   (65535, "TablePropTypeExperimenterMiss")]

/-- `errTypeText`, ofp/error.go:82-98. -/
def errTypeText : List (Nat × String) :=
  [(0, "ErrTypeHelloFailed"),
   (1, "ErrTypeBadRequest"),
   (2, "ErrTypeBadAction"),
   (3, "ErrTypeBadInstruction"),
   (4, "ErrTypeBadMatch"),
   (5, "ErrTypeFlowModFailed"),
   (6, "ErrTypeGroupModFailed"),
   (7, "ErrTypePortModFailed"),
   (8, "ErrTypeTableModFailed"),
   (9, "ErrTypeQueueOpFailed"),
   (10, "ErrTypeSwitchConfigFailed"),
   (11, "ErrTypeRoleRequestFailed"),
   (12, "ErrTypeMeterModFailed"),
   (13, "ErrTypeTableFeaturesFailed"),
   (65535, "ErrTypeExperimenter")]

/-- `packetInReasonText`, ofp/packet.go:43-47. -/
def packetInReasonText : List (Nat × String) :=
  [(0, "PacketInReasonNoMatch"),
   (1, "PacketInReasonAction"),
   (2, "PacketInReasonInvalidTTL")]

/-- `actionText`, ofp/action.go:90-108. -/
def actionText : List (Nat × String) :=
  [(0, "ActionOutput"),
   (11, "ActionCopyTTLOut"),
   (12, "ActionCopyTTLIn"),
   (15, "ActionSetMPLSTTL"),
   (16, "ActionDecMPLSTTL"),
   (17, "ActionPushVLAN"),
   (18, "ActionPopVLAN"),
   (19, "ActionPushMPLS"),
   (20, "ActionPopMPLS"),
   (21, "ActionSetQueue"),
   (22, "ActionGroup"),
   (23, "ActionSetNwTTL"),
   (24, "ActionDecNwTTL"),
   (25, "ActionSetField"),
   (26, "ActionPushPBB"),
   (27, "ActionPopPBB"),
   (65535, "ActionExperimenter")]

/-- `instructionTypeText`, ofp/instruction.go:51-59. -/
def instructionTypeText : List (Nat × String) :=
  [(1, "InstructionGotoTable"),
   (2, "InstructionWriteMetadata"),
   (3, "InstructionWriteActions"),
   (4, "InstructionApplyActions"),
   (5, "InstructionClearActions"),
   (6, "InstructionMeter"),
   (65535, "InstructionExperimenter")]

/-- `errTypeCodeText`, ofp/error.go:598-739. -/
def errTypeCodeText : List (Nat × List (Nat × String)) :=
  [(0, [(0, "ErrCodeHelloFailedIncompatible"),
      (1, "ErrCodeHelloFailedPerm")]),
   (1, [(0, "ErrCodeBadRequestBadVersion"),
      (1, "ErrCodeBadRequestBadType"),
      (2, "ErrCodeBadRequestBadMultipart"),
      (3, "ErrCodeBadRequestBadExperimenter"),
      (4, "ErrCodeBadRequestBadExpType"),
      (5, "ErrCodeBadRequestPerm"),
      (6, "ErrCodeBadRequestLen"),
      (7, "ErrCodeBadRequestBufferEmpty"),
      (8, "ErrCodeBadRequestBufferUnknown"),
      (9, "ErrCodeBadRequestBadTableID"),
      (10, "ErrCodeBadRequestIsSlave"),
      (11, "ErrCodeBadRequestBadPort"),
      (12, "ErrCodeBadRequestBadPacket"),
      (13, "ErrCodeBadRequestMultipartBufferOverflow")]),
   (2, [(0, "ErrCodeBadActionType"),
      (1, "ErrCodeBadActionLen"),
      (2, "ErrCodeBadActionExperimenter"),
      (3, "ErrCodeBadActionExpType"),
      (4, "ErrCodeBadActionOutPort"),
      (5, "ErrCodeBadActionArgument"),
      (6, "ErrCodeBadActionPerm"),
      (7, "ErrCodeBadActionTooMany"),
      (8, "ErrCodeBadActionQueue"),
      (9, "ErrCodeBadActionOutGroup"),
      (10, "ErrCodeBadActionMatchInconsistent"),
      (11, "ErrCodeBadActionUnsupportedOrder"),
      (12, "ErrCodeBadActionTag"),
      (13, "ErrCodeBadActionSetType"),
      (14, "ErrCodeBadActionSetLen"),
      (15, "ErrCodeBadActionSetArgument")]),
   (3, [(0, "ErrCodeBadInstructionUnknown"),
      (1, "ErrCodeBadInstructionUnsupported"),
      (2, "ErrCodeBadInstructionTableID"),
      (3, "ErrCodeBadInstructionUnsupportedMetadata"),
      (4, "ErrCodeBadInstructionUnsupportedMetadataMask"),
      (5, "ErrCodeBadInstructionExperimenter"),
      (6, "ErrCodeBadInstructionExpType"),
      (7, "ErrCodeBadInstructionLen"),
      (8, "ErrCodeBadInstructionPerm")]),
   (4, [(0, "ErrCodeBadMatchBadType"),
      (1, "ErrCodeBadMatchBadLen"),
      (2, "ErrCodeBadMatchBadTag"),
      (3, "ErrCodeBadMatchBadLinkMask"),
      (4, "ErrCodeBadMatchBadNetMask"),
      (5, "ErrCodeBadMatchBadWildcards"),
      (6, "ErrCodeBadMatchBadField"),
      (7, "ErrCodeBadMatchBadValue"),
      (8, "ErrCodeBadMatchBadMask"),
      (9, "ErrCodeBadMatchBadPrereq"),
      (10, "ErrCodeBadMatchDupField"),
      (11, "ErrCodeBadMatchPerm")]),
   (5, [(0, "ErrCodeFlowModFailedUnknown"),
      (1, "ErrCodeFlowModFailedTableFull"),
      (2, "ErrCodeFlowModFailedBadTableID"),
      (3, "ErrCodeFlowModFailedOverlap"),
      (4, "ErrCodeFlowModFailedPerm"),
      (5, "ErrCodeFlowModFailedBadTimeout"),
      (6, "ErrCodeFlowModFailedBadCommand"),
      (7, "ErrCodeFlowModFailedBadFlags")]),
   (6, [(0, "ErrCodeGroupModFailedGroupExists"),
      (1, "ErrCodeGroupModFailedInvalidGroup"),
      (2, "ErrCodeGroupModFailedWeightUnsupported"),
      (3, "ErrCodeGroupModFailedOutOfGroups"),
      (4, "ErrCodeGroupModFailedOutOfBuckets"),
      (5, "ErrCodeGroupModFailedChainingUnsupported"),
      (6, "ErrCodeGroupModFailedWatchUnsupported"),
      (7, "ErrCodeGroupModFailedLoop"),
      (8, "ErrCodeGroupModFailedUnknownGroup"),
      (9, "ErrCodeGroupModFailedChainedGroup"),
      (10, "ErrCodeGroupModBadType"),
      (11, "ErrCodeGroupModBadCommand"),
      (12, "ErrCodeGroupModBadBucket"),
      (13, "ErrCodeGroupModBadWatch"),
      (14, "ErrCodeGroupModPerm")]),
   (7, [(0, "ErrCodePortModFailedBadPort"),
      (1, "ErrCodePortModFailedBadHwAddr"),
      (2, "ErrCodePortModFailedBadConfig"),
      (3, "ErrCodePortModFailedBadAdvertise"),
      (4, "ErrCodePortModFailedPerm")]),
   (8, [(0, "ErrCodeTableModFailedBadTable"),
      (1, "ErrCodeTableModFailedBadConfig"),
      (2, "ErrCodeTableModFailedPerm")]),
   (9, [(0, "ErrCodeQueueOpFailedBadPort"),
      (1, "ErrCodeQueueOpFailedBadQueue"),
      (2, "ErrCodeQueueOpFailedPerm")]),
   (10, [(0, "ErrCodeSwitchConfigFailedBadFlags"),
      (1, "ErrCodeSwitchConfigFailedBadLen"),
      (2, "ErrCodeSwitchConfigFailedPerm")]),
   (11, [(0, "ErrCodeRoleRequestFailedStale"),
      (1, "ErrCodeRoleRequestFailedUnsup"),
      (2, "ErrCodeRoleRequestFailedBadRole")]),
   (12, [(0, "ErrCodeMeterModFailedUnknown"),
      (1, "ErrCodeMeterModFailedMeterExists"),
      (2, "ErrCodeMeterModFailedInvalidMeter"),
      (3, "ErrCodeMeterModFailedUnknownMeter"),
      (4, "ErrCodeMeterModFailedBadCommand"),
      (5, "ErrCodeMeterModFailedBadFlags"),
      (6, "ErrCodeMeterModFailedBadRate"),
      (7, "ErrCodeMeterModFailedBadBurst"),
      (8, "ErrCodeMeterModFailedBadBand"),
      (9, "ErrCodeMeterModFailedBadBandValue"),
      (10, "ErrCodeMeterModFailedOutOfMeters"),
      (11, "ErrCodeMeterModFailedOutOfBands")]),
   (13, [(0, "ErrCodeTableFeaturesFailedBadTable"),
      (1, "ErrCodeTableFeaturesFailedBadMetadata"),
      (2, "ErrCodeTableFeaturesFailedBadType"),
      (3, "ErrCodeTableFeaturesFailedBadLen"),
      (4, "ErrCodeTableFeaturesFailedBadArgument"),
      (5, "ErrCodeTableFeaturesFailedPerm")]),
   (65535, [])]

/-- `(t Type) String`, header.go:162-169. -/
def Type.string (t : UInt8) : String := textOf typeText "Type" t.toNat

/-- `(c ConnState) String`, net.go:46-52; `ConnState` is an `int`, net.go:14. -/
def ConnState.string (c : Int) : String :=
  match connStateText.lookup c.toNat, decide (0 ≤ c) with
  | some t, true => t
  | _, _ => "ConnState(" ++ decimalInt c ++ ")"

/-- `(t MultipartType) String`, ofp/multipart.go:111-117. -/
def MultipartType.string (t : UInt16) : String := textOf multipartTypeText "MultipartType" t.toNat

/-- `(t XMType) String`, ofp/match.go:15-21. -/
def XMType.string (t : UInt8) : String := textOf xmTypeText "XMType" t.toNat

/-- `(c XMClass) String`, ofp/match.go:197-203. -/
def XMClass.string (c : UInt16) : String := textOf xmClassText "XMClass" c.toNat

/-- `(t Table) String`, ofp/table.go:18-21. -/
def Table.string (t : UInt8) : String := "Table(" ++ decimal t.toNat ++ ")"

/-- `(t TablePropType) String`, ofp/table.go:199-204. -/
def TablePropType.string (t : UInt16) : String := textOf tablePropTypeText "TablePropType" t.toNat

/-- `(t ErrType) String`, ofp/error.go:74-80. -/
def ErrType.string (t : UInt16) : String := textOf errTypeText "ErrType" t.toNat

/-- `(e Error) String` and `(e Error) Error`, ofp/error.go:582-596, of the fields that are
used. -/
def Error.string (type code : UInt16) : String :=
  match errTypeCodeText.lookup type.toNat with
  | none => "ErrType(" ++ decimal type.toNat ++ ")Code(" ++ decimal code.toNat ++ ")"
  | some m =>
    match m.lookup code.toNat with
    | none => ErrType.string type ++ "Code(" ++ decimal code.toNat ++ ")"
    | some t => t

/-- `(r PacketInReason) String`, ofp/packet.go:35-41. -/
def PacketInReason.string (r : UInt8) : String := textOf packetInReasonText "PacketInReason" r.toNat

/-- `(a ActionType) String`, ofp/action.go:15-24. -/
def ActionType.string (a : UInt16) : String := textOf actionText "Action" a.toNat

/-- `(it InstructionType) String`, ofp/instruction.go:42-49. -/
def InstructionType.string (t : UInt16) : String := textOf instructionTypeText "InstructionType" t.toNat

/-! ## Flags -/

/-- `strings.Join(l, " ")`. -/
def joinText : List String → String
  | [] => ""
  | [a] => a
  | a :: b :: l => a ++ " " ++ joinText (b :: l)

/-- `portFeaturesText`, ofp/port.go:79-99. -/
def portFeaturesText : List (UInt32 × String) :=
  [(0x1, "10 Mbps half-duplex"),
   (0x2, "10 Mbps full-duplex"),
   (0x4, "100 Mbps half-duplex"),
   (0x8, "100 Mbps full-duplex"),
   (0x10, "1 Gbps half-duplex"),
   (0x20, "1 Gbps full-duplex"),
   (0x40, "10 Gbps full-duplex"),
   (0x80, "40 Gbps full-duplex"),
   (0x100, "100 Gbps full-duplex"),
   (0x200, "1 Tbps full-duplex"),
   (0x400, "other"),
   (0x800, "copper"),
   (0x1000, "fiber"),
   (0x2000, "autoneg"),
   (0x4000, "pause"),
   (0x8000, "pause asym")]

/-- The loops of ofp/port.go:107-111 and 172-176. -/
def flagTexts (tbl : List (UInt32 × String)) (f : UInt32) : List String :=
  tbl.filterMap (fun p => if p.1 &&& f ≠ 0 then some p.2 else none)

/-- `(f PortFeature) String`, ofp/port.go:101-115. -/
def PortFeature.string (f : UInt32) : String := joinText (flagTexts portFeaturesText f)

/-- `portConfigText`, ofp/port.go:149-160. -/
def portConfigText : List (UInt32 × String) :=
  [(0x1, "down"),
   (0x2, "no STP"),
   (0x4, "no recv"),
   (0x8, "no recv STP"),
   (0x10, "no flood"),
   (0x20, "no fwd"),
   (0x40, "no packet in")]

/-- `(c PortConfig) String`, ofp/port.go:162-179. -/
def PortConfig.string (c : UInt32) : String :=
  joinText ((if 0x1 &&& c = 0 then ["up"] else []) ++ flagTexts portConfigText c)

/-- `portStateText`, ofp/port.go:200-204. -/
def portStateText : List (Nat × String) :=
  [(1, "link down"), (2, "blocked"), (4, "live")]

/-- `(s PortState) String`, ofp/port.go:206-213. -/
def PortState.string (s : UInt32) : String :=
  match portStateText.lookup s.toNat with
  | some t => t
  | none => "link up"

/-! ## Table properties -/

/-- `fmt.Sprintf("%v", b)`. -/
def boolText (b : Bool) : String := if b then "true" else "false"

/-- `fmt.Sprintf("%v", l)` for a slice whose elements have a `String` method. -/
def sliceText {α : Type} (f : α → String) (l : List α) : String := "[" ++ joinText (l.map f) ++ "]"

/-- `(t *TablePropInstructions) String`, ofp/table.go:434-438. -/
def TablePropInstructions.string (miss : Bool) (l : List UInt16) : String :=
  "TablePropInstructions{Miss: " ++ boolText miss ++ ", Instructions: " ++
    sliceText InstructionType.string l ++ "}"

/-- `(t *TablePropNextTables) String`, ofp/table.go:508-512. -/
def TablePropNextTables.string (miss : Bool) (l : List UInt8) : String :=
  "TablePropNextTables{Miss: " ++ boolText miss ++ ", NextTables: " ++
    sliceText Table.string l ++ "}"

/-- `(t *TablePropWriteActions) String`, ofp/table.go:557-561. -/
def TablePropWriteActions.string (miss : Bool) (l : List UInt16) : String :=
  "TablePropWriteActions{Miss: " ++ boolText miss ++ ", Actions: [" ++
    sliceText ActionType.string l ++ "]}"

/-- `(t *TablePropApplyActions) String`, ofp/table.go:593-597. -/
def TablePropApplyActions.string (miss : Bool) (l : List UInt16) : String :=
  "TablePropApplyActions{Miss: " ++ boolText miss ++ ", Actions: [" ++
    sliceText ActionType.string l ++ "]}"

/-- `fmt.Sprintf("%v", x)` for an `XM`, ofp/match.go:302-313: the fields of the struct, the
first two with their `String` methods; an `XMValue` (ofp/match.go:404) has none. -/
def XM.text (x : XM) : String :=
  "{" ++ XMClass.string x.cls ++ " " ++ XMType.string x.type ++ " " ++
    sliceText (fun b => decimal b.toNat) x.value ++ " " ++
    sliceText (fun b => decimal b.toNat) x.mask ++ "}"

/-- `(t *TablePropApplySetField) String`, ofp/table.go:707-711. -/
def TablePropApplySetField.string (miss : Bool) (l : List XM) : String :=
  "TablePropApplySetField{Miss: " ++ boolText miss ++ ", Fields: " ++ sliceText XM.text l ++ "}"

end Verif
