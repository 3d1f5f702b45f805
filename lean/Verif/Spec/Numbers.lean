/-!
# The numbers of OpenFlow 1.3

The enumerations of the OpenFlow Switch Specification, version 1.3 (`openflow.h`), for the
constants that the package has names for: the name in Go, the name in the specification and its
number there.  Nothing here is taken from the values in the source.
-/

namespace Verif.Spec

/-- enum ofp_type. -/
def ofpType : List (String × String × Nat) :=
  [("TypeHello", "OFPT_HELLO", 0),
   ("TypeError", "OFPT_ERROR", 1),
   ("TypeEchoRequest", "OFPT_ECHO_REQUEST", 2),
   ("TypeEchoReply", "OFPT_ECHO_REPLY", 3),
   ("TypeExperiment", "OFPT_EXPERIMENTER", 4),
   ("TypeFeaturesRequest", "OFPT_FEATURES_REQUEST", 5),
   ("TypeFeaturesReply", "OFPT_FEATURES_REPLY", 6),
   ("TypeGetConfigRequest", "OFPT_GET_CONFIG_REQUEST", 7),
   ("TypeGetConfigReply", "OFPT_GET_CONFIG_REPLY", 8),
   ("TypeSetConfig", "OFPT_SET_CONFIG", 9),
   ("TypePacketIn", "OFPT_PACKET_IN", 10),
   ("TypeFlowRemoved", "OFPT_FLOW_REMOVED", 11),
   ("TypePortStatus", "OFPT_PORT_STATUS", 12),
   ("TypePacketOut", "OFPT_PACKET_OUT", 13),
   ("TypeFlowMod", "OFPT_FLOW_MOD", 14),
   ("TypeGroupMod", "OFPT_GROUP_MOD", 15),
   ("TypePortMod", "OFPT_PORT_MOD", 16),
   ("TypeTableMod", "OFPT_TABLE_MOD", 17),
   ("TypeMultipartRequest", "OFPT_MULTIPART_REQUEST", 18),
   ("TypeMultipartReply", "OFPT_MULTIPART_REPLY", 19),
   ("TypeBarrierRequest", "OFPT_BARRIER_REQUEST", 20),
   ("TypeBarrierReply", "OFPT_BARRIER_REPLY", 21),
   ("TypeQueueGetConfigRequest", "OFPT_QUEUE_GET_CONFIG_REQUEST", 22),
   ("TypeQueueGetConfigReply", "OFPT_QUEUE_GET_CONFIG_REPLY", 23),
   ("TypeRoleRequest", "OFPT_ROLE_REQUEST", 24),
   ("TypeRoleReply", "OFPT_ROLE_REPLY", 25),
   ("TypeGetAsyncRequest", "OFPT_GET_ASYNC_REQUEST", 26),
   ("TypeGetAsyncReply", "OFPT_GET_ASYNC_REPLY", 27),
   ("TypeSetAsync", "OFPT_SET_ASYNC", 28),
   ("TypeMeterMod", "OFPT_METER_MOD", 29)]

/-- enum ofp_action_type. -/
def ofpActionType : List (String × String × Nat) :=
  [("ActionTypeOutput", "OFPAT_OUTPUT", 0),
   ("ActionTypeCopyTTLOut", "OFPAT_COPY_TTL_OUT", 11),
   ("ActionTypeCopyTTLIn", "OFPAT_COPY_TTL_IN", 12),
   ("ActionTypeSetMPLSTTL", "OFPAT_SET_MPLS_TTL", 15),
   ("ActionTypeDecMPLSTTL", "OFPAT_DEC_MPLS_TTL", 16),
   ("ActionTypePushVLAN", "OFPAT_PUSH_VLAN", 17),
   ("ActionTypePopVLAN", "OFPAT_POP_VLAN", 18),
   ("ActionTypePushMPLS", "OFPAT_PUSH_MPLS", 19),
   ("ActionTypePopMPLS", "OFPAT_POP_MPLS", 20),
   ("ActionTypeSetQueue", "OFPAT_SET_QUEUE", 21),
   ("ActionTypeGroup", "OFPAT_GROUP", 22),
   ("ActionTypeSetNwTTL", "OFPAT_SET_NW_TTL", 23),
   ("ActionTypeDecNwTTL", "OFPAT_DEC_NW_TTL", 24),
   ("ActionTypeSetField", "OFPAT_SET_FIELD", 25),
   ("ActionTypePushPBB", "OFPAT_PUSH_PBB", 26),
   ("ActionTypePopPBB", "OFPAT_POP_PBB", 27),
   ("ActionTypeExperimenter", "OFPAT_EXPERIMENTER", 0xffff)]

/-- enum ofp_controller_max_len. -/
def ofpControllerMaxLen : List (String × String × Nat) :=
  [("ContentLenMax", "OFPCML_MAX", 0xffe5),
   ("ContentLenNoBuffer", "OFPCML_NO_BUFFER", 0xffff)]

/-- enum ofp_error_type. -/
def ofpErrorType : List (String × String × Nat) :=
  [("ErrTypeHelloFailed", "OFPET_HELLO_FAILED", 0),
   ("ErrTypeBadRequest", "OFPET_BAD_REQUEST", 1),
   ("ErrTypeBadAction", "OFPET_BAD_ACTION", 2),
   ("ErrTypeBadInstruction", "OFPET_BAD_INSTRUCTION", 3),
   ("ErrTypeBadMatch", "OFPET_BAD_MATCH", 4),
   ("ErrTypeFlowModFailed", "OFPET_FLOW_MOD_FAILED", 5),
   ("ErrTypeGroupModFailed", "OFPET_GROUP_MOD_FAILED", 6),
   ("ErrTypePortModFailed", "OFPET_PORT_MOD_FAILED", 7),
   ("ErrTypeTableModFailed", "OFPET_TABLE_MOD_FAILED", 8),
   ("ErrTypeQueueOpFailed", "OFPET_QUEUE_OP_FAILED", 9),
   ("ErrTypeSwitchConfigFailed", "OFPET_SWITCH_CONFIG_FAILED", 10),
   ("ErrTypeRoleRequestFailed", "OFPET_ROLE_REQUEST_FAILED", 11),
   ("ErrTypeMeterModFailed", "OFPET_METER_MOD_FAILED", 12),
   ("ErrTypeTableFeaturesFailed", "OFPET_TABLE_FEATURES_FAILED", 13),
   ("ErrTypeExperimenter", "OFPET_EXPERIMENTER", 0xffff)]

/-- enum ofp_hello_failed_code. -/
def ofpHelloFailedCode : List (String × String × Nat) :=
  [("ErrCodeHelloFailedIncompatible", "OFPHFC_INCOMPATIBLE", 0),
   ("ErrCodeHelloFailedPerm", "OFPHFC_EPERM", 1)]

/-- enum ofp_bad_request_code. -/
def ofpBadRequestCode : List (String × String × Nat) :=
  [("ErrCodeBadRequestBadVersion", "OFPBRC_BAD_VERSION", 0),
   ("ErrCodeBadRequestBadType", "OFPBRC_BAD_TYPE", 1),
   ("ErrCodeBadRequestBadMultipart", "OFPBRC_BAD_MULTIPART", 2),
   ("ErrCodeBadRequestBadExperimenter", "OFPBRC_BAD_EXPERIMENTER", 3),
   ("ErrCodeBadRequestBadExpType", "OFPBRC_BAD_EXP_TYPE", 4),
   ("ErrCodeBadRequestPerm", "OFPBRC_EPERM", 5),
   ("ErrCodeBadRequestLen", "OFPBRC_BAD_LEN", 6),
   ("ErrCodeBadRequestBufferEmpty", "OFPBRC_BUFFER_EMPTY", 7),
   ("ErrCodeBadRequestBufferUnknown", "OFPBRC_BUFFER_UNKNOWN", 8),
   ("ErrCodeBadRequestBadTableID", "OFPBRC_BAD_TABLE_ID", 9),
   ("ErrCodeBadRequestIsSlave", "OFPBRC_IS_SLAVE", 10),
   ("ErrCodeBadRequestBadPort", "OFPBRC_BAD_PORT", 11),
   ("ErrCodeBadRequestBadPacket", "OFPBRC_BAD_PACKET", 12),
   ("ErrCodeBadRequestMultipartBufferOverflow", "OFPBRC_MULTIPART_BUFFER_OVERFLOW", 13)]

/-- enum ofp_bad_action_code. -/
def ofpBadActionCode : List (String × String × Nat) :=
  [("ErrCodeBadActionType", "OFPBAC_BAD_TYPE", 0),
   ("ErrCodeBadActionLen", "OFPBAC_BAD_LEN", 1),
   ("ErrCodeBadActionExperimenter", "OFPBAC_BAD_EXPERIMENTER", 2),
   ("ErrCodeBadActionExpType", "OFPBAC_BAD_EXP_TYPE", 3),
   ("ErrCodeBadActionOutPort", "OFPBAC_BAD_OUT_PORT", 4),
   ("ErrCodeBadActionArgument", "OFPBAC_BAD_ARGUMENT", 5),
   ("ErrCodeBadActionPerm", "OFPBAC_EPERM", 6),
   ("ErrCodeBadActionTooMany", "OFPBAC_TOO_MANY", 7),
   ("ErrCodeBadActionQueue", "OFPBAC_BAD_QUEUE", 8),
   ("ErrCodeBadActionOutGroup", "OFPBAC_BAD_OUT_GROUP", 9),
   ("ErrCodeBadActionMatchInconsistent", "OFPBAC_MATCH_INCONSISTENT", 10),
   ("ErrCodeBadActionUnsupportedOrder", "OFPBAC_UNSUPPORTED_ORDER", 11),
   ("ErrCodeBadActionTag", "OFPBAC_BAD_TAG", 12),
   ("ErrCodeBadActionSetType", "OFPBAC_BAD_SET_TYPE", 13),
   ("ErrCodeBadActionSetLen", "OFPBAC_BAD_SET_LEN", 14),
   ("ErrCodeBadActionSetArgument", "OFPBAC_BAD_SET_ARGUMENT", 15)]

/-- enum ofp_bad_instruction_code. -/
def ofpBadInstructionCode : List (String × String × Nat) :=
  [("ErrCodeBadInstructionUnknown", "OFPBIC_UNKNOWN_INST", 0),
   ("ErrCodeBadInstructionUnsupported", "OFPBIC_UNSUP_INST", 1),
   ("ErrCodeBadInstructionTableID", "OFPBIC_BAD_TABLE_ID", 2),
   ("ErrCodeBadInstructionUnsupportedMetadata", "OFPBIC_UNSUP_METADATA", 3),
   ("ErrCodeBadInstructionUnsupportedMetadataMask", "OFPBIC_UNSUP_METADATA_MASK", 4),
   ("ErrCodeBadInstructionExperimenter", "OFPBIC_BAD_EXPERIMENTER", 5),
   ("ErrCodeBadInstructionExpType", "OFPBIC_BAD_EXP_TYPE", 6),
   ("ErrCodeBadInstructionLen", "OFPBIC_BAD_LEN", 7),
   ("ErrCodeBadInstructionPerm", "OFPBIC_EPERM", 8)]

/-- enum ofp_bad_match_code. -/
def ofpBadMatchCode : List (String × String × Nat) :=
  [("ErrCodeBadMatchBadType", "OFPBMC_BAD_TYPE", 0),
   ("ErrCodeBadMatchBadLen", "OFPBMC_BAD_LEN", 1),
   ("ErrCodeBadMatchBadTag", "OFPBMC_BAD_TAG", 2),
   ("ErrCodeBadMatchBadLinkMask", "OFPBMC_BAD_DL_ADDR_MASK", 3),
   ("ErrCodeBadMatchBadNetMask", "OFPBMC_BAD_NW_ADDR_MASK", 4),
   ("ErrCodeBadMatchBadWildcards", "OFPBMC_BAD_WILDCARDS", 5),
   ("ErrCodeBadMatchBadField", "OFPBMC_BAD_FIELD", 6),
   ("ErrCodeBadMatchBadValue", "OFPBMC_BAD_VALUE", 7),
   ("ErrCodeBadMatchBadMask", "OFPBMC_BAD_MASK", 8),
   ("ErrCodeBadMatchBadPrereq", "OFPBMC_BAD_PREREQ", 9),
   ("ErrCodeBadMatchDupField", "OFPBMC_DUP_FIELD", 10),
   ("ErrCodeBadMatchPerm", "OFPBMC_EPERM", 11)]

/-- enum ofp_flow_mod_failed_code. -/
def ofpFlowModFailedCode : List (String × String × Nat) :=
  [("ErrCodeFlowModFailedUnknown", "OFPFMFC_UNKNOWN", 0),
   ("ErrCodeFlowModFailedTableFull", "OFPFMFC_TABLE_FULL", 1),
   ("ErrCodeFlowModFailedBadTableID", "OFPFMFC_BAD_TABLE_ID", 2),
   ("ErrCodeFlowModFailedOverlap", "OFPFMFC_OVERLAP", 3),
   ("ErrCodeFlowModFailedPerm", "OFPFMFC_EPERM", 4),
   ("ErrCodeFlowModFailedBadTimeout", "OFPFMFC_BAD_TIMEOUT", 5),
   ("ErrCodeFlowModFailedBadCommand", "OFPFMFC_BAD_COMMAND", 6),
   ("ErrCodeFlowModFailedBadFlags", "OFPFMFC_BAD_FLAGS", 7)]

/-- enum ofp_group_mod_failed_code. -/
def ofpGroupModFailedCode : List (String × String × Nat) :=
  [("ErrCodeGroupModFailedGroupExists", "OFPGMFC_GROUP_EXISTS", 0),
   ("ErrCodeGroupModFailedInvalidGroup", "OFPGMFC_INVALID_GROUP", 1),
   ("ErrCodeGroupModFailedWeightUnsupported", "OFPGMFC_WEIGHT_UNSUPPORTED", 2),
   ("ErrCodeGroupModFailedOutOfGroups", "OFPGMFC_OUT_OF_GROUPS", 3),
   ("ErrCodeGroupModFailedOutOfBuckets", "OFPGMFC_OUT_OF_BUCKETS", 4),
   ("ErrCodeGroupModFailedChainingUnsupported", "OFPGMFC_CHAINING_UNSUPPORTED", 5),
   ("ErrCodeGroupModFailedWatchUnsupported", "OFPGMFC_WATCH_UNSUPPORTED", 6),
   ("ErrCodeGroupModFailedLoop", "OFPGMFC_LOOP", 7),
   ("ErrCodeGroupModFailedUnknownGroup", "OFPGMFC_UNKNOWN_GROUP", 8),
   ("ErrCodeGroupModFailedChainedGroup", "OFPGMFC_CHAINED_GROUP", 9),
   ("ErrCodeGroupModBadType", "OFPGMFC_BAD_TYPE", 10),
   ("ErrCodeGroupModBadCommand", "OFPGMFC_BAD_COMMAND", 11),
   ("ErrCodeGroupModBadBucket", "OFPGMFC_BAD_BUCKET", 12),
   ("ErrCodeGroupModBadWatch", "OFPGMFC_BAD_WATCH", 13),
   ("ErrCodeGroupModPerm", "OFPGMFC_EPERM", 14)]

/-- enum ofp_port_mod_failed_code. -/
def ofpPortModFailedCode : List (String × String × Nat) :=
  [("ErrCodePortModFailedBadPort", "OFPPMFC_BAD_PORT", 0),
   ("ErrCodePortModFailedBadHwAddr", "OFPPMFC_BAD_HW_ADDR", 1),
   ("ErrCodePortModFailedBadConfig", "OFPPMFC_BAD_CONFIG", 2),
   ("ErrCodePortModFailedBadAdvertise", "OFPPMFC_BAD_ADVERTISE", 3),
   ("ErrCodePortModFailedPerm", "OFPPMFC_EPERM", 4)]

/-- enum ofp_table_mod_failed_code. -/
def ofpTableModFailedCode : List (String × String × Nat) :=
  [("ErrCodeTableModFailedBadTable", "OFPTMFC_BAD_TABLE", 0),
   ("ErrCodeTableModFailedBadConfig", "OFPTMFC_BAD_CONFIG", 1),
   ("ErrCodeTableModFailedPerm", "OFPTMFC_EPERM", 2)]

/-- enum ofp_queue_op_failed_code. -/
def ofpQueueOpFailedCode : List (String × String × Nat) :=
  [("ErrCodeQueueOpFailedBadPort", "OFPQOFC_BAD_PORT", 0),
   ("ErrCodeQueueOpFailedBadQueue", "OFPQOFC_BAD_QUEUE", 1),
   ("ErrCodeQueueOpFailedPerm", "OFPQOFC_EPERM", 2)]

/-- enum ofp_switch_config_failed_code. -/
def ofpSwitchConfigFailedCode : List (String × String × Nat) :=
  [("ErrCodeSwitchConfigFailedBadFlags", "OFPSCFC_BAD_FLAGS", 0),
   ("ErrCodeSwitchConfigFailedBadLen", "OFPSCFC_BAD_LEN", 1),
   ("ErrCodeSwitchConfigFailedPerm", "OFPSCFC_EPERM", 2)]

/-- enum ofp_role_request_failed_code. -/
def ofpRoleRequestFailedCode : List (String × String × Nat) :=
  [("ErrCodeRoleRequestFailedStale", "OFPRRFC_STALE", 0),
   ("ErrCodeRoleRequestFailedUnsup", "OFPRRFC_UNSUP", 1),
   ("ErrCodeRoleRequestFailedBadRole", "OFPRRFC_BAD_ROLE", 2)]

/-- enum ofp_meter_mod_failed_code. -/
def ofpMeterModFailedCode : List (String × String × Nat) :=
  [("ErrCodeMeterModFailedUnknown", "OFPMMFC_UNKNOWN", 0),
   ("ErrCodeMeterModFailedMeterExists", "OFPMMFC_METER_EXISTS", 1),
   ("ErrCodeMeterModFailedInvalidMeter", "OFPMMFC_INVALID_METER", 2),
   ("ErrCodeMeterModFailedUnknownMeter", "OFPMMFC_UNKNOWN_METER", 3),
   ("ErrCodeMeterModFailedBadCommand", "OFPMMFC_BAD_COMMAND", 4),
   ("ErrCodeMeterModFailedBadFlags", "OFPMMFC_BAD_FLAGS", 5),
   ("ErrCodeMeterModFailedBadRate", "OFPMMFC_BAD_RATE", 6),
   ("ErrCodeMeterModFailedBadBurst", "OFPMMFC_BAD_BURST", 7),
   ("ErrCodeMeterModFailedBadBand", "OFPMMFC_BAD_BAND", 8),
   ("ErrCodeMeterModFailedBadBandValue", "OFPMMFC_BAD_BAND_VALUE", 9),
   ("ErrCodeMeterModFailedOutOfMeters", "OFPMMFC_OUT_OF_METERS", 10),
   ("ErrCodeMeterModFailedOutOfBands", "OFPMMFC_OUT_OF_BANDS", 11)]

/-- enum ofp_table_features_failed_code. -/
def ofpTableFeaturesFailedCode : List (String × String × Nat) :=
  [("ErrCodeTableFeaturesFailedBadTable", "OFPTFFC_BAD_TABLE", 0),
   ("ErrCodeTableFeaturesFailedBadMetadata", "OFPTFFC_BAD_METADATA", 1),
   ("ErrCodeTableFeaturesFailedBadType", "OFPTFFC_BAD_TYPE", 2),
   ("ErrCodeTableFeaturesFailedBadLen", "OFPTFFC_BAD_LEN", 3),
   ("ErrCodeTableFeaturesFailedBadArgument", "OFPTFFC_BAD_ARGUMENT", 4),
   ("ErrCodeTableFeaturesFailedPerm", "OFPTFFC_EPERM", 5)]

/-- enum ofp_flow_mod_command. -/
def ofpFlowModCommand : List (String × String × Nat) :=
  [("FlowAdd", "OFPFC_ADD", 0),
   ("FlowModify", "OFPFC_MODIFY", 1),
   ("FlowModifyStrict", "OFPFC_MODIFY_STRICT", 2),
   ("FlowDelete", "OFPFC_DELETE", 3),
   ("FlowDeleteStrict", "OFPFC_DELETE_STRICT", 4)]

/-- enum ofp_flow_mod_flags. -/
def ofpFlowModFlags : List (String × String × Nat) :=
  [("FlowFlagSendFlowRem", "OFPFF_SEND_FLOW_REM", 0x1),
   ("FlowFlagCheckOverlap", "OFPFF_CHECK_OVERLAP", 0x2),
   ("FlowFlagResetCounts", "OFPFF_RESET_COUNTS", 0x4),
   ("FlowFlagNoPktCounts", "OFPFF_NO_PKT_COUNTS", 0x8),
   ("FlowFlagNoByteCounts", "OFPFF_NO_BYT_COUNTS", 0x10)]

/-- enum ofp_flow_removed_reason. -/
def ofpFlowRemovedReason : List (String × String × Nat) :=
  [("FlowReasonIdleTimeout", "OFPRR_IDLE_TIMEOUT", 0),
   ("FlowReasonHardTimeout", "OFPRR_HARD_TIMEOUT", 1),
   ("FlowReasonDelete", "OFPRR_DELETE", 2),
   ("FlowReasonGroupDelete", "OFPRR_GROUP_DELETE", 3)]

/-- enum ofp_group_mod_command. -/
def ofpGroupModCommand : List (String × String × Nat) :=
  [("GroupAdd", "OFPGC_ADD", 0),
   ("GroupModify", "OFPGC_MODIFY", 1),
   ("GroupDelete", "OFPGC_DELETE", 2)]

/-- enum ofp_group_type. -/
def ofpGroupType : List (String × String × Nat) :=
  [("GroupTypeAll", "OFPGT_ALL", 0),
   ("GroupTypeSelect", "OFPGT_SELECT", 1),
   ("GroupTypeIndirect", "OFPGT_INDIRECT", 2),
   ("GroupTypeFastFailover", "OFPGT_FF", 3)]

/-- enum ofp_group. -/
def ofpGroup : List (String × String × Nat) :=
  [("GroupMax", "OFPG_MAX", 0xffffff00),
   ("GroupAll", "OFPG_ALL", 0xfffffffc),
   ("GroupAny", "OFPG_ANY", 0xffffffff)]

/-- enum ofp_group_capabilities. -/
def ofpGroupCapabilities : List (String × String × Nat) :=
  [("GroupCapabilitySelectWeight", "OFPGFC_SELECT_WEIGHT", 0x1),
   ("GroupCapabilitySelectLiveness", "OFPGFC_SELECT_LIVENESS", 0x2),
   ("GroupCapabilityChaining", "OFPGFC_CHAINING", 0x4),
   ("GroupCapabilityChainingChecks", "OFPGFC_CHAINING_CHECKS", 0x8)]

/-- enum ofp_hello_elem_type. -/
def ofpHelloElemType : List (String × String × Nat) :=
  [("HelloElemTypeVersionBitmap", "OFPHET_VERSIONBITMAP", 1)]

/-- enum ofp_controller_role. -/
def ofpControllerRole : List (String × String × Nat) :=
  [("ControllerRoleNoChange", "OFPCR_ROLE_NOCHANGE", 0),
   ("ControllerRoleEqual", "OFPCR_ROLE_EQUAL", 1),
   ("ControllerRoleMaster", "OFPCR_ROLE_MASTER", 2),
   ("ControllerRoleSlave", "OFPCR_ROLE_SLAVE", 3)]

/-- enum ofp_instruction_type. -/
def ofpInstructionType : List (String × String × Nat) :=
  [("InstructionTypeGotoTable", "OFPIT_GOTO_TABLE", 1),
   ("InstructionTypeWriteMetadata", "OFPIT_WRITE_METADATA", 2),
   ("InstructionTypeWriteActions", "OFPIT_WRITE_ACTIONS", 3),
   ("InstructionTypeApplyActions", "OFPIT_APPLY_ACTIONS", 4),
   ("InstructionTypeClearActions", "OFPIT_CLEAR_ACTIONS", 5),
   ("InstructionTypeMeter", "OFPIT_METER", 6),
   ("InstructionTypeExperimenter", "OFPIT_EXPERIMENTER", 0xffff)]

/-- enum oxm_ofb_match_fields. -/
def ofpOxmField : List (String × String × Nat) :=
  [("XMTypeInPort", "OFPXMT_OFB_IN_PORT", 0),
   ("XMTypeInPhyPort", "OFPXMT_OFB_IN_PHY_PORT", 1),
   ("XMTypeMetadata", "OFPXMT_OFB_METADATA", 2),
   ("XMTypeEthDst", "OFPXMT_OFB_ETH_DST", 3),
   ("XMTypeEthSrc", "OFPXMT_OFB_ETH_SRC", 4),
   ("XMTypeEthType", "OFPXMT_OFB_ETH_TYPE", 5),
   ("XMTypeVlanID", "OFPXMT_OFB_VLAN_VID", 6),
   ("XMTypeVlanPCP", "OFPXMT_OFB_VLAN_PCP", 7),
   ("XMTypeIPDSCP", "OFPXMT_OFB_IP_DSCP", 8),
   ("XMTypeIPECN", "OFPXMT_OFB_IP_ECN", 9),
   ("XMTypeIPProto", "OFPXMT_OFB_IP_PROTO", 10),
   ("XMTypeIPv4Src", "OFPXMT_OFB_IPV4_SRC", 11),
   ("XMTypeIPv4Dst", "OFPXMT_OFB_IPV4_DST", 12),
   ("XMTypeTCPSrc", "OFPXMT_OFB_TCP_SRC", 13),
   ("XMTypeTCPDst", "OFPXMT_OFB_TCP_DST", 14),
   ("XMTypeUDPSrc", "OFPXMT_OFB_UDP_SRC", 15),
   ("XMTypeUDPDst", "OFPXMT_OFB_UDP_DST", 16),
   ("XMTypeSCTPSrc", "OFPXMT_OFB_SCTP_SRC", 17),
   ("XMTypeSCTPDst", "OFPXMT_OFB_SCTP_DST", 18),
   ("XMTypeICMPv4Type", "OFPXMT_OFB_ICMPV4_TYPE", 19),
   ("XMTypeICMPv4Code", "OFPXMT_OFB_ICMPV4_CODE", 20),
   ("XMTypeARPOpcode", "OFPXMT_OFB_ARP_OP", 21),
   ("XMTypeARPSPA", "OFPXMT_OFB_ARP_SPA", 22),
   ("XMTypeARPTPA", "OFPXMT_OFB_ARP_TPA", 23),
   ("XMTypeARPSHA", "OFPXMT_OFB_ARP_SHA", 24),
   ("XMTypeARPTHA", "OFPXMT_OFB_ARP_THA", 25),
   ("XMTypeIPv6Src", "OFPXMT_OFB_IPV6_SRC", 26),
   ("XMTypeIPv6Dst", "OFPXMT_OFB_IPV6_DST", 27),
   ("XMTypeIPv6FLabel", "OFPXMT_OFB_IPV6_FLABEL", 28),
   ("XMTypeICMPv6Type", "OFPXMT_OFB_ICMPV6_TYPE", 29),
   ("XMTypeICMPv6Code", "OFPXMT_OFB_ICMPV6_CODE", 30),
   ("XMTypeIPv6NDTarget", "OFPXMT_OFB_IPV6_ND_TARGET", 31),
   ("XMTypeIPv6NDSLL", "OFPXMT_OFB_IPV6_ND_SLL", 32),
   ("XMTypeIPv6NDTLL", "OFPXMT_OFB_IPV6_ND_TLL", 33),
   ("XMTypeMPLSLabel", "OFPXMT_OFB_MPLS_LABEL", 34),
   ("XMTypeMPLSTC", "OFPXMT_OFB_MPLS_TC", 35),
   ("XMTypeMPLSBOS", "OFPXMT_OFB_MPLS_BOS", 36),
   ("XMTypePBBISID", "OFPXMT_OFB_PBB_ISID", 37),
   ("XMTypeTunnelID", "OFPXMT_OFB_TUNNEL_ID", 38),
   ("XMTypeIPv6ExtHeader", "OFPXMT_OFB_IPV6_EXTHDR", 39)]

/-- enum ofp_oxm_class. -/
def ofpOxmClass : List (String × String × Nat) :=
  [("XMClassNicira0", "OFPXMC_NXM_0", 0x0000),
   ("XMClassNicira1", "OFPXMC_NXM_1", 0x0001),
   ("XMClassOpenflowBasic", "OFPXMC_OPENFLOW_BASIC", 0x8000),
   ("XMClassExperimenter", "OFPXMC_EXPERIMENTER", 0xffff)]

/-- enum ofp_vlan_id. -/
def ofpVlanId : List (String × String × Nat) :=
  [("VlanNone", "OFPVID_NONE", 0x0000),
   ("VlanPresent", "OFPVID_PRESENT", 0x1000)]

/-- enum ofp_ipv6exthdr_flags. -/
def ofpIPv6ExtHdr : List (String × String × Nat) :=
  [("IPv6ExtensionHeaderNoNext", "OFPIEH_NONEXT", 0x1),
   ("IPv6ExtensionHeaderESP", "OFPIEH_ESP", 0x2),
   ("IPv6ExtensionHeaderAuth", "OFPIEH_AUTH", 0x4),
   ("IPv6ExtensionHeaderDest", "OFPIEH_DEST", 0x8),
   ("IPv6ExtensionHeaderFrag", "OFPIEH_FRAG", 0x10),
   ("IPv6ExtensionHeaderRouter", "OFPIEH_ROUTER", 0x20),
   ("IPv6ExtensionHeaderHop", "OFPIEH_HOP", 0x40),
   ("IPv6ExtensionHeaderUnrep", "OFPIEH_UNREP", 0x80),
   ("IPv6ExtensionHeaderUnseq", "OFPIEH_UNSEQ", 0x100)]

/-- enum ofp_match_type. -/
def ofpMatchType : List (String × String × Nat) :=
  [("MatchTypeStandard", "OFPMT_STANDARD", 0),
   ("MatchTypeXM", "OFPMT_OXM", 1)]

/-- enum ofp_meter_mod_command. -/
def ofpMeterModCommand : List (String × String × Nat) :=
  [("MeterAdd", "OFPMC_ADD", 0),
   ("MeterModify", "OFPMC_MODIFY", 1),
   ("MeterDelete", "OFPMC_DELETE", 2)]

/-- enum ofp_meter_flags. -/
def ofpMeterFlags : List (String × String × Nat) :=
  [("MeterFlagKBitPerSec", "OFPMF_KBPS", 0x1),
   ("MeterFlagPacketPerSec", "OFPMF_PKTPS", 0x2),
   ("MeterFlagBurst", "OFPMF_BURST", 0x4),
   ("MeterFlagStats", "OFPMF_STATS", 0x8)]

/-- enum ofp_meter. -/
def ofpMeter : List (String × String × Nat) :=
  [("MeterMax", "OFPM_MAX", 0xffff0000),
   ("MeterSlowpath", "OFPM_SLOWPATH", 0xfffffffd),
   ("MeterController", "OFPM_CONTROLLER", 0xfffffffe),
   ("MeterAll", "OFPM_ALL", 0xffffffff)]

/-- enum ofp_meter_band_type. -/
def ofpMeterBandType : List (String × String × Nat) :=
  [("MeterBandTypeDrop", "OFPMBT_DROP", 1),
   ("MeterBandTypeDSCPRemark", "OFPMBT_DSCP_REMARK", 2),
   ("MeterBandTypeExperimenter", "OFPMBT_EXPERIMENTER", 0xffff)]

/-- enum ofp_multipart_types. -/
def ofpMultipartType : List (String × String × Nat) :=
  [("MultipartTypeDescription", "OFPMP_DESC", 0),
   ("MultipartTypeFlow", "OFPMP_FLOW", 1),
   ("MultipartTypeAggregate", "OFPMP_AGGREGATE", 2),
   ("MultipartTypeTable", "OFPMP_TABLE", 3),
   ("MultipartTypePortStats", "OFPMP_PORT_STATS", 4),
   ("MultipartTypeQueue", "OFPMP_QUEUE", 5),
   ("MultipartTypeGroup", "OFPMP_GROUP", 6),
   ("MultipartTypeGroupDescription", "OFPMP_GROUP_DESC", 7),
   ("MultipartTypeGroupFeatures", "OFPMP_GROUP_FEATURES", 8),
   ("MultipartTypeMeter", "OFPMP_METER", 9),
   ("MultipartTypeMeterConfig", "OFPMP_METER_CONFIG", 10),
   ("MultipartTypeMeterFeatures", "OFPMP_METER_FEATURES", 11),
   ("MultipartTypeTableFeatures", "OFPMP_TABLE_FEATURES", 12),
   ("MultipartTypePortDescription", "OFPMP_PORT_DESC", 13),
   ("MultipartTypeExperimenter", "OFPMP_EXPERIMENTER", 0xffff)]

/-- enum ofp_multipart_request_flags. -/
def ofpMultipartRequestFlags : List (String × String × Nat) :=
  [("MultipartRequestMode", "OFPMPF_REQ_MORE", 0x1)]

/-- enum ofp_multipart_reply_flags. -/
def ofpMultipartReplyFlags : List (String × String × Nat) :=
  [("MultipartReplyMode", "OFPMPF_REPLY_MORE", 0x1)]

/-- OFP_NO_BUFFER. -/
def ofpNoBuffer : List (String × String × Nat) :=
  [("NoBuffer", "OFP_NO_BUFFER", 0xffffffff)]

/-- enum ofp_packet_in_reason. -/
def ofpPacketInReason : List (String × String × Nat) :=
  [("PacketInReasonNoMatch", "OFPR_NO_MATCH", 0),
   ("PacketInReasonAction", "OFPR_ACTION", 1),
   ("PacketInReasonInvalidTTL", "OFPR_INVALID_TTL", 2)]

/-- enum ofp_port_features. -/
def ofpPortFeatures : List (String × String × Nat) :=
  [("PortFeature10MbitHalfDuplex", "OFPPF_10MB_HD", 0x1),
   ("PortFeature10MbitFullDuplex", "OFPPF_10MB_FD", 0x2),
   ("PortFeature100MbitHalfDuplex", "OFPPF_100MB_HD", 0x4),
   ("PortFeature100MbitFullDuplex", "OFPPF_100MB_FD", 0x8),
   ("PortFeature1GbitHalfDuplex", "OFPPF_1GB_HD", 0x10),
   ("PortFeature1GbitFullDuplex", "OFPPF_1GB_FD", 0x20),
   ("PortFeature10GbitFullDuplex", "OFPPF_10GB_FD", 0x40),
   ("PortFeature40GbitFullDuplex", "OFPPF_40GB_FD", 0x80),
   ("PortFeature100GbitFullDuplex", "OFPPF_100GB_FD", 0x100),
   ("PortFeature1TbitFullDuplex", "OFPPF_1TB_FD", 0x200),
   ("PortFeatureOther", "OFPPF_OTHER", 0x400),
   ("PortFeatureCopper", "OFPPF_COPPER", 0x800),
   ("PortFeatureFiber", "OFPPF_FIBER", 0x1000),
   ("PortFeatureAutoneg", "OFPPF_AUTONEG", 0x2000),
   ("PortFeaturePause", "OFPPF_PAUSE", 0x4000),
   ("PortFeaturePauseAsym", "OFPPF_PAUSE_ASYM", 0x8000)]

/-- enum ofp_port_config; the bits for the spanning tree and flooding are those of OpenFlow 1.0, later versions leave them reserved. -/
def ofpPortConfig : List (String × String × Nat) :=
  [("PortConfigDown", "OFPPC_PORT_DOWN", 0x1),
   ("PortConfigNoSTP", "OFPPC_NO_STP", 0x2),
   ("PortConfigNoRcv", "OFPPC_NO_RECV", 0x4),
   ("PortConfigNoRcvSTP", "OFPPC_NO_RECV_STP", 0x8),
   ("PortConfigNoFlood", "OFPPC_NO_FLOOD", 0x10),
   ("PortConfigNoFwd", "OFPPC_NO_FWD", 0x20),
   ("PortConfigNoPacketIn", "OFPPC_NO_PACKET_IN", 0x40)]

/-- enum ofp_port_state. -/
def ofpPortState : List (String × String × Nat) :=
  [("PortStateLinkDown", "OFPPS_LINK_DOWN", 0x1),
   ("PortStateBlocked", "OFPPS_BLOCKED", 0x2),
   ("PortStateLive", "OFPPS_LIVE", 0x4)]

/-- enum ofp_port_no. -/
def ofpPortNo : List (String × String × Nat) :=
  [("PortIn", "OFPP_IN_PORT", 0xfffffff8),
   ("PortTable", "OFPP_TABLE", 0xfffffff9),
   ("PortNormal", "OFPP_NORMAL", 0xfffffffa),
   ("PortFlood", "OFPP_FLOOD", 0xfffffffb),
   ("PortAll", "OFPP_ALL", 0xfffffffc),
   ("PortController", "OFPP_CONTROLLER", 0xfffffffd),
   ("PortLocal", "OFPP_LOCAL", 0xfffffffe),
   ("PortAny", "OFPP_ANY", 0xffffffff),
   ("PortMax", "OFPP_MAX", 0xffffff00)]

/-- enum ofp_port_reason. -/
def ofpPortReason : List (String × String × Nat) :=
  [("PortReasonAdd", "OFPPR_ADD", 0),
   ("PortReasonDelete", "OFPPR_DELETE", 1),
   ("PortReasonModify", "OFPPR_MODIFY", 2)]

/-- enum ofp_queue_properties. -/
def ofpQueueProperties : List (String × String × Nat) :=
  [("QueuePropTypeMinRate", "OFPQT_MIN_RATE", 1),
   ("QueuePropTypeMaxRate", "OFPQT_MAX_RATE", 2),
   ("QueuePropTypeExperimenter", "OFPQT_EXPERIMENTER", 0xffff)]

/-- OFPQ_ALL. -/
def ofpQueue : List (String × String × Nat) :=
  [("QueueAll", "OFPQ_ALL", 0xffffffff)]

/-- OFPQ_MIN_RATE_UNCFG and OFPQ_MAX_RATE_UNCFG. -/
def ofpQueueRate : List (String × String × Nat) :=
  [("QueueMinRateUncfg", "OFPQ_MIN_RATE_UNCFG", 0xffff),
   ("QueueMaxRateUncfg", "OFPQ_MAX_RATE_UNCFG", 0xffff)]

/-- enum ofp_capabilities. -/
def ofpCapabilities : List (String × String × Nat) :=
  [("CapabilityFlowStats", "OFPC_FLOW_STATS", 0x1),
   ("CapabilityTableStats", "OFPC_TABLE_STATS", 0x2),
   ("CapabilityPortStats", "OFPC_PORT_STATS", 0x4),
   ("CapabilityGroupStats", "OFPC_GROUP_STATS", 0x8),
   ("CapabilityIPReasm", "OFPC_IP_REASM", 0x20),
   ("CapabilityQueueStats", "OFPC_QUEUE_STATS", 0x40),
   ("CapabilityPortBlocked", "OFPC_PORT_BLOCKED", 0x100)]

/-- enum ofp_config_flags. -/
def ofpConfigFlags : List (String × String × Nat) :=
  [("ConfigFlagFragNormal", "OFPC_FRAG_NORMAL", 0),
   ("ConfigFlagFragDrop", "OFPC_FRAG_DROP", 1),
   ("ConfigFlagFragReasm", "OFPC_FRAG_REASM", 2),
   ("ConfigFlagFragMask", "OFPC_FRAG_MASK", 3)]

/-- enum ofp_table. -/
def ofpTable : List (String × String × Nat) :=
  [("TableMax", "OFPTT_MAX", 0xfe),
   ("TableAll", "OFPTT_ALL", 0xff)]

/-- enum ofp_table_config. -/
def ofpTableConfig : List (String × String × Nat) :=
  [("TableConfigDeprecatedMask", "OFPTC_DEPRECATED_MASK", 3)]

/-- enum ofp_table_feature_prop_type. -/
def ofpTablePropType : List (String × String × Nat) :=
  [("TablePropTypeInstructions", "OFPTFPT_INSTRUCTIONS", 0),
   ("TablePropTypeInstructionsMiss", "OFPTFPT_INSTRUCTIONS_MISS", 1),
   ("TablePropTypeNextTables", "OFPTFPT_NEXT_TABLES", 2),
   ("TablePropTypeNextTablesMiss", "OFPTFPT_NEXT_TABLES_MISS", 3),
   ("TablePropTypeWriteActions", "OFPTFPT_WRITE_ACTIONS", 4),
   ("TablePropTypeWriteActionsMiss", "OFPTFPT_WRITE_ACTIONS_MISS", 5),
   ("TablePropTypeApplyActions", "OFPTFPT_APPLY_ACTIONS", 6),
   ("TablePropTypeApplyActionsMiss", "OFPTFPT_APPLY_ACTIONS_MISS", 7),
   ("TablePropTypeMatch", "OFPTFPT_MATCH", 8),
   ("TablePropTypeWildcards", "OFPTFPT_WILDCARDS", 10),
   ("TablePropTypeWriteSetField", "OFPTFPT_WRITE_SETFIELD", 12),
   ("TablePropTypeWriteSetFieldMiss", "OFPTFPT_WRITE_SETFIELD_MISS", 13),
   ("TablePropTypeApplySetField", "OFPTFPT_APPLY_SETFIELD", 14),
   ("TablePropTypeApplySetFieldMiss", "OFPTFPT_APPLY_SETFIELD_MISS", 15),
   ("TablePropTypeExperimenter", "OFPTFPT_EXPERIMENTER", 0xfffe),
   ("TablePropTypeExperimenterMiss", "OFPTFPT_EXPERIMENTER_MISS", 0xffff)]

end Verif.Spec
