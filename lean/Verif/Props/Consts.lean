import Verif.Consts
import Verif.Spec.Numbers
import Verif.Ofp.Instruction
import Verif.Ofp.Meter
import Verif.Ofp.Queue
import Verif.Ofp.Table
import Verif.Ofp.Hello
import Verif.Props.Text
import Verif.Props.Fixed

/-!
# C81, C82: the constants, their numbers and their names
-/

namespace Verif.Props

/-! ## C81: the numbers -/

/-- The constants of the block are those of the list, with the numbers of the specification. -/
def HasNumbers (b : List ConstSpec) (spec : List (String × String × Nat)) : Prop :=
  constValues b = spec.map fun x => (x.1, x.2.2)

/-- The blocks with the enumerations of the specification, without the capabilities. -/
def numbered : List (List ConstSpec × List (String × String × Nat)) :=
    [(typeConsts, Spec.ofpType),
     (actionTypeConsts, Spec.ofpActionType),
     (controllerMaxLenConsts, Spec.ofpControllerMaxLen),
     (errorTypeConsts, Spec.ofpErrorType),
     (helloFailedCodeConsts, Spec.ofpHelloFailedCode),
     (badRequestCodeConsts, Spec.ofpBadRequestCode),
     (badActionCodeConsts, Spec.ofpBadActionCode),
     (badInstructionCodeConsts, Spec.ofpBadInstructionCode),
     (badMatchCodeConsts, Spec.ofpBadMatchCode),
     (flowModFailedCodeConsts, Spec.ofpFlowModFailedCode),
     (groupModFailedCodeConsts, Spec.ofpGroupModFailedCode),
     (portModFailedCodeConsts, Spec.ofpPortModFailedCode),
     (tableModFailedCodeConsts, Spec.ofpTableModFailedCode),
     (queueOpFailedCodeConsts, Spec.ofpQueueOpFailedCode),
     (switchConfigFailedCodeConsts, Spec.ofpSwitchConfigFailedCode),
     (roleRequestFailedCodeConsts, Spec.ofpRoleRequestFailedCode),
     (meterModFailedCodeConsts, Spec.ofpMeterModFailedCode),
     (tableFeaturesFailedCodeConsts, Spec.ofpTableFeaturesFailedCode),
     (flowModCommandConsts, Spec.ofpFlowModCommand),
     (flowModFlagsConsts, Spec.ofpFlowModFlags),
     (flowRemovedReasonConsts, Spec.ofpFlowRemovedReason),
     (groupModCommandConsts, Spec.ofpGroupModCommand),
     (groupTypeConsts, Spec.ofpGroupType),
     (groupConsts, Spec.ofpGroup),
     (groupCapabilitiesConsts, Spec.ofpGroupCapabilities),
     (helloElemTypeConsts, Spec.ofpHelloElemType),
     (controllerRoleConsts, Spec.ofpControllerRole),
     (instructionTypeConsts, Spec.ofpInstructionType),
     (oxmFieldConsts, Spec.ofpOxmField),
     (oxmClassConsts, Spec.ofpOxmClass),
     (vlanIdConsts, Spec.ofpVlanId),
     (iPv6ExtHdrConsts, Spec.ofpIPv6ExtHdr),
     (matchTypeConsts, Spec.ofpMatchType),
     (meterModCommandConsts, Spec.ofpMeterModCommand),
     (meterFlagsConsts, Spec.ofpMeterFlags),
     (meterConsts, Spec.ofpMeter),
     (meterBandTypeConsts, Spec.ofpMeterBandType),
     (multipartTypeConsts, Spec.ofpMultipartType),
     (multipartRequestFlagsConsts, Spec.ofpMultipartRequestFlags),
     (multipartReplyFlagsConsts, Spec.ofpMultipartReplyFlags),
     (noBufferConsts, Spec.ofpNoBuffer),
     (packetInReasonConsts, Spec.ofpPacketInReason),
     (portFeaturesConsts, Spec.ofpPortFeatures),
     (portConfigConsts, Spec.ofpPortConfig),
     (portStateConsts, Spec.ofpPortState),
     (portNoConsts, Spec.ofpPortNo),
     (portReasonConsts, Spec.ofpPortReason),
     (queuePropertiesConsts, Spec.ofpQueueProperties),
     (queueConsts, Spec.ofpQueue),
     (queueRateConsts, Spec.ofpQueueRate),
     (configFlagsConsts, Spec.ofpConfigFlags),
     (tableConsts, Spec.ofpTable),
     (tableConfigConsts, Spec.ofpTableConfig),
     (tablePropTypeConsts, Spec.ofpTablePropType)]

/-- C81.  Every exported constant for a number of the protocol, except the capabilities of a
switch, has the number that the specification gives it. -/
theorem constants_numbers_partial : ∀ p ∈ numbered, HasNumbers p.1 p.2 := by
  unfold HasNumbers
  decide +kernel

/-- C81.  The capabilities of a switch: all but two have the number of the specification. -/
theorem capability_numbers_partial : ∀ x ∈ Spec.ofpCapabilities,
    x.2.1 ≠ "OFPC_IP_REASM" → x.2.1 ≠ "OFPC_QUEUE_STATS" → (x.1, x.2.2) ∈ constValues capabilitiesConsts := by
  decide +kernel

/-- The value of a capability constant. -/
def capabilityConst (name : String) : UInt32 :=
  UInt32.ofNat (((constValues capabilitiesConsts).lookup name).getD 0)

/-- The bit of the specification. -/
def capabilityBit (ofp : String) : UInt32 :=
  UInt32.ofNat (((Spec.ofpCapabilities.map (·.2)).lookup ofp).getD 0)

/-- C81 is false of the code: the block of capabilities counts on where the specification leaves
a gap, so that `CapabilityQueueStats` is the bit for the reassembly of fragments, and
`CapabilityIPReasm` a bit that is not used. -/
theorem capability_numbers_false :
    capabilityConst "CapabilityQueueStats" = capabilityBit "OFPC_IP_REASM" ∧
    capabilityConst "CapabilityQueueStats" ≠ capabilityBit "OFPC_QUEUE_STATS" ∧
    capabilityConst "CapabilityIPReasm" ∉ (Spec.ofpCapabilities.map fun x => UInt32.ofNat x.2.2) := by
  decide +kernel

/-- C81.  What a controller that tests these bits learns, from any features reply, on any reader:
it takes a switch that reassembles fragments for one with queue statistics, whatever the switch
says about queue statistics; and it never sees that a switch reassembles fragments unless an
unused bit is set. -/
theorem capability_test_false (x : SwitchFeatures) (s : SwitchFeatures) (r : Rd) (tail : Bytes) (hr : r.Ok .eof)
    (hc : r.content = x.writeTo.out ++ tail) :
    ((SwitchFeatures.readFrom s r).val.capabilities &&& capabilityConst "CapabilityQueueStats" ≠ 0 ↔
      x.capabilities &&& capabilityBit "OFPC_IP_REASM" ≠ 0) ∧
    ((SwitchFeatures.readFrom s r).val.capabilities &&& capabilityConst "CapabilityIPReasm" ≠ 0 ↔
      x.capabilities &&& 0x10 ≠ 0) := by
  have h := ((switchFeatures_roundtrip x).2 s r tail hr hc).1
  have h1 : capabilityConst "CapabilityQueueStats" = capabilityBit "OFPC_IP_REASM" := capability_numbers_false.1
  have h2 : capabilityConst "CapabilityIPReasm" = 0x10 := by decide +kernel
  rw [h, h1, h2]
  exact ⟨Iff.rfl, Iff.rfl⟩

/-- Non-vacuity: a switch that has queue statistics and does not reassemble fragments is taken for
one without queue statistics, and one that only reassembles fragments for one with. -/
example : ∃ x y : SwitchFeatures, x.capabilities = capabilityBit "OFPC_QUEUE_STATS" ∧
    y.capabilities = capabilityBit "OFPC_IP_REASM" ∧
    (SwitchFeatures.readFrom default (.src x.writeTo.out [1] .eof false)).val.capabilities &&&
      capabilityConst "CapabilityQueueStats" = 0 ∧
    (SwitchFeatures.readFrom default (.src y.writeTo.out [1] .eof false)).val.capabilities &&&
      capabilityConst "CapabilityQueueStats" ≠ 0 := by
  refine ⟨⟨1, 0, 1, 0, capabilityBit "OFPC_QUEUE_STATS", 0⟩, ⟨1, 0, 1, 0, capabilityBit "OFPC_IP_REASM", 0⟩,
    rfl, rfl, ?_, ?_⟩
  · have := (capability_test_false ⟨1, 0, 1, 0, capabilityBit "OFPC_QUEUE_STATS", 0⟩ default
      (.src _ [1] .eof false) [] (by simp [Rd.Ok]) (by rw [List.append_nil]; rfl)).1
    refine Classical.byContradiction fun h => ?_
    exact absurd (this.1 h) (by decide +kernel)
  · have := (capability_test_false ⟨1, 0, 1, 0, capabilityBit "OFPC_IP_REASM", 0⟩ default
      (.src _ [1] .eof false) [] (by simp [Rd.Ok]) (by rw [List.append_nil]; rfl)).1
    exact this.2 (by decide +kernel)

/-! ### The numbers on the wire -/

/-- The specification's name for an action. -/
def actionName : Action → String
  | .output .. => "OFPAT_OUTPUT"
  | .copyTTLOut => "OFPAT_COPY_TTL_OUT"
  | .copyTTLIn => "OFPAT_COPY_TTL_IN"
  | .setMPLSTTL .. => "OFPAT_SET_MPLS_TTL"
  | .decMPLSTTL => "OFPAT_DEC_MPLS_TTL"
  | .pushVLAN .. => "OFPAT_PUSH_VLAN"
  | .popVLAN => "OFPAT_POP_VLAN"
  | .pushMPLS .. => "OFPAT_PUSH_MPLS"
  | .popMPLS .. => "OFPAT_POP_MPLS"
  | .setQueue .. => "OFPAT_SET_QUEUE"
  | .group .. => "OFPAT_GROUP"
  | .setNwTTL .. => "OFPAT_SET_NW_TTL"
  | .decNwTTL => "OFPAT_DEC_NW_TTL"
  | .setField .. => "OFPAT_SET_FIELD"
  | .pushPBB .. => "OFPAT_PUSH_PBB"
  | .experimenter .. => "OFPAT_EXPERIMENTER"

/-- The specification's name for an instruction. -/
def instructionName : Instruction → String
  | .gotoTable .. => "OFPIT_GOTO_TABLE"
  | .writeMetadata .. => "OFPIT_WRITE_METADATA"
  | .writeActions .. => "OFPIT_WRITE_ACTIONS"
  | .applyActions .. => "OFPIT_APPLY_ACTIONS"
  | .clearActions => "OFPIT_CLEAR_ACTIONS"
  | .meter .. => "OFPIT_METER"

/-- The specification's name for a meter band. -/
def meterBandName : MeterBand → String
  | .drop .. => "OFPMBT_DROP"
  | .dscpRemark .. => "OFPMBT_DSCP_REMARK"
  | .experimenter .. => "OFPMBT_EXPERIMENTER"

/-- The specification's name for a queue property. -/
def queuePropName : QueueProp → String
  | .minRate .. => "OFPQT_MIN_RATE"
  | .maxRate .. => "OFPQT_MAX_RATE"
  | .experimenter .. => "OFPQT_EXPERIMENTER"

/-- The specification's name for a table property. -/
def tablePropName : TableProp → String
  | .instructions m _ => if m then "OFPTFPT_INSTRUCTIONS_MISS" else "OFPTFPT_INSTRUCTIONS"
  | .nextTables m _ => if m then "OFPTFPT_NEXT_TABLES_MISS" else "OFPTFPT_NEXT_TABLES"
  | .writeActions m _ => if m then "OFPTFPT_WRITE_ACTIONS_MISS" else "OFPTFPT_WRITE_ACTIONS"
  | .applyActions m _ => if m then "OFPTFPT_APPLY_ACTIONS_MISS" else "OFPTFPT_APPLY_ACTIONS"
  | .matches _ => "OFPTFPT_MATCH"
  | .wildcards _ => "OFPTFPT_WILDCARDS"
  | .writeSetField m _ => if m then "OFPTFPT_WRITE_SETFIELD_MISS" else "OFPTFPT_WRITE_SETFIELD"
  | .applySetField m _ => if m then "OFPTFPT_APPLY_SETFIELD_MISS" else "OFPTFPT_APPLY_SETFIELD"
  | .experimenter m .. => if m then "OFPTFPT_EXPERIMENTER_MISS" else "OFPTFPT_EXPERIMENTER"

/-- C81.  The type that an action, an instruction, a meter band, a queue property, a table
property and a hello element report, and write (C26, C27, C31-C36), is the number that the
specification gives the structure of their name. -/
theorem types_numbers :
    (∀ a : Action, (actionName a, a.type.toNat) ∈ Spec.ofpActionType.map (·.2)) ∧
    (∀ i : Instruction, (instructionName i, i.type.toNat) ∈ Spec.ofpInstructionType.map (·.2)) ∧
    (∀ b : MeterBand, (meterBandName b, b.type.toNat) ∈ Spec.ofpMeterBandType.map (·.2)) ∧
    (∀ q : QueueProp, (queuePropName q, q.type.toNat) ∈ Spec.ofpQueueProperties.map (·.2)) ∧
    (∀ p : TableProp, (tablePropName p, p.type.toNat) ∈ Spec.ofpTablePropType.map (·.2)) ∧
    (∀ h : HelloElem, ("OFPHET_VERSIONBITMAP", h.type.toNat) ∈ Spec.ofpHelloElemType.map (·.2)) := by
  refine ⟨fun a => ?_, fun i => ?_, fun b => ?_, fun q => ?_, fun p => ?_, fun h => ?_⟩
  · cases a <;> simp [actionName, Action.type, Spec.ofpActionType]
  · cases i <;> simp [instructionName, Instruction.type, Spec.ofpInstructionType]
  · cases b <;> simp [meterBandName, MeterBand.type, Spec.ofpMeterBandType]
  · cases q <;> simp [queuePropName, QueueProp.type, Spec.ofpQueueProperties]
  · cases p with
    | «matches» => simp [tablePropName, TableProp.type, Spec.ofpTablePropType]
    | wildcards => simp [tablePropName, TableProp.type, Spec.ofpTablePropType]
    | instructions m | nextTables m | writeActions m | applyActions m | writeSetField m | applySetField m
    | experimenter m =>
      cases m <;> simp [tablePropName, TableProp.type, tablePropType, Spec.ofpTablePropType]
  · cases h; simp [HelloElem.type, Spec.ofpHelloElemType]

/-! ## C82: the names -/

/-- `str` writes `f c` for the constants `c` of the block, and a number after `pre` for all other
values of the type; the constants in `ex` are left out. -/
def Names {α : Type} (val : α → Nat) (b : List ConstSpec) (ex : List String) (f : String → String) (pre : String)
    (str : α → String) : Prop :=
  (∀ c v, (c, v) ∈ constValues b → ∃ x, val x = v) ∧
  (∀ x c, (c, val x) ∈ constValues b → c ∉ ex → str x = f c) ∧
  ∀ x, (∀ c, (c, val x) ∉ constValues b) → str x = pre ++ "(" ++ Nat.repr (val x) ++ ")"

theorem names_textOf {α : Type} {val : α → Nat} {b : List ConstSpec} {ex : List String} {f : String → String}
    {pre : String} {tbl : List (Nat × String)} {size : Nat} (h0 : ∀ v, v < size → ∃ x, val x = v)
    (h1 : ∀ p ∈ constValues b, p.2 < size ∧ (p.1 ∉ ex → textOf tbl pre p.2 = f p.1))
    (h2 : ∀ p ∈ tbl, p.1 ∈ (constValues b).map (·.2)) : Names val b ex f pre (fun x => textOf tbl pre (val x)) := by
  refine ⟨fun c v h => h0 v (h1 _ h).1, fun x c h he => (h1 _ h).2 he, fun x h => ?_⟩
  simp only [textOf]
  cases hl : tbl.lookup (val x) with
  | none => rfl
  | some t =>
    have := h2 _ (lookup_mem hl)
    simp only [List.mem_map] at this
    obtain ⟨⟨c, v'⟩, hc, he⟩ := this
    simp only at he
    subst he
    exact absurd hc (h c)

private theorem fits8 (v : Nat) (h : v < 256) : ∃ x : UInt8, x.toNat = v := ⟨UInt8.ofNat v, by simp; omega⟩
private theorem fits16 (v : Nat) (h : v < 65536) : ∃ x : UInt16, x.toNat = v := ⟨UInt16.ofNat v, by simp; omega⟩

/-- The name of a constant without the part "Type": `p` is what comes before it, with it. -/
def dropType (p q c : String) : String := if p.toList.isPrefixOf c.toList then
  q ++ String.ofList (c.toList.drop p.length) else c

/-- C82.  Message types. -/
theorem type_names : Names UInt8.toNat typeConsts [] id "Type" Type.string :=
  names_textOf fits8 (by decide +kernel) (by decide +kernel)

/-- C82.  Types of multipart messages. -/
theorem multipartType_names : Names UInt16.toNat multipartTypeConsts [] id "MultipartType" MultipartType.string :=
  names_textOf fits16 (by decide +kernel) (by decide +kernel)

/-- C82.  Types of match fields. -/
theorem xmType_names : Names UInt8.toNat oxmFieldConsts [] id "XMType" XMType.string :=
  names_textOf fits8 (by decide +kernel) (by decide +kernel)

/-- C82.  Classes of match fields.  Missing: the class of experimenters, which is misspelt
(`xmClass_name_false`). -/
theorem xmClass_names_partial :
    Names UInt16.toNat oxmClassConsts ["XMClassExperimenter"] id "XMClass" XMClass.string :=
  names_textOf fits16 (by decide +kernel) (by decide +kernel)

/-- C82.  Types of table properties. -/
theorem tablePropType_names : Names UInt16.toNat tablePropTypeConsts [] id "TablePropType" TablePropType.string :=
  names_textOf fits16 (by decide +kernel) (by decide +kernel)

/-- C82.  Types of errors. -/
theorem errType_names : Names UInt16.toNat errorTypeConsts [] id "ErrType" ErrType.string :=
  names_textOf fits16 (by decide +kernel) (by decide +kernel)

/-- C82.  Reasons of packets in. -/
theorem packetInReason_names :
    Names UInt8.toNat packetInReasonConsts [] id "PacketInReason" PacketInReason.string :=
  names_textOf fits8 (by decide +kernel) (by decide +kernel)

/-- C82.  Types of actions, which print without the word Type. -/
theorem actionType_names :
    Names UInt16.toNat actionTypeConsts [] (dropType "ActionType" "Action") "Action" ActionType.string :=
  names_textOf fits16 (by decide +kernel) (by decide +kernel)

/-- C82.  Types of instructions, which print without the word Type when they are named. -/
theorem instructionType_names :
    Names UInt16.toNat instructionTypeConsts [] (dropType "InstructionType" "Instruction") "InstructionType"
      InstructionType.string :=
  names_textOf fits16 (by decide +kernel) (by decide +kernel)

/-- C82.  States of connections. -/
theorem connState_names :
    (∀ c v, (c, v) ∈ constValues connStateConsts → ConnState.string v = c) ∧
    ∀ i : Int, (∀ c v, (c, v) ∈ constValues connStateConsts → (v : Int) ≠ i) →
      ConnState.string i = "ConnState(" ++ decimalInt i ++ ")" := by
  refine ⟨?_, fun i h => ?_⟩
  · have : ∀ p ∈ constValues connStateConsts, ConnState.string p.2 = p.1 := by decide +kernel
    exact fun c v h => this _ h
  · unfold ConnState.string
    cases hl : connStateText.lookup i.toNat with
    | none => rfl
    | some t =>
      by_cases hi : 0 ≤ i
      · have h2 : ∀ p ∈ connStateText, p.1 ∈ (constValues connStateConsts).map (·.2) := by decide +kernel
        have := h2 _ (lookup_mem hl)
        simp only [List.mem_map] at this
        obtain ⟨⟨c, v⟩, hc, he⟩ := this
        exact absurd (by simp only at he; omega) (h c v hc)
      · simp [hi]

/-- The codes of each type of error, ofp/error.go. -/
def errorCodes : List (String × List ConstSpec) :=
  [("ErrTypeHelloFailed", helloFailedCodeConsts), ("ErrTypeBadRequest", badRequestCodeConsts),
   ("ErrTypeBadAction", badActionCodeConsts), ("ErrTypeBadInstruction", badInstructionCodeConsts),
   ("ErrTypeBadMatch", badMatchCodeConsts), ("ErrTypeFlowModFailed", flowModFailedCodeConsts),
   ("ErrTypeGroupModFailed", groupModFailedCodeConsts), ("ErrTypePortModFailed", portModFailedCodeConsts),
   ("ErrTypeTableModFailed", tableModFailedCodeConsts), ("ErrTypeQueueOpFailed", queueOpFailedCodeConsts),
   ("ErrTypeSwitchConfigFailed", switchConfigFailedCodeConsts),
   ("ErrTypeRoleRequestFailed", roleRequestFailedCodeConsts), ("ErrTypeMeterModFailed", meterModFailedCodeConsts),
   ("ErrTypeTableFeaturesFailed", tableFeaturesFailedCodeConsts), ("ErrTypeExperimenter", [])]

/-- C82.  Errors: a code that has a constant for the type of the error prints as the constant; any
other code prints as a number after the name of the type; and all is numbers when the type has no
name. -/
theorem error_names :
    (∀ t, (∃ v, (t, v) ∈ constValues errorTypeConsts) → ∃ b, (t, b) ∈ errorCodes) ∧
    (∀ t b, (t, b) ∈ errorCodes → ∀ x c : UInt16, (t, x.toNat) ∈ constValues errorTypeConsts →
      (∀ n, (n, c.toNat) ∈ constValues b → Error.string x c = n) ∧
      ((∀ n, (n, c.toNat) ∉ constValues b) → Error.string x c = t ++ "Code(" ++ Nat.repr c.toNat ++ ")")) ∧
    ∀ x c : UInt16, (∀ t, (t, x.toNat) ∉ constValues errorTypeConsts) →
      Error.string x c = "ErrType(" ++ Nat.repr x.toNat ++ ")Code(" ++ Nat.repr c.toNat ++ ")" := by
  have g1 : ∀ p ∈ constValues errorTypeConsts, p.1 ∈ errorCodes.map (·.1) := by decide +kernel
  have g2 : ∀ p ∈ errorCodes, ∀ q ∈ constValues errorTypeConsts, q.1 = p.1 →
      ∃ m ∈ errTypeCodeText, errTypeCodeText.lookup q.2 = some m.2 ∧
        (∀ k ∈ constValues p.2, m.2.lookup k.2 = some k.1) ∧
        (∀ k ∈ m.2, k.1 ∈ (constValues p.2).map (·.2)) := by decide +kernel
  have g3 : ∀ p ∈ errTypeCodeText, p.1 ∈ (constValues errorTypeConsts).map (·.2) := by decide +kernel
  refine ⟨?_, ?_, ?_⟩
  · rintro t ⟨v, hv⟩
    have := g1 _ hv
    simp only [List.mem_map] at this
    obtain ⟨⟨t', b⟩, hb, rfl⟩ := this
    exact ⟨b, hb⟩
  · intro t b hb x c hx
    obtain ⟨m, -, h1, h2, h3⟩ := g2 _ hb _ hx rfl
    simp only at h1 h2 h3
    refine ⟨fun n hn => ?_, fun hn => ?_⟩
    · have := h2 _ hn
      simp only at this
      simp [Error.string, h1, this]
    · have hnone : m.2.lookup c.toNat = none := by
        cases hl : m.2.lookup c.toNat with
        | none => rfl
        | some n' =>
          have := h3 _ (lookup_mem hl)
          simp only [List.mem_map] at this
          obtain ⟨⟨c', v⟩, hc, he⟩ := this
          simp only at he
          subst he
          exact absurd hc (hn c')
      have ht : ErrType.string x = t := errType_names.2.1 x t hx (by simp)
      simp [Error.string, h1, hnone, ht, decimal]
  · intro x c hx
    have hnone : errTypeCodeText.lookup x.toNat = none := by
      cases hl : errTypeCodeText.lookup x.toNat with
      | none => rfl
      | some n' =>
        have := g3 _ (lookup_mem hl)
        simp only [List.mem_map] at this
        obtain ⟨⟨t, v⟩, hc, he⟩ := this
        simp only at he
        subst he
        exact absurd hc (hx t)
    simp [Error.string, hnone, decimal]

/-- The words for the features of a port. -/
def featureWord : List (String × String) :=
  [("PortFeature10MbitHalfDuplex", "10 Mbps half-duplex"), ("PortFeature10MbitFullDuplex", "10 Mbps full-duplex"),
   ("PortFeature100MbitHalfDuplex", "100 Mbps half-duplex"), ("PortFeature100MbitFullDuplex", "100 Mbps full-duplex"),
   ("PortFeature1GbitHalfDuplex", "1 Gbps half-duplex"), ("PortFeature1GbitFullDuplex", "1 Gbps full-duplex"),
   ("PortFeature10GbitFullDuplex", "10 Gbps full-duplex"), ("PortFeature40GbitFullDuplex", "40 Gbps full-duplex"),
   ("PortFeature100GbitFullDuplex", "100 Gbps full-duplex"), ("PortFeature1TbitFullDuplex", "1 Tbps full-duplex"),
   ("PortFeatureOther", "other"), ("PortFeatureCopper", "copper"), ("PortFeatureFiber", "fiber"),
   ("PortFeatureAutoneg", "autoneg"), ("PortFeaturePause", "pause"), ("PortFeaturePauseAsym", "pause asym")]

/-- The words for the configuration of a port. -/
def configWord : List (String × String) :=
  [("PortConfigDown", "down"), ("PortConfigNoSTP", "no STP"), ("PortConfigNoRcv", "no recv"),
   ("PortConfigNoRcvSTP", "no recv STP"), ("PortConfigNoFlood", "no flood"), ("PortConfigNoFwd", "no fwd"),
   ("PortConfigNoPacketIn", "no packet in")]

/-- The words for the flags of `f` that have a constant in the block, in the order of the block. -/
def flagWords (b : List ConstSpec) (word : List (String × String)) (f : UInt32) : List String :=
  ((constValues b).filter fun c => f.toNat &&& c.2 != 0).map fun c => (word.lookup c.1).getD ""

private theorem flagTexts_words {tbl : List (UInt32 × String)} {l : List (String × Nat)} {word : String → String}
    (h : tbl.map (fun p => (p.1.toNat, p.2)) = l.map fun c => (c.2, word c.1)) (f : UInt32) :
    flagTexts tbl f = (l.filter fun c => f.toNat &&& c.2 != 0).map fun c => word c.1 := by
  induction tbl generalizing l with
  | nil => cases l <;> simp_all [flagTexts]
  | cons p t ih =>
    cases l with
    | nil => simp at h
    | cons c l =>
      simp only [List.map_cons, List.cons.injEq, Prod.mk.injEq] at h
      have := ih h.2
      unfold flagTexts at this ⊢
      have hb : p.1 &&& f ≠ 0 ↔ (f.toNat &&& c.2 != 0) = true := by
        rw [← h.1.1, bne_iff_ne, Nat.and_comm, ← UInt32.toNat_and, Ne, Ne, ← UInt32.toNat_inj]
        rfl
      by_cases hc : p.1 &&& f ≠ 0
      · rw [List.filterMap_cons_some (b := p.2) (by simp [hc]), List.filter_cons_of_pos (p := fun c : String × Nat => f.toNat &&& c.2 != 0) (a := c) (hb.1 hc), List.map_cons,
          this, h.1.2]
      · rw [List.filterMap_cons_none (by simp at hc; simp [hc]),
          List.filter_cons_of_neg (p := fun c : String × Nat => f.toNat &&& c.2 != 0) (a := c) (fun h' => hc (hb.2 h')), this]

/-- C82.  The text of the features of a port, for any set of flags: the words for the flags that
are set, in the order of the constants. -/
theorem portFeature_words (f : UInt32) :
    PortFeature.string f = joinText (flagWords portFeaturesConsts featureWord f) := by
  unfold PortFeature.string flagWords
  rw [flagTexts_words (l := constValues portFeaturesConsts) (word := fun c => (featureWord.lookup c).getD "")
    (by decide +kernel)]

/-- C82.  The configuration of a port: as the features, with the word for a port that is not down
before them. -/
theorem portConfig_words (c : UInt32) :
    PortConfig.string c =
      joinText ((if c &&& 1 = 0 then ["up"] else []) ++ flagWords portConfigConsts configWord c) := by
  unfold PortConfig.string flagWords
  rw [flagTexts_words (l := constValues portConfigConsts) (word := fun c => (configWord.lookup c).getD "")
    (by decide +kernel), UInt32.and_comm]

/-- C82.  The state of a port with one flag. -/
theorem portState_words :
    (constValues portStateConsts).map (fun c => (c.1, PortState.string (UInt32.ofNat c.2))) =
      [("PortStateLinkDown", "link down"), ("PortStateBlocked", "blocked"), ("PortStateLive", "live")] := by
  decide +kernel

/-- Non-vacuity: a named constant and a value without a name. -/
example : ("TypeHello", (0 : UInt8).toNat) ∈ constValues typeConsts ∧ Type.string 0 = "TypeHello" ∧
    (∀ c, (c, (30 : UInt8).toNat) ∉ constValues typeConsts) ∧ Type.string 30 = "Type(30)" ∧
    ActionType.string 27 = "ActionPopPBB" ∧ Error.string 5 3 = "ErrCodeFlowModFailedOverlap" := by
  refine ⟨by decide +kernel, by decide +kernel, ?_, by decide +kernel, by decide +kernel, by decide +kernel⟩
  have : ∀ p ∈ constValues typeConsts, p.2 ≠ 30 := by decide +kernel
  exact fun c h => this _ h rfl

end Verif.Props
