import Verif.Loose
import Verif.Props.Action
import Verif.Props.Flow
import Verif.Props.Packet
import Verif.Props.Group
import Verif.Props.Meter
import Verif.Props.Queue

/-!
# Property C61, continued: reserved bytes of actions, matches and the messages with lists

The packet diagrams are those of the wire-format theorems (`action_layout` and so on) with
the diagrams of the nested elements written out, so that the reserved bytes inside nested
elements are covered too.
-/

namespace Verif.Props

open Verif

/-! ## Matches -/

/-- The diagram of a match. -/
def MatchPacket (m : Match) : List Fld :=
  let len := 4 + (m.fields.map (fun x => 4 + x.value.length + x.mask.length)).sum
  [.num 2 m.type.toNat, .num 2 len, .raw (m.fields.flatMap (fun x => x.writeTo.out)),
    .pad ((len + 7) / 8 * 8 - len)]

theorem match_packet_layout (m : Match) (hv : m.Valid) :
    Layout m.bytes (MatchPacket m) := by
  obtain ⟨len, pad, h1, h2, h3, _, h5⟩ := match_layout m hv
  have hp : (len + 7) / 8 * 8 - len = pad := by omega
  simp only [MatchPacket, ← h1, hp]
  exact h5

private theorem match_lreads (m : Match) (hv : m.Valid) (s : Match) :
    LReads Match.readFrom s (MatchPacket m) m := by
  have hv' := hv
  obtain ⟨h1, h2⟩ := hv
  have hl : m.fieldBytes.length = (m.fields.map (fun x => 4 + x.value.length + x.mask.length)).sum :=
    Match.fieldBytes_length m
  rw [← hl] at h2
  have hn := u16_ofNat_toNat (n := 4 + m.fieldBytes.length) (by omega)
  have hf : m.fields.flatMap (fun x => x.writeTo.out) = m.fieldBytes := rfl
  unfold MatchPacket Match.readFrom
  simp only [← hl, hf]
  refine LReads.withLocal (l' := UInt16.ofNat (4 + m.fieldBytes.length)) ?_
  rw [show Fld.num 2 (4 + m.fieldBytes.length) =
    Fld.num 2 (UInt16.ofNat (4 + m.fieldBytes.length)).toNat by rw [hn]]
  loose
  refine LReads.app (f := [_]) (LReads.dyn (LReads.limited (LReadsAll.raw (ReadsAll.sub
    (readAllXM_reads true XM.bytes [] m.fields (fun x hx s => x.reads (h1 x hx) s) ?_))) ?_)) ?_
  · intro x _; rw [XM.bytes_length]; omega
  · simp only [width_cons, width_nil, Fld.width, hn]; omega
  · refine LReads.last (LReads.dyn (LReads.skip (s := (m, UInt16.ofNat (4 + m.fieldBytes.length))) ?_))
    simp only [hn, padLen, width_cons, width_nil, Fld.width]; omega

/-- C61.  The padding after a match may be anything. -/
theorem match_reserved (m : Match) (hv : m.Valid) :
    Tolerates Match.writeTo Match.readFrom (MatchPacket m) m :=
  LReads.tolerates (match_lreads m hv) (match_roundtrip m hv).1 (match_packet_layout m hv)

/-! ## Actions -/

private theorem skipAH {σ : Type} (x y : UInt16) (s : σ) :
    LReads skipActionHeader s [.num 2 x.toNat, .num 2 y.toNat] s :=
  LReads.subVal (x := (x, y)) (LReads.num16 x (LReads.num16 y LReads.nil))

private theorem setField_lreads (f : XM) (hv : f.Valid) (s : XM) :
    LReads setField.readFrom s (ActionWire (.setField f)) f := by
  have hv' := hv
  obtain ⟨ht, hl, hm⟩ := hv
  have hn := u16_ofNat_toNat (n := (8 + f.value.length + f.mask.length + 7) / 8 * 8) (by omega)
  unfold setField.readFrom
  simp only [ActionWire]
  generalize hk : (8 + f.value.length + f.mask.length + 7) / 8 * 8 = k at hn ⊢
  refine LReads.withLocal (l' := (25, UInt16.ofNat k)) ?_
  rw [show Fld.num 2 k = Fld.num 2 (UInt16.ofNat k).toNat by rw [hn]]
  refine LReads.app (f := [_, _]) (LReads.sub (x := (25, UInt16.ofNat _))
    (LReads.num16 25 (LReads.num16 _ LReads.nil))) ?_
  refine LReads.last (LReads.dyn (LReads.limited ?_ ?_))
  · refine LReadsAll.app (f := [_, _, _, _, _]) (LReads.sub
      (LReads.exact (xm_layout f hv') (by simp) (f.reads hv' _))) ?_
    exact LReadsAll.last (fun b _ => ReadsAll.rest (set := fun _ s => s) b)
  · have : (UInt16.ofNat k - 4).toNat = k - 4 := by
      rw [UInt16.toNat_sub_of_le]
      · rw [hn]; rfl
      · rw [UInt16.le_iff_toNat_le, hn]; simp; omega
    rw [this]; simp only [width_cons, Fld.width, width_nil]; omega

private theorem action_lreads (a : Action) (hv : a.Valid) (s : Action) (hs : s.type = a.type) :
    LReads Action.readFrom s (ActionWire a) a := by
  cases a with
  | output p m =>
    obtain ⟨p0, m0, rfl⟩ : ∃ p0 m0, s = .output p0 m0 := by cases s <;> simp_all [Action.type]
    refine LReads.wrap (f := fun s : UInt32 × UInt16 => Action.output s.1 s.2) (t' := (p, m)) ?_ (fun r => rfl)
    refine LReads.app (f := [_, _]) (skipAH 0 16 _) ?_
    loose
  | setMPLSTTL t =>
    obtain ⟨t0, rfl⟩ : ∃ t0, s = .setMPLSTTL t0 := by cases s <;> simp_all [Action.type]
    refine LReads.wrap (f := Action.setMPLSTTL) ?_ (fun r => rfl)
    refine LReads.app (f := [_, _]) (skipAH 15 8 _) ?_
    loose
  | setField f =>
    obtain ⟨f0, rfl⟩ : ∃ f0, s = .setField f0 := by cases s <;> simp_all [Action.type]
    exact LReads.wrap (setField_lreads f hv f0) (fun r => rfl)
  | setNwTTL t =>
    obtain ⟨t0, rfl⟩ : ∃ t0, s = .setNwTTL t0 := by cases s <;> simp_all [Action.type]
    refine LReads.wrap (f := Action.setNwTTL) ?_ (fun r => rfl)
    refine LReads.app (f := [_, _]) (LReads.skip rfl) ?_
    loose
  | pushVLAN t =>
    obtain ⟨t0, rfl⟩ : ∃ t0, s = .pushVLAN t0 := by cases s <;> simp_all [Action.type]
    refine LReads.wrap (f := Action.pushVLAN) ?_ (fun r => rfl)
    refine LReads.app (f := [_, _]) (LReads.skip rfl) ?_
    loose
  | pushMPLS t =>
    obtain ⟨t0, rfl⟩ : ∃ t0, s = .pushMPLS t0 := by cases s <;> simp_all [Action.type]
    refine LReads.wrap (f := Action.pushMPLS) ?_ (fun r => rfl)
    refine LReads.app (f := [_, _]) (LReads.skip rfl) ?_
    loose
  | popMPLS t =>
    obtain ⟨t0, rfl⟩ : ∃ t0, s = .popMPLS t0 := by cases s <;> simp_all [Action.type]
    refine LReads.wrap (f := Action.popMPLS) ?_ (fun r => rfl)
    refine LReads.app (f := [_, _]) (LReads.skip rfl) ?_
    loose
  | pushPBB t =>
    obtain ⟨t0, rfl⟩ : ∃ t0, s = .pushPBB t0 := by cases s <;> simp_all [Action.type]
    refine LReads.wrap (f := Action.pushPBB) ?_ (fun r => rfl)
    refine LReads.app (f := [_, _]) (LReads.skip rfl) ?_
    loose
  | setQueue t =>
    obtain ⟨t0, rfl⟩ : ∃ t0, s = .setQueue t0 := by cases s <;> simp_all [Action.type]
    refine LReads.wrap (f := Action.setQueue) ?_ (fun r => rfl)
    refine LReads.app (f := [_, _]) (LReads.skip rfl) ?_
    loose
  | group t =>
    obtain ⟨t0, rfl⟩ : ∃ t0, s = .group t0 := by cases s <;> simp_all [Action.type]
    refine LReads.wrap (f := Action.group) ?_ (fun r => rfl)
    refine LReads.app (f := [_, _]) (LReads.skip rfl) ?_
    loose
  | experimenter t =>
    obtain ⟨t0, rfl⟩ : ∃ t0, s = .experimenter t0 := by cases s <;> simp_all [Action.type]
    refine LReads.wrap (f := Action.experimenter) ?_ (fun r => rfl)
    refine LReads.app (f := [_, _]) (LReads.skip rfl) ?_
    loose
  | copyTTLOut =>
    obtain rfl : s = .copyTTLOut := by cases s <;> simp_all [Action.type]
    exact LReads.wrap (f := fun _ : Unit => Action.copyTTLOut) (t' := ())
      (LReads.last (LReads.skip rfl)) (fun r => rfl)
  | copyTTLIn =>
    obtain rfl : s = .copyTTLIn := by cases s <;> simp_all [Action.type]
    exact LReads.wrap (f := fun _ : Unit => Action.copyTTLIn) (t' := ())
      (LReads.last (LReads.skip rfl)) (fun r => rfl)
  | decMPLSTTL =>
    obtain rfl : s = .decMPLSTTL := by cases s <;> simp_all [Action.type]
    exact LReads.wrap (f := fun _ : Unit => Action.decMPLSTTL) (t' := ())
      (LReads.last (LReads.skip rfl)) (fun r => rfl)
  | popVLAN =>
    obtain rfl : s = .popVLAN := by cases s <;> simp_all [Action.type]
    exact LReads.wrap (f := fun _ : Unit => Action.popVLAN) (t' := ())
      (LReads.last (LReads.skip rfl)) (fun r => rfl)
  | decNwTTL =>
    obtain rfl : s = .decNwTTL := by cases s <;> simp_all [Action.type]
    exact LReads.wrap (f := fun _ : Unit => Action.decNwTTL) (t' := ())
      (LReads.last (LReads.skip rfl)) (fun r => rfl)

private theorem action_wire_type (a : Action) : ∃ t, ActionWire a = .num 2 a.type.toNat :: t := by
  cases a <;> exact ⟨_, rfl⟩

private theorem actions_lreads (as : List Action) (hv : ∀ a ∈ as, a.Valid) (s : List Action) :
    LReadsAll Actions.readFrom s (as.flatMap ActionWire) as :=
  LReadsAll.assignCons (LReadsAll.last (LReadsAll.scanFrom (zero := Action.zero) (code := Action.type) [] as
    (fun a ha => action_lreads a (hv a ha) _ (by cases a <;> rfl)) (fun a _ => actionMake_type a)
    (fun a _ => action_wire_type a)))

private theorem actions_packet_layout (as : List Action) (hv : ∀ a ∈ as, a.Valid) :
    Layout (Actions.bytes as) (as.flatMap ActionWire) :=
  Layout.flatMap as (fun a ha => action_layout a (hv a ha))

/-- C61.  Reserved bytes of an action do not matter: whatever they are, an action value of
the same kind becomes the action, which is encoded with reserved bytes zero. -/
theorem action_reserved (a : Action) (hv : a.Valid) (b : Bytes) (hb : Loose b (ActionWire a)) :
    (∀ s : Action, s.type = a.type → DecodesFrom Action.readFrom s b a) ∧ Encodes a.writeTo ∧
      a.writeTo.out = canon ((ActionWire a).map Fld.part) b :=
  ⟨fun s hs => Reads.decodesFrom (action_lreads a hv s hs b hb), (action_roundtrip a hv).1,
    (action_layout a hv).canon hb⟩

/-- C61.  The same for lists of actions. -/
theorem actions_reserved (as : List Action) (hv : ∀ a ∈ as, a.Valid) :
    ToleratesAll Actions.writeTo Actions.readFrom (as.flatMap ActionWire) as :=
  LReadsAll.tolerates (actions_lreads as hv) (actions_roundtrip as hv).1
    (by rw [Actions.writeTo_eq]; exact actions_packet_layout as hv)

/-! ## Instructions -/

/-- The diagram of an instruction, with those of its actions. -/
def InstructionPacket (i : Instruction) : List Fld :=
  match i with
  | .writeActions as =>
    .num 2 3 :: .num 2 (8 + (as.flatMap (fun a => a.writeTo.out)).length) :: .pad 4 ::
      as.flatMap ActionWire
  | .applyActions as =>
    .num 2 4 :: .num 2 (8 + (as.flatMap (fun a => a.writeTo.out)).length) :: .pad 4 ::
      as.flatMap ActionWire
  | i => InstructionWire i

private theorem skipIH {σ : Type} (x y : UInt16) (s : σ) :
    LReads skipInstructionHeader s [.num 2 x.toNat, .num 2 y.toNat] s :=
  LReads.subVal (x := (x, y)) (LReads.num16 x (LReads.num16 y LReads.nil))

private theorem instructionActions_lreads (t : UInt16) (as : List Action) (hv : ∀ a ∈ as, a.Valid)
    (hl : 8 + (as.map Action.size).sum ≤ 65535) (s : List Action) :
    LReads readInstructionActions s (.num 2 t.toNat ::
      .num 2 (8 + (as.flatMap (fun a => a.writeTo.out)).length) :: .pad 4 :: as.flatMap ActionWire) as := by
  rw [← Actions.bytes_length] at hl
  have hf : as.flatMap (fun a => a.writeTo.out) = Actions.bytes as := rfl
  have hw : width (as.flatMap ActionWire) = (Actions.bytes as).length :=
    (actions_packet_layout as hv).length.symm
  have hn := u16_ofNat_toNat hl
  rw [hf, ← hn]
  refine LReads.withLocal (l' := (t, UInt16.ofNat (8 + (Actions.bytes as).length))) ?_
  refine LReads.app (f := [_, _]) (LReads.sub (x := (t, UInt16.ofNat _))
    (LReads.num16 t (LReads.num16 _ LReads.nil))) ?_
  refine LReads.pad (LReads.last (LReads.dyn (LReads.limited (LReadsAll.sub
    (actions_lreads as hv _)) ?_)))
  rw [hw]; exact u16_ofNat_sub (c := 8) hl

private theorem instruction_lreads (i : Instruction) (hv : i.Valid) (s : Instruction)
    (hs : s.type = i.type) : LReads Instruction.readFrom s (InstructionPacket i) i := by
  cases i with
  | writeActions as =>
    obtain ⟨t0, rfl⟩ : ∃ t0, s = .writeActions t0 := by cases s <;> simp_all [Instruction.type]
    exact LReads.wrap (instructionActions_lreads 3 as hv.1 hv.2 t0) (fun r => rfl)
  | applyActions as =>
    obtain ⟨t0, rfl⟩ : ∃ t0, s = .applyActions t0 := by cases s <;> simp_all [Instruction.type]
    exact LReads.wrap (instructionActions_lreads 4 as hv.1 hv.2 t0) (fun r => rfl)
  | gotoTable t =>
    obtain ⟨t0, rfl⟩ : ∃ t0, s = .gotoTable t0 := by cases s <;> simp_all [Instruction.type]
    refine LReads.wrap (f := Instruction.gotoTable) ?_ (fun r => rfl)
    refine LReads.app (f := [_, _]) (skipIH 1 8 _) ?_
    loose
  | writeMetadata m k =>
    obtain ⟨p0, m0, rfl⟩ : ∃ p0 m0, s = .writeMetadata p0 m0 := by cases s <;> simp_all [Instruction.type]
    refine LReads.wrap (f := fun s : UInt64 × UInt64 => Instruction.writeMetadata s.1 s.2)
      (t' := (m, k)) ?_ (fun r => rfl)
    refine LReads.app (f := [_, _]) (skipIH 2 24 _) ?_
    loose
  | clearActions =>
    obtain rfl : s = .clearActions := by cases s <;> simp_all [Instruction.type]
    exact LReads.wrap (f := fun _ : Unit => Instruction.clearActions) (t' := ())
      (LReads.last (LReads.skip rfl)) (fun r => rfl)
  | meter m =>
    obtain ⟨t0, rfl⟩ : ∃ t0, s = .meter t0 := by cases s <;> simp_all [Instruction.type]
    refine LReads.wrap (f := Instruction.meter) ?_ (fun r => rfl)
    refine LReads.app (f := [_, _]) (skipIH 6 8 _) ?_
    loose

private theorem instruction_packet_layout (i : Instruction) (hv : i.Valid) :
    Layout i.bytes (InstructionPacket i) := by
  have h := instruction_layout i hv
  cases i with
  | writeActions as =>
    have := Layout.refine (f := [_, _, _]) (t := []) (actions_packet_layout as hv.1) h
    rw [Instruction.writeTo_eq] at this
    simpa [InstructionPacket] using this
  | applyActions as =>
    have := Layout.refine (f := [_, _, _]) (t := []) (actions_packet_layout as hv.1) h
    rw [Instruction.writeTo_eq] at this
    simpa [InstructionPacket] using this
  | _ => exact h

private theorem instruction_packet_type (i : Instruction) :
    ∃ t, InstructionPacket i = .num 2 i.type.toNat :: t := by cases i <;> exact ⟨_, rfl⟩

private theorem instructions_lreads (is : List Instruction) (hv : ∀ i ∈ is, i.Valid)
    (s : List Instruction) :
    LReadsAll Instructions.readFrom s (is.flatMap InstructionPacket) (s ++ is) :=
  LReadsAll.scanFrom (zero := Instruction.zero) (code := Instruction.type) s is
    (fun i hi => instruction_lreads i (hv i hi) _ (by cases i <;> rfl))
    (fun i _ => instructionMake_type i) (fun i _ => instruction_packet_type i)

theorem instructions_packet_layout (is : List Instruction) (hv : ∀ i ∈ is, i.Valid) :
    Layout (Instructions.bytes is) (is.flatMap InstructionPacket) :=
  Layout.flatMap is (fun i hi => instruction_packet_layout i (hv i hi))

/-- C61.  Reserved bytes of an instruction and of the actions in it do not matter. -/
theorem instruction_reserved (i : Instruction) (hv : i.Valid) (b : Bytes)
    (hb : Loose b (InstructionPacket i)) :
    (∀ s : Instruction, s.type = i.type → DecodesFrom Instruction.readFrom s b i) ∧
      Encodes i.writeTo ∧ i.writeTo.out = canon ((InstructionPacket i).map Fld.part) b :=
  ⟨fun s hs => Reads.decodesFrom (instruction_lreads i hv s hs b hb), (instruction_roundtrip i hv).1,
    (instruction_packet_layout i hv).canon hb⟩

/-- C61.  The same for lists of instructions; the decoder appends to the list of the
receiver, here empty. -/
theorem instructions_reserved (is : List Instruction) (hv : ∀ i ∈ is, i.Valid) (b : Bytes)
    (hb : Loose b (is.flatMap InstructionPacket)) :
    DecodesAllFrom Instructions.readFrom [] b is ∧ Encodes (Instructions.writeTo is) ∧
      (Instructions.writeTo is).out = canon ((is.flatMap InstructionPacket).map Fld.part) b :=
  ⟨ReadsAll.decodesAllFrom (instructions_lreads is hv [] b hb), (instructions_roundtrip is hv).1,
    by rw [Instructions.writeTo_eq]; exact (instructions_packet_layout is hv).canon hb⟩

/-! ## Flow messages -/

/-- C61.  Flow modifications. -/
theorem flowMod_reserved (f : FlowMod) (hm : f.mtch.Valid) (hi : ∀ i ∈ f.instructions, i.Valid) :
    ToleratesAll FlowMod.writeTo FlowMod.readFrom ([.num 8 f.cookie.toNat, .num 8 f.cookieMask.toNat,
      .num 1 f.table.toNat, .num 1 f.command.toNat, .num 2 f.idleTimeout.toNat,
      .num 2 f.hardTimeout.toNat, .num 2 f.priority.toNat, .num 4 f.buffer.toNat,
      .num 4 f.outPort.toNat, .num 4 f.outGroup.toNat, .num 2 f.flags.toNat, .pad 2] ++
      (MatchPacket f.mtch ++ f.instructions.flatMap InstructionPacket)) f := by
  refine LReadsAll.tolerates (fun s => ?_) (flowMod_roundtrip f hm hi).1 ?_
  · unfold FlowMod.readFrom
    simp only [List.cons_append, List.nil_append]
    loose
    refine LReadsAll.app (LReads.sub (match_lreads f.mtch hm _)) ?_
    exact LReadsAll.last (LReadsAll.sub (instructions_lreads f.instructions hi []))
  · rw [FlowMod.out_eq]
    simp only [List.cons_append, List.nil_append, Layout.u8, Layout.u16, Layout.u32, Layout.u64,
      Layout.zeros, true_and]
    exact (instructions_packet_layout _ hi).append (match_packet_layout _ hm)

/-- C61.  Flow-removed messages. -/
theorem flowRemoved_reserved (f : FlowRemoved) (hm : f.mtch.Valid) :
    Tolerates FlowRemoved.writeTo FlowRemoved.readFrom ([.num 8 f.cookie.toNat,
      .num 2 f.priority.toNat, .num 1 f.reason.toNat, .num 1 f.table.toNat,
      .num 4 f.durationSec.toNat, .num 4 f.durationNSec.toNat, .num 2 f.idleTimeout.toNat,
      .num 2 f.hardTimeout.toNat, .num 8 f.packetCount.toNat, .num 8 f.byteCount.toNat] ++
      MatchPacket f.mtch) f := by
  refine LReads.tolerates (fun s => ?_) (flowRemoved_roundtrip f hm).1 ?_
  · unfold FlowRemoved.readFrom
    simp only [List.cons_append, List.nil_append]
    loose
    exact LReads.last (LReads.sub (match_lreads f.mtch hm _))
  · simp only [FlowRemoved.writeTo, Enc.writeTo, Enc.gather, Match.writeTo_eq, List.append_nil]
    simp only [List.cons_append, List.nil_append, Layout.u8, Layout.u16, Layout.u32, Layout.u64,
      Layout.zeros, true_and]
    exact match_packet_layout _ hm

/-- C61.  Flow statistics requests. -/
theorem flowStatsRequest_reserved (f : FlowStatsRequest) (hm : f.mtch.Valid) :
    Tolerates FlowStatsRequest.writeTo FlowStatsRequest.readFrom ([.num 1 f.table.toNat, .pad 3,
      .num 4 f.outPort.toNat, .num 4 f.outGroup.toNat, .pad 4, .num 8 f.cookie.toNat,
      .num 8 f.cookieMask.toNat] ++ MatchPacket f.mtch) f := by
  refine LReads.tolerates (fun s => ?_) (flowStatsRequest_roundtrip f hm).1 ?_
  · unfold FlowStatsRequest.readFrom
    simp only [List.cons_append, List.nil_append]
    loose
    exact LReads.last (LReads.sub (match_lreads f.mtch hm _))
  · simp only [FlowStatsRequest.writeTo, Enc.writeTo, Enc.gather, Match.writeTo_eq, List.append_nil]
    simp only [List.cons_append, List.nil_append, Layout.u8, Layout.u16, Layout.u32, Layout.u64,
      Layout.zeros, true_and]
    exact match_packet_layout _ hm

/-- C61.  Aggregate statistics requests. -/
theorem aggregateStatsRequest_reserved (f : AggregateStatsRequest) (hm : f.mtch.Valid) :
    Tolerates AggregateStatsRequest.writeTo AggregateStatsRequest.readFrom ([.num 1 f.table.toNat,
      .pad 3, .num 4 f.outPort.toNat, .num 4 f.outGroup.toNat, .pad 4, .num 8 f.cookie.toNat,
      .num 8 f.cookieMask.toNat] ++ MatchPacket f.mtch) f := by
  refine LReads.tolerates (fun s => ?_) (aggregateStatsRequest_roundtrip f hm).1 ?_
  · unfold AggregateStatsRequest.readFrom
    simp only [List.cons_append, List.nil_append]
    loose
    exact LReads.last (LReads.sub (match_lreads f.mtch hm _))
  · simp only [AggregateStatsRequest.writeTo, Enc.writeTo, Enc.gather, Match.writeTo_eq, List.append_nil]
    simp only [List.cons_append, List.nil_append, Layout.u8, Layout.u16, Layout.u32, Layout.u64,
      Layout.zeros, true_and]
    exact match_packet_layout _ hm

/-- C61.  Flow statistics. -/
theorem flowStats_reserved (f : FlowStats) (hm : f.mtch.Valid) (hi : ∀ i ∈ f.instructions, i.Valid)
    (hs : f.writeTo.out.length ≤ 65535) :
    Tolerates FlowStats.writeTo FlowStats.readFrom ([.num 2 f.writeTo.out.length,
      .num 1 f.table.toNat, .pad 1, .num 4 f.durationSec.toNat, .num 4 f.durationNSec.toNat,
      .num 2 f.priority.toNat, .num 2 f.idleTimeout.toNat, .num 2 f.hardTimeout.toNat,
      .num 2 f.flags.toNat, .pad 4, .num 8 f.cookie.toNat, .num 8 f.packetCount.toNat,
      .num 8 f.byteCount.toNat] ++ MatchPacket f.mtch ++ f.instructions.flatMap InstructionPacket) f := by
  have hl : f.writeTo.out.length = f.size := by
    rw [FlowStats.out_eq]; simp [FlowStats.size, Match.writeTo_eq, Instructions.writeTo_eq]; omega
  rw [hl] at hs
  have hu : f.len.toNat = f.size := u16_ofNat_toNat hs
  have hM := match_packet_layout _ hm
  have hI := instructions_packet_layout _ hi
  rw [hl, ← hu]
  refine LReads.tolerates (fun s => ?_) (flowStats_roundtrip f hm hi (by rw [hl]; exact hs)).1 ?_
  · unfold FlowStats.readFrom
    refine LReads.withLocal (l' := f.len) ?_
    refine LReads.andThen (s1 := ({ f with instructions := s.instructions }, f.len)) ?_ ?_
    · simp only [List.cons_append, List.nil_append]
      loose
      exact LReads.last (LReads.sub (match_lreads f.mtch hm _))
    · refine LReads.assignCons ?_
      refine LReads.last (LReads.dyn (LReads.limited (LReadsAll.sub
        (instructions_lreads f.instructions hi [])) ?_))
      simp only [hu, width_append, width_cons, width_nil, Fld.width, ← hM.length, ← hI.length]
      simp only [FlowStats.size, Match.writeTo_eq, Instructions.writeTo_eq]
      omega
  · rw [FlowStats.out_eq]
    refine hI.append ?_
    simp only [List.cons_append, List.nil_append, Layout.u8, Layout.u16, Layout.u32, Layout.u64,
      Layout.zeros, true_and]
    exact hM

/-! ## Packets -/

/-- C61.  Packet-in messages. -/
theorem packetIn_reserved (p : PacketIn) (hm : p.mtch.Valid) :
    ToleratesAll PacketIn.writeTo PacketIn.readFrom ([.num 4 p.buffer.toNat, .num 2 p.length.toNat,
      .num 1 p.reason.toNat, .num 1 p.table.toNat, .num 8 p.cookie.toNat] ++
      (MatchPacket p.mtch ++ [.pad 2, .raw p.data])) p := by
  refine LReadsAll.tolerates (fun s => ?_) (packetIn_roundtrip p hm).1 ?_
  · unfold PacketIn.readFrom
    simp only [List.cons_append, List.nil_append]
    loose
    refine LReadsAll.app (LReads.sub (match_lreads p.mtch hm _)) ?_
    loose
    exact LReadsAll.last (LReadsAll.raw (ReadsAll.rest _))
  · rw [PacketIn.out_eq]
    simp only [List.cons_append, List.nil_append, Layout.u8, Layout.u16, Layout.u32, Layout.u64,
      Layout.zeros, true_and]
    exact Layout.append (by simp) (match_packet_layout _ hm)

/-- C61.  Packet-out messages. -/
theorem packetOut_reserved (p : PacketOut) (hv : ∀ a ∈ p.actions, a.Valid)
    (hl : (p.actions.flatMap (fun a => a.writeTo.out)).length ≤ 65535) :
    ToleratesAll PacketOut.writeTo PacketOut.readFrom ([.num 4 p.buffer.toNat, .num 4 p.inPort.toNat,
      .num 2 (p.actions.flatMap (fun a => a.writeTo.out)).length, .pad 6] ++
      (p.actions.flatMap ActionWire ++ [.raw p.data])) p := by
  have hf : p.actions.flatMap (fun a => a.writeTo.out) = Actions.bytes p.actions := rfl
  rw [hf] at hl ⊢
  have hn := u16_ofNat_toNat hl
  have hA := actions_packet_layout _ hv
  rw [← hn]
  refine LReadsAll.tolerates (fun s => ?_) (packetOut_roundtrip p hv hl).1 ?_
  · unfold PacketOut.readFrom
    refine LReadsAll.withLocal (l' := UInt16.ofNat (Actions.bytes p.actions).length) ?_
    simp only [List.cons_append, List.nil_append]
    loose
    refine LReadsAll.app (LReads.dyn (LReads.limited (LReadsAll.sub (actions_lreads p.actions hv _)) ?_)) ?_
    · rw [← hA.length]; exact hn
    · exact LReadsAll.last (LReadsAll.raw (ReadsAll.rest _))
  · rw [PacketOut.out_eq]
    simp only [List.cons_append, List.nil_append, Layout.u8, Layout.u16, Layout.u32, Layout.u64,
      Layout.zeros, true_and]
    exact Layout.append (by simp) hA

/-! ## Groups -/

/-- The diagram of a bucket, with those of its actions. -/
def BucketPacket (b : Bucket) : List Fld :=
  [.num 2 (16 + (b.actions.flatMap (fun a => a.writeTo.out)).length), .num 2 b.weight.toNat,
    .num 4 b.watchPort.toNat, .num 4 b.watchGroup.toNat, .pad 4] ++ b.actions.flatMap ActionWire

private theorem bucket_lreads (b : Bucket) (hv : b.Valid) (s : Bucket) :
    LReads Bucket.readFrom s (BucketPacket b) b := by
  obtain ⟨h1, h2⟩ := hv
  rw [Bucket.size, ← Actions.bytes_length] at h2
  have hf : b.actions.flatMap (fun a => a.writeTo.out) = Actions.bytes b.actions := rfl
  have hA := actions_packet_layout _ h1
  have hn := u16_ofNat_toNat h2
  unfold BucketPacket
  rw [hf, ← hn]
  unfold Bucket.readFrom
  refine LReads.withLocal (l' := UInt16.ofNat (16 + (Actions.bytes b.actions).length)) ?_
  simp only [List.cons_append, List.nil_append]
  loose
  refine LReads.last (LReads.dyn (LReads.limited (LReadsAll.sub (actions_lreads b.actions h1 _)) ?_))
  rw [← hA.length]; exact u16_ofNat_sub (c := 16) h2

theorem bucket_packet_layout (b : Bucket) (hv : b.Valid) : Layout b.bytes (BucketPacket b) := by
  have hl : b.writeTo.out.length = 16 + (b.actions.flatMap (fun a => a.writeTo.out)).length := by
    change b.bytes.length = 16 + (Actions.bytes b.actions).length
    rw [Bucket.bytes_length, Bucket.size, Actions.bytes_length]
  have h := bucket_layout b (by
    have : b.writeTo.out.length = b.size := Bucket.bytes_length b
    rw [this]; exact hv.2)
  rw [hl] at h
  have := Layout.refine (f := [_, _, _, _, _]) (t := []) (actions_packet_layout b.actions hv.1) h
  rw [List.append_nil] at this
  exact this

/-- C61.  Buckets. -/
theorem bucket_reserved (b : Bucket) (ha : ∀ a ∈ b.actions, a.Valid)
    (hs : b.writeTo.out.length ≤ 65535) :
    Tolerates Bucket.writeTo Bucket.readFrom (BucketPacket b) b := by
  have hv : b.Valid := ⟨ha, by rw [← Bucket.bytes_length]; exact hs⟩
  exact LReads.tolerates (bucket_lreads b hv) (bucket_roundtrip b ha hs).1 (bucket_packet_layout b hv)

private theorem buckets_lreads (s bs : List Bucket) (hv : ∀ b ∈ bs, b.Valid) :
    LReadsAll (Enc.readSliceFrom Bucket.zero Bucket.readFrom) s (bs.flatMap BucketPacket) s :=
  LReadsAll.readSliceFrom (val := id) s bs (fun b hb => bucket_lreads b (hv b hb) _)
    (fun b _ => by simp [BucketPacket, Fld.width]; omega) Bucket.eof

/-- C61 for group modifications; missing: the buckets, which the decoder drops
(`groupMod_loses_buckets`).  Reserved bytes anywhere in the message, those in the actions of
the buckets included, change nothing. -/
theorem groupMod_reserved_partial (g s : GroupMod)
    (hb : ∀ b ∈ g.buckets, (∀ a ∈ b.actions, a.Valid) ∧ b.writeTo.out.length ≤ 65535) (b : Bytes)
    (hl : Loose b ([.num 2 g.command.toNat, .num 1 g.type.toNat, .pad 1, .num 4 g.group.toNat] ++
      g.buckets.flatMap BucketPacket)) :
    DecodesAllFrom GroupMod.readFrom s b { g with buckets := s.buckets } := by
  refine ReadsAll.decodesAllFrom ?_
  revert b
  change LReadsAll _ _ _ _
  unfold GroupMod.readFrom
  simp only [List.cons_append, List.nil_append]
  loose
  exact LReadsAll.last (LReadsAll.sub (buckets_lreads _ _ (fun b h => ⟨(hb b h).1, by
    rw [← Bucket.bytes_length]; exact (hb b h).2⟩)))

/-- C61 for group descriptions; missing: the buckets. -/
theorem groupDescStats_reserved_partial (g s : GroupDescStats)
    (hb : ∀ b ∈ g.buckets, ∀ a ∈ b.actions, a.Valid) (hs : g.writeTo.out.length ≤ 65535) (b : Bytes)
    (hl : Loose b ([.num 2 g.writeTo.out.length, .num 1 g.type.toNat, .pad 1, .num 4 g.group.toNat] ++
      g.buckets.flatMap BucketPacket)) :
    DecodesFrom GroupDescStats.readFrom s b { g with buckets := s.buckets } := by
  have hg : g.writeTo.out.length = 8 + (Buckets.bytes g.buckets).length := by
    rw [GroupDescStats.out_eq]; simp; omega
  rw [hg] at hs
  have hv : ∀ b ∈ g.buckets, b.Valid := fun b h => ⟨hb b h, by
    have : b.size ≤ (g.buckets.map Bucket.size).sum := le_sum_of_mem (List.mem_map_of_mem h)
    rw [Buckets.bytes_length] at hs; omega⟩
  have hB : Layout (Buckets.bytes g.buckets) (g.buckets.flatMap BucketPacket) :=
    Layout.flatMap _ (fun b h => bucket_packet_layout b (hv b h))
  have hn := u16_ofNat_toNat hs
  rw [hg, ← hn] at hl
  refine ReadsC.decodesFrom (ReadsC.withLocal
    (l' := UInt16.ofNat (8 + (Buckets.bytes g.buckets).length)) (ReadsC.ignoreErr ?_))
  revert b
  change LReads _ _ _ _
  refine LReads.app (s1 := ({ g with buckets := s.buckets },
    UInt16.ofNat (8 + (Buckets.bytes g.buckets).length))) ?_ ?_
  · loose
  · refine LReads.last (LReads.dyn (LReads.limited (LReadsAll.sub (buckets_lreads _ _ hv)) ?_))
    rw [← hB.length]; exact u16_ofNat_sub (c := 8) hs

/-- C61 for group statistics; missing: the counters of the buckets. -/
theorem groupStats_reserved_partial (g s : GroupStats)
    (hs : 40 + 16 * g.bucketStats.length ≤ 65535) (b : Bytes)
    (hl : Loose b [.num 2 (40 + 16 * g.bucketStats.length), .pad 2, .num 4 g.group.toNat,
      .num 4 g.refCount.toNat, .pad 4, .num 8 g.packetCount.toNat, .num 8 g.byteCount.toNat,
      .num 4 g.durationSec.toNat, .num 4 g.durationNSec.toNat,
      .raw (g.bucketStats.flatMap (fun b => be b.packetCount ++ be b.byteCount))]) :
    DecodesFrom GroupStats.readFrom s b { g with bucketStats := s.bucketStats } := by
  have h : g.bucketStats.flatMap (fun b => be b.packetCount ++ be b.byteCount) =
      BucketCounters.bytes g.bucketStats := by
    simp [BucketCounters.bytes, BucketCounter.writeTo, Enc.writeTo, Enc.gather]
  rw [h] at hl
  rw [← BucketCounters.bytes_length] at hs hl
  have hn := u16_ofNat_toNat hs
  refine Reads.decodesFrom ?_
  revert b
  change LReads _ _ _ _
  rw [← hn]
  unfold GroupStats.readFrom
  refine LReads.withLocal (l' := UInt16.ofNat (40 + (BucketCounters.bytes g.bucketStats).length)) ?_
  loose
  refine LReads.last (LReads.dyn (LReads.limited (LReadsAll.sub
    (LReadsAll.raw (BucketCounters.readsAll _ _))) ?_))
  simp only [width_cons, width_nil, Fld.width]; exact u16_ofNat_sub (c := 40) hs

/-! ## Meters -/

/-- The diagrams of the meter bands. -/
def MeterBandPacket : MeterBand → List Fld
  | .drop r u => [.num 2 1, .num 2 16, .num 4 r.toNat, .num 4 u.toNat, .pad 4]
  | .dscpRemark r u p => [.num 2 2, .num 2 16, .num 4 r.toNat, .num 4 u.toNat, .num 1 p.toNat, .pad 3]
  | .experimenter r u e => [.num 2 0xffff, .num 2 16, .num 4 r.toNat, .num 4 u.toNat, .num 4 e.toNat]

private theorem meterBand_lreads (a s : MeterBand) (hs : s.type = a.type) :
    LReads MeterBand.readFrom s (MeterBandPacket a) a := by
  cases a with
  | drop x y =>
    obtain ⟨p, q, rfl⟩ : ∃ p q, s = .drop p q := by cases s <;> simp_all [MeterBand.type]
    refine LReads.wrap (f := fun s : UInt32 × UInt32 => MeterBand.drop s.1 s.2) (t' := (x, y)) ?_ (fun r => rfl)
    refine LReads.app (f := [_, _]) (LReads.skip rfl) ?_
    loose
  | dscpRemark x y z =>
    obtain ⟨p, q, o, rfl⟩ : ∃ p q o, s = .dscpRemark p q o := by cases s <;> simp_all [MeterBand.type]
    refine LReads.wrap (f := fun s : UInt32 × UInt32 × UInt8 => MeterBand.dscpRemark s.1 s.2.1 s.2.2)
      (t' := (x, y, z)) ?_ (fun r => rfl)
    refine LReads.app (f := [_, _]) (LReads.skip rfl) ?_
    loose
  | experimenter x y z =>
    obtain ⟨p, q, o, rfl⟩ : ∃ p q o, s = .experimenter p q o := by cases s <;> simp_all [MeterBand.type]
    refine LReads.wrap (f := fun s : UInt32 × UInt32 × UInt32 => MeterBand.experimenter s.1 s.2.1 s.2.2)
      (t' := (x, y, z)) ?_ (fun r => rfl)
    refine LReads.app (f := [_, _]) (LReads.skip rfl) ?_
    loose

private theorem meterBand_packet_layout (a : MeterBand) :
    Encodes a.writeTo ∧ Layout a.writeTo.out (MeterBandPacket a) := by
  cases a with
  | drop => exact meterBandDrop_layout _ _
  | dscpRemark => exact meterBandDSCPRemark_layout _ _ _
  | experimenter => exact meterBandExperimenter_layout _ _ _

/-- C61.  Meter bands. -/
theorem meterBand_reserved (a : MeterBand) (b : Bytes) (hb : Loose b (MeterBandPacket a)) :
    (∀ s : MeterBand, s.type = a.type → DecodesFrom MeterBand.readFrom s b a) ∧ Encodes a.writeTo ∧
      a.writeTo.out = canon ((MeterBandPacket a).map Fld.part) b :=
  ⟨fun s hs => Reads.decodesFrom (meterBand_lreads a s hs b hb), (meterBand_packet_layout a).1,
    (meterBand_packet_layout a).2.canon hb⟩

private theorem meterBands_lreads (as s : List MeterBand) :
    LReadsAll MeterBands.readFrom s (as.flatMap MeterBandPacket) s :=
  LReadsAll.subVal (LReadsAll.scanFrom (zero := MeterBand.zero) (code := MeterBand.type) _ as
    (fun a _ => meterBand_lreads a _ (by cases a <;> rfl)) (fun a _ => meterBandMake_type a)
    (fun a _ => by cases a <;> exact ⟨_, rfl⟩))

/-- C61 for meter modifications; missing: the bands, which the decoder drops. -/
theorem meterMod_reserved_partial (m s : MeterMod) (b : Bytes)
    (hl : Loose b ([.num 2 m.command.toNat, .num 2 m.flags.toNat, .num 4 m.meter.toNat] ++
      m.bands.flatMap MeterBandPacket)) :
    DecodesAllFrom MeterMod.readFrom s b { m with bands := s.bands } := by
  refine ReadsAll.decodesAllFrom ?_
  revert b
  change LReadsAll _ _ _ _
  unfold MeterMod.readFrom
  simp only [List.cons_append, List.nil_append]
  loose
  exact LReadsAll.last (LReadsAll.sub (meterBands_lreads _ _))

/-- C61 for meter configurations; missing: the bands. -/
theorem meterConfig_reserved_partial (m s : MeterConfig) (hs : 8 + 16 * m.bands.length ≤ 65535)
    (b : Bytes) (hl : Loose b ([.num 2 (8 + 16 * m.bands.length), .num 2 m.flags.toNat,
      .num 4 m.meter.toNat] ++ m.bands.flatMap MeterBandPacket)) :
    DecodesFrom MeterConfig.readFrom s b { m with bands := s.bands } := by
  have hB : Layout (MeterBands.bytes m.bands) (m.bands.flatMap MeterBandPacket) :=
    Layout.flatMap _ (fun b _ => (meterBand_packet_layout b).2)
  rw [← MeterBands.bytes_length] at hs hl
  have hn := u16_ofNat_toNat hs
  refine Reads.decodesFrom ?_
  revert b
  change LReads _ _ _ _
  rw [← hn]
  unfold MeterConfig.readFrom
  refine LReads.withLocal (l' := UInt16.ofNat (8 + (MeterBands.bytes m.bands).length)) ?_
  simp only [List.cons_append, List.nil_append]
  loose
  refine LReads.last (LReads.dyn (LReads.limited (LReadsAll.sub (meterBands_lreads _ _)) ?_))
  rw [← hB.length]; exact u16_ofNat_sub (c := 8) hs

/-- C61 for meter statistics; missing: the statistics of the bands. -/
theorem meterStats_reserved_partial (m s : MeterStats) (hs : 40 + 16 * m.bandStats.length ≤ 65535)
    (b : Bytes) (hl : Loose b ([.num 4 m.meter.toNat, .num 2 (40 + 16 * m.bandStats.length), .pad 6,
      .num 4 m.flowCount.toNat, .num 8 m.packetInCount.toNat, .num 8 m.byteInCount.toNat,
      .num 4 m.durationSec.toNat, .num 4 m.durationNSec.toNat] ++
      [.raw (m.bandStats.flatMap (fun b => be b.packetBandCount ++ be b.byteBandCount))])) :
    DecodesFrom MeterStats.readFrom s b { m with bandStats := s.bandStats } := by
  have h : m.bandStats.flatMap (fun b => be b.packetBandCount ++ be b.byteBandCount) =
      MeterBandStatss.bytes m.bandStats := by
    simp [MeterBandStatss.bytes, MeterBandStats.writeTo, Enc.writeTo, Enc.gather]
  rw [h] at hl
  rw [← MeterBandStatss.bytes_length] at hs hl
  have hn := u16_ofNat_toNat hs
  rw [← hn] at hl
  refine ReadsC.decodesFrom (ReadsC.withLocal
    (l' := UInt16.ofNat (40 + (MeterBandStatss.bytes m.bandStats).length)) (ReadsC.ignoreErr ?_))
  revert b
  change LReads _ _ _ _
  refine LReads.app (s1 := ({ m with bandStats := s.bandStats },
    UInt16.ofNat (40 + (MeterBandStatss.bytes m.bandStats).length))) ?_ ?_
  · unfold MeterStats.header
    loose
  · refine LReads.last (LReads.dyn (LReads.limited (LReadsAll.sub
      (LReadsAll.raw (MeterBandStatss.readsAll _ _))) ?_))
    simp only [width_cons, width_nil, Fld.width]; exact u16_ofNat_sub (c := 40) hs

/-! ## Queues -/

/-- The diagrams of the queue properties. -/
def QueuePropPacket : QueueProp → List Fld
  | .minRate x => [.num 2 1, .num 2 16, .pad 4, .num 2 x.toNat, .pad 6]
  | .maxRate x => [.num 2 2, .num 2 16, .pad 4, .num 2 x.toNat, .pad 6]
  | .experimenter e d => [.num 2 0xffff, .num 2 (16 + d.length), .pad 4, .num 4 e.toNat, .pad 4, .raw d]

private theorem queueProp_lreads (a s : QueueProp) (hv : a.Valid) (hs : s.type = a.type) :
    LReads QueueProp.readFrom s (QueuePropPacket a) a := by
  cases a with
  | minRate x =>
    obtain ⟨p, rfl⟩ : ∃ p, s = .minRate p := by cases s <;> simp_all [QueueProp.type]
    refine LReads.wrap (f := QueueProp.minRate) ?_ (fun r => rfl)
    refine LReads.app (f := [_, _, _]) (LReads.skip rfl) ?_
    loose
  | maxRate x =>
    obtain ⟨p, rfl⟩ : ∃ p, s = .maxRate p := by cases s <;> simp_all [QueueProp.type]
    refine LReads.wrap (f := QueueProp.maxRate) ?_ (fun r => rfl)
    refine LReads.app (f := [_, _, _]) (LReads.skip rfl) ?_
    loose
  | experimenter e d =>
    obtain ⟨p, q, rfl⟩ : ∃ p q, s = .experimenter p q := by cases s <;> simp_all [QueueProp.type]
    have hd : 16 + d.length ≤ 65535 := hv
    have hn := u16_ofNat_toNat hd
    refine LReads.wrap (f := fun s : UInt32 × Bytes => QueueProp.experimenter s.1 s.2)
      (t' := (e, d)) ?_ (fun r => rfl)
    refine LReads.withLocal (l' := UInt16.ofNat (16 + d.length)) ?_
    refine LReads.app (f := [_, _]) (s1 := ((p, q), UInt16.ofNat (16 + d.length)))
      (LReads.exact (c := be (0xffff : UInt16) ++ be (UInt16.ofNat (16 + d.length))) ?_ (by simp) ?_) ?_
    · simp only [Layout.u16, Layout.u16', hn, true_and]; exact ⟨rfl, rfl⟩
    · have := Reads.bin (s := ((p, q), (0 : UInt16))) (k := 4)
        (b := be (0xffff : UInt16) ++ be (UInt16.ofNat (16 + d.length)))
        (set := fun b s => (s.1, ofBE UInt16 (b.drop 2))) (by simp)
      simpa [-UInt16.ofNat_add] using this
    · loose
      refine LReads.last (LReads.dyn (LReads.limited (LReadsAll.raw (ReadsAll.rest d)) ?_))
      simp only [width_cons, width_nil, Fld.width]; exact u16_ofNat_sub (c := 16) hd

theorem queueProp_packet_layout (a : QueueProp) (hv : a.Valid) :
    Encodes a.writeTo ∧ Layout a.writeTo.out (QueuePropPacket a) := by
  cases a with
  | minRate => exact queuePropMinRate_layout _
  | maxRate => exact queuePropMaxRate_layout _
  | experimenter e d => exact queuePropExperimenter_layout e d hv

/-- C61.  Queue properties. -/
theorem queueProp_reserved (a : QueueProp) (hl : a.writeTo.out.length ≤ 65535) (b : Bytes)
    (hb : Loose b (QueuePropPacket a)) :
    (∀ s : QueueProp, s.type = a.type → DecodesFrom QueueProp.readFrom s b a) ∧ Encodes a.writeTo ∧
      a.writeTo.out = canon ((QueuePropPacket a).map Fld.part) b := by
  have hv : a.Valid := by rw [QueueProp.Valid, ← QueueProp.bytes_length]; exact hl
  exact ⟨fun s hs => Reads.decodesFrom (queueProp_lreads a s hv hs b hb),
    (queueProp_packet_layout a hv).1, (queueProp_packet_layout a hv).2.canon hb⟩

/-- The diagram of a packet queue. -/
def PacketQueuePacket (q : PacketQueue) : List Fld :=
  [.num 4 q.queue.toNat, .num 4 q.port.toNat, .num 2 q.writeTo.out.length, .pad 6] ++
    q.properties.flatMap QueuePropPacket

private theorem packetQueue_lreads (q s : PacketQueue) (hs : q.writeTo.out.length ≤ 65535) :
    LReads PacketQueue.readFrom s (PacketQueuePacket q) { q with properties := s.properties } := by
  have hv := packetQueue_valid hs
  obtain ⟨h1, h2⟩ := hv
  have hl : q.writeTo.out.length = 16 + (QueueProps.bytes q.properties).length := by
    change q.bytes.length = _
    rw [PacketQueue.bytes_length, PacketQueue.size, QueueProps.bytes_length]
  rw [hl] at hs
  have hP : Layout (QueueProps.bytes q.properties) (q.properties.flatMap QueuePropPacket) :=
    Layout.flatMap _ (fun p hp => (queueProp_packet_layout p (h1 p hp)).2)
  have hn := u16_ofNat_toNat hs
  unfold PacketQueuePacket
  rw [hl, ← hn]
  unfold PacketQueue.readFrom
  refine LReads.withLocal (l' := UInt16.ofNat (16 + (QueueProps.bytes q.properties).length)) ?_
  simp only [List.cons_append, List.nil_append]
  loose
  refine LReads.last (LReads.dyn (LReads.limited (LReadsAll.sub (LReadsAll.subVal
    (LReadsAll.scanFrom (zero := QueueProp.zero) (code := QueueProp.type) _ q.properties
      (fun a ha => queueProp_lreads a _ (h1 a ha) (by cases a <;> rfl))
      (fun a _ => queuePropMake_type a) (fun a _ => by cases a <;> exact ⟨_, rfl⟩)))) ?_))
  rw [← hP.length]; exact u16_ofNat_sub (c := 16) hs

/-- C61 for packet queues; missing: the properties, which the decoder drops. -/
theorem packetQueue_reserved_partial (q s : PacketQueue) (hs : q.writeTo.out.length ≤ 65535)
    (b : Bytes) (hl : Loose b (PacketQueuePacket q)) :
    DecodesFrom PacketQueue.readFrom s b { q with properties := s.properties } :=
  Reads.decodesFrom (packetQueue_lreads q s hs b hl)

/-- C61 for queue configuration replies; missing: the queues, which the decoder drops. -/
theorem queueGetConfigReply_reserved_partial (q s : QueueGetConfigReply)
    (hs : ∀ p ∈ q.queues, p.writeTo.out.length ≤ 65535) (b : Bytes)
    (hl : Loose b ([.num 4 q.port.toNat, .pad 4] ++ q.queues.flatMap PacketQueuePacket)) :
    DecodesAllFrom QueueGetConfigReply.readFrom s b { q with queues := s.queues } := by
  refine ReadsAll.decodesAllFrom ?_
  revert b
  change LReadsAll _ _ _ _
  unfold QueueGetConfigReply.readFrom
  simp only [List.cons_append, List.nil_append]
  loose
  exact LReadsAll.last (LReadsAll.sub (LReadsAll.readSliceFrom
    (val := fun p => { p with properties := PacketQueue.zero.properties }) _ q.queues
    (fun p hp => packetQueue_lreads p _ (hs p hp))
    (fun p _ => by simp [PacketQueuePacket, Fld.width]; omega) PacketQueue.eof))

/-! ## Extensible matches: every byte string

An extensible match has no reserved bytes, and its diagram depends on its bytes.  What can
be relayed is stated for byte strings. -/

private theorem be_u8 (x : UInt8) : be x = [x] := by
  have : ofBE UInt8 [x] = x := by simp [ofBE, getBE, Wire.ofNat]
  have h2 := be_ofBE_u8 (b := [x]) rfl
  rwa [this] at h2

private theorem u8_field : ∀ n < 256, ((UInt8.ofNat n >>> 1) <<< 1) ||| (UInt8.ofNat n &&& 1) = UInt8.ofNat n ∧
    (UInt8.ofNat n >>> 1).toNat < 128 ∧ ((UInt8.ofNat n) &&& 1).toNat = n % 2 := by
  decide +kernel

/-- C61.  A byte string that is as long as its length byte says, and that does not announce a
mask without being able to hold one, decodes to some extensible match, and the match is
encoded as the same bytes. -/
theorem xm_relays (c0 c1 t l : UInt8) (p : Bytes) (hl : p.length = l.toNat)
    (hm : t.toNat % 2 = 1 → p.length % 2 = 0 ∧ p ≠ []) :
    ∃ x : XM, Decodes XM.readFrom (c0 :: c1 :: t :: l :: p) x ∧ Encodes x.writeTo ∧
      x.writeTo.out = c0 :: c1 :: t :: l :: p := by
  obtain ⟨e1, e2, e3⟩ := u8_field t.toNat t.toNat_lt
  simp only [UInt8.ofNat_toNat] at e1 e2 e3
  have hc : be (ofBE UInt16 [c0, c1]) = [c0, c1] := be_ofBE_u16 rfl
  have hlt := l.toNat_lt
  suffices h : ∃ x : XM, x.Valid ∧ x.writeTo.out = c0 :: c1 :: t :: l :: p by
    obtain ⟨x, h1, h2⟩ := h
    obtain ⟨h3, h4⟩ := xm_roundtrip x h1
    rw [h2] at h4
    exact ⟨x, h4, h3, h2⟩
  by_cases ht : t.toNat % 2 = 1
  · obtain ⟨h1, h2⟩ := hm ht
    have hp : 0 < p.length := List.length_pos_iff.mpr h2
    refine ⟨⟨ofBE UInt16 [c0, c1], t >>> 1, p.take (p.length / 2), p.drop (p.length / 2)⟩,
      ⟨e2, by simp; omega, .inr (by simp; omega)⟩, ?_⟩
    have e : (t &&& 1) = 1 := UInt8.toNat.inj (by rw [e3, ht]; rfl)
    rw [e] at e1
    have hx := XM.bytes_eq ⟨ofBE UInt16 [c0, c1], t >>> 1, p.take (p.length / 2), p.drop (p.length / 2)⟩
    refine hx.trans ?_
    simp only [List.length_drop, List.length_take, List.take_append_drop]
    rw [if_pos (by omega), hc, e1,
      show p.length - p.length / 2 + min (p.length / 2) p.length = l.toNat by omega,
      UInt8.ofNat_toNat, be_u8, be_u8]
    rfl
  · refine ⟨⟨ofBE UInt16 [c0, c1], t >>> 1, p, []⟩, ⟨e2, by simp; omega, .inl rfl⟩, ?_⟩
    have e : (t &&& 1) = 0 := UInt8.toNat.inj (by rw [e3]; simp; omega)
    rw [e] at e1
    refine (XM.bytes_eq ⟨ofBE UInt16 [c0, c1], t >>> 1, p, []⟩).trans ?_
    simp only [List.length_nil, Nat.lt_irrefl, if_false, hc, e1, Nat.zero_add, hl, UInt8.ofNat_toNat,
      List.append_nil, be_u8]
    rfl

example : ([1, 2, 3, 255, 255, 255] : Bytes).length = (6 : UInt8).toNat ∧
    ((13 : UInt8).toNat % 2 = 1 → ([1, 2, 3, 255, 255, 255] : Bytes).length % 2 = 0 ∧
      ([1, 2, 3, 255, 255, 255] : Bytes) ≠ []) := by decide

/-- C61 fails for the others: a match that announces a mask but has an odd number of bytes is
accepted, all its bytes are consumed, and it is passed on without the last of them. -/
theorem xm_relays_false : ∃ (b : Bytes) (r : Rd), r.Ok .eof ∧ r.content = b ∧
    (XM.readFrom XM.zero r).err = none ∧ (XM.readFrom XM.zero r).n = b.length ∧
    (XM.readFrom XM.zero r).val.writeTo.out = b.take 3 ++ [b.getD 3 0 - 1] ++ (b.drop 4).dropLast :=
  ⟨[0x80, 0, 1, 3, 5, 6, 7], .src [0x80, 0, 1, 3, 5, 6, 7] [] .eof true, rfl, by decide +kernel⟩

/-- C61 fails here too: a match that announces a mask of no bytes is passed on as one
without a mask. -/
theorem xm_relays_empty_mask_false : ∃ (b : Bytes) (r : Rd), r.Ok .eof ∧ r.content = b ∧
    (XM.readFrom XM.zero r).err = none ∧ (XM.readFrom XM.zero r).n = b.length ∧
    b.getD 2 0 = 1 ∧ (XM.readFrom XM.zero r).val.writeTo.out.getD 2 0 = 0 :=
  ⟨[0x80, 0, 1, 0], .src [0x80, 0, 1, 0] [] .eof true, rfl, by decide +kernel⟩

/-- C61 fails for the length of an action: an action that claims more bytes than its kind
has is accepted and passed on with another length. -/
theorem action_relays_false : ∃ (b : Bytes) (r : Rd), r.Ok .eof ∧ r.content = b ∧
    (Action.readFrom (.group 0) r).err = none ∧ (Action.readFrom (.group 0) r).n = b.length ∧
    (Action.readFrom (.group 0) r).val.writeTo.out ≠ b :=
  ⟨[0, 22, 0, 24, 0, 0, 0, 7], .src [0, 22, 0, 24, 0, 0, 0, 7] [] .eof true, rfl, by decide +kernel⟩

/-- C61 fails for incomplete lists of actions: one is accepted without an error, and
encoding and decoding it again gives another list. -/
theorem actions_relays_false : ∃ (b : Bytes) (r : Rd), r.Ok .eof ∧ r.content = b ∧
    (Actions.readFrom [] r).err = none ∧
    ∃ r' : Rd, r'.Ok .eof ∧ r'.content = (Actions.writeTo (Actions.readFrom [] r).val).out ∧
      (Actions.readFrom [] r').err = none ∧ (Actions.readFrom [] r').val ≠ (Actions.readFrom [] r).val :=
  ⟨[0, 25, 0, 16, 0x80, 0, 0x81], .src [0, 25, 0, 16, 0x80, 0, 0x81] [] .eof true, rfl,
    by decide +kernel, by decide +kernel,
    .src (Actions.writeTo (Actions.readFrom [] (.src [0, 25, 0, 16, 0x80, 0, 0x81] [] .eof true)).val).out
      [] .eof true, rfl, by decide +kernel, by decide +kernel, by decide +kernel⟩

/-! ## Byte strings with something in the reserved bytes -/

/-- An output action with its six reserved bytes set. -/
example : Loose [0, 0, 0, 16, 0, 0, 0, 1, 0, 128, 1, 2, 3, 4, 5, 6] (ActionWire (.output 1 128)) := by
  decide +kernel

/-- A flow modification with two reserved bytes of its own, four in the match, four in the
instruction and six in the action. -/
example : ∃ f : FlowMod, f.mtch.Valid ∧ (∀ i ∈ f.instructions, i.Valid) ∧
    f.mtch.fields ≠ [] ∧ f.instructions ≠ [] ∧
    Loose ([0, 0, 0, 0, 0, 0, 0, 1] ++ [0, 0, 0, 0, 0, 0, 0, 2] ++ [3, 4, 0, 5, 0, 6, 0, 7] ++
      [0, 0, 0, 8, 0, 0, 0, 9, 0, 0, 0, 10, 0, 11, 0xaa, 0xbb] ++
      [0, 1, 0, 12, 0x80, 0, 0, 4, 0, 0, 0, 1, 0xde, 0xad, 0xbe, 0xef] ++
      [0, 4, 0, 24, 0xca, 0xfe, 0xca, 0xfe] ++
      [0, 0, 0, 16, 0, 0, 0, 1, 0, 128, 1, 2, 3, 4, 5, 6])
      ([.num 8 f.cookie.toNat, .num 8 f.cookieMask.toNat,
      .num 1 f.table.toNat, .num 1 f.command.toNat, .num 2 f.idleTimeout.toNat,
      .num 2 f.hardTimeout.toNat, .num 2 f.priority.toNat, .num 4 f.buffer.toNat,
      .num 4 f.outPort.toNat, .num 4 f.outGroup.toNat, .num 2 f.flags.toNat, .pad 2] ++
      (MatchPacket f.mtch ++ f.instructions.flatMap InstructionPacket)) :=
  ⟨⟨1, 2, 3, 4, 5, 6, 7, 8, 9, 10, 11, ⟨1, [⟨0x8000, 0, [0, 0, 0, 1], []⟩]⟩,
    [.applyActions [.output 1 128]]⟩, by decide, by decide, by decide, by decide, by decide +kernel⟩

/-- A bucket with something in its own reserved bytes and in those of an action. -/
example : Loose [0, 24, 0, 1, 0, 0, 0, 2, 0, 0, 0, 3, 9, 9, 9, 9, 0, 11, 0, 8, 7, 7, 7, 7]
    (BucketPacket ⟨1, 2, 3, [.copyTTLOut]⟩) := by decide +kernel

example : Loose [0, 1, 0, 16, 0, 0, 0, 1, 0, 0, 0, 2, 9, 9, 9, 9] (MeterBandPacket (.drop 1 2)) := by
  decide +kernel

example : Loose ([0xff, 0xff, 0, 18, 1, 1, 1, 1, 0, 0, 0, 2, 9, 9, 9, 9] ++ [5, 6])
    (QueuePropPacket (.experimenter 2 [5, 6])) := by decide +kernel

end Verif.Props
