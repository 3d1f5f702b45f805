import Verif.Ofp.Instruction
import Verif.Props.Match

/-!
# Properties C26 and C27: actions and instructions
-/

namespace Verif.Props

open Verif

/-! ## C26 -/

/-- C26.  The wire format of each action: type code, length, arguments, zero padding
(OpenFlow 1.3.5, section 7.2.5). -/
def ActionWire (a : Action) : List Fld :=
  match a with
  | .output port maxLen => [.num 2 0, .num 2 16, .num 4 port.toNat, .num 2 maxLen.toNat, .pad 6]
  | .copyTTLOut => [.num 2 11, .num 2 8, .pad 4]
  | .copyTTLIn => [.num 2 12, .num 2 8, .pad 4]
  | .setMPLSTTL ttl => [.num 2 15, .num 2 8, .num 1 ttl.toNat, .pad 3]
  | .decMPLSTTL => [.num 2 16, .num 2 8, .pad 4]
  | .pushVLAN t => [.num 2 17, .num 2 8, .num 2 t.toNat, .pad 2]
  | .popVLAN => [.num 2 18, .num 2 8, .pad 4]
  | .pushMPLS t => [.num 2 19, .num 2 8, .num 2 t.toNat, .pad 2]
  | .popMPLS t => [.num 2 20, .num 2 8, .num 2 t.toNat, .pad 2]
  | .setQueue q => [.num 2 21, .num 2 8, .num 4 q.toNat]
  | .group g => [.num 2 22, .num 2 8, .num 4 g.toNat]
  | .setNwTTL ttl => [.num 2 23, .num 2 8, .num 1 ttl.toNat, .pad 3]
  | .decNwTTL => [.num 2 24, .num 2 8, .pad 4]
  | .setField f =>
    let len := (8 + f.value.length + f.mask.length + 7) / 8 * 8
    [.num 2 25, .num 2 len, .num 2 f.cls.toNat,
      .num 1 (2 * f.type.toNat + if f.mask = [] then 0 else 1),
      .num 1 (f.value.length + f.mask.length), .raw f.value, .raw f.mask,
      .pad (len - (8 + f.value.length + f.mask.length))]
  | .pushPBB t => [.num 2 26, .num 2 8, .num 2 t.toNat, .pad 2]
  | .experimenter e => [.num 2 0xffff, .num 2 8, .num 4 e.toNat]

/-- C26.  Every action has the wire format of the specification. -/
theorem action_layout (a : Action) (hv : a.Valid) : Layout a.writeTo.out (ActionWire a) := by
  cases a with
  | setField f =>
    have hb := setField_bytes f
    have hlen := f.bytes_length
    have hfb := f.bytes_eq
    simp only [Action.bytes] at hb
    obtain ⟨ht, hl, hm⟩ := hv
    obtain ⟨_, _, _, _, c5, c6⟩ := xm_type_shift f.type.toNat ht
    simp only [UInt8.ofNat_toNat] at c5 c6
    have hlen8 : (UInt8.ofNat (f.mask.length + f.value.length)).toNat =
        f.value.length + f.mask.length := by
      rw [UInt8.toNat_ofNat']; omega
    have hp : padLen (4 + f.bytes.length) =
        (8 + f.value.length + f.mask.length + 7) / 8 * 8 - (8 + f.value.length + f.mask.length) := by
      rw [hlen]; unfold padLen; omega
    have hL : (UInt16.ofNat (4 + f.bytes.length + padLen (4 + f.bytes.length))).toNat =
        (8 + f.value.length + f.mask.length + 7) / 8 * 8 := by
      rw [hp, hlen, u16_ofNat_toNat (by omega)]; omega
    simp only [ActionWire]
    rw [hb, Layout.u16, Layout.u16, hL, hp, hfb]
    simp only [List.append_assoc, Layout.u16, Layout.u8, hlen8]
    refine ⟨rfl, trivial, trivial, ?_, trivial, ?_⟩
    · by_cases h : f.mask = []
      · simp only [h, List.length_nil, Nat.lt_irrefl, if_false, if_true, c6]; omega
      · have h' : 0 < f.mask.length := List.length_pos_iff.mpr h
        simp only [h, h', if_false, if_true, c5]
    · simp
  | _ => simp [Action.writeTo, Enc.writeTo, Enc.gather, actionHeader, ActionWire, Action.type]

/-- C26.  The length field of every action is its actual size, a multiple of eight. -/
theorem action_length (a : Action) (hv : a.Valid) :
    At a.writeTo.out 2 2 a.writeTo.out.length ∧ a.writeTo.out.length % 8 = 0 := by
  have hl := a.bytes_length
  have ht := a.bytes_type
  have hw := action_layout a hv
  simp only [Action.bytes] at hl ht
  have hd : ∀ (b : Bytes) (x y : Nat) (fs : List Fld), Layout b (.num 2 x :: .num 2 y :: fs) → At b 2 2 y := by
    intro b x y fs h
    simp only [Layout, List.length_drop] at h
    exact ⟨by omega, h.2.2.2.1⟩
  rw [hl]
  cases a with
  | setField f =>
    refine ⟨?_, ?_⟩
    · have := hd _ _ _ _ hw
      simpa only [Action.size, show 8 = 4 + 4 from rfl] using this
    · simp only [Action.size]; omega
  | _ =>
    simp only [ActionWire] at hw
    exact ⟨hd _ _ _ _ hw, by simp [Action.size]⟩

/-- C26.  Encoding then decoding an action into any action value of the same kind gives
it back. -/
theorem action_roundtrip (a : Action) (hv : a.Valid) :
    Encodes a.writeTo ∧
    ∀ s r tail, s.type = a.type → r.Ok .eof → r.content = a.writeTo.out ++ tail →
      (Action.readFrom s r).val = a ∧ (Action.readFrom s r).n = a.writeTo.out.length ∧
      (Action.readFrom s r).err = none ∧ (Action.readFrom s r).rd.content = tail := by
  refine ⟨by simp [Encodes, Action.writeTo_eq], ?_⟩
  intro s r tail hs hr hc
  obtain ⟨r', h1, h2, _⟩ := a.reads' hv s hs r tail hr hc
  refine ⟨by rw [h1], by rw [h1]; rfl, by rw [h1], ?_⟩
  rw [h1, h2.content.2, hc]; simp [Action.bytes]

/-- C26.  A list of actions decodes to the same list in the same order; whatever the
target held is dropped. -/
theorem actions_roundtrip (as : List Action) (hv : ∀ a ∈ as, a.Valid) :
    Encodes (Actions.writeTo as) ∧ DecodesAll Actions.readFrom (Actions.writeTo as).out as ∧
      (Actions.writeTo as).out = as.flatMap (fun a => a.writeTo.out) := by
  simp only [Actions.writeTo_eq]
  exact ⟨⟨rfl, rfl⟩, ReadsAll.decodes (Actions.readsAll as hv), rfl⟩

/-- Non-vacuity: a list with every kind of argument. -/
example : ∀ a ∈ [Action.output 0xfffffffd 128, .setMPLSTTL 64, .setField ⟨0x8000, 3, [1, 2, 3, 4, 5, 6], []⟩,
    .group 7, .popMPLS 0x0800], a.Valid := by decide

/-! ## C27 -/

/-- C27.  The wire format of each instruction (OpenFlow 1.3.5, section 7.2.4). -/
def InstructionWire (i : Instruction) : List Fld :=
  match i with
  | .gotoTable t => [.num 2 1, .num 2 8, .num 1 t.toNat, .pad 3]
  | .writeMetadata m k => [.num 2 2, .num 2 24, .pad 4, .num 8 m.toNat, .num 8 k.toNat]
  | .writeActions as => [.num 2 3, .num 2 (8 + (as.flatMap (fun a => a.writeTo.out)).length), .pad 4,
      .raw (as.flatMap (fun a => a.writeTo.out))]
  | .applyActions as => [.num 2 4, .num 2 (8 + (as.flatMap (fun a => a.writeTo.out)).length), .pad 4,
      .raw (as.flatMap (fun a => a.writeTo.out))]
  | .clearActions => [.num 2 5, .num 2 8, .pad 4]
  | .meter m => [.num 2 6, .num 2 8, .num 4 m.toNat]

theorem instruction_layout (i : Instruction) (hv : i.Valid) : Layout i.writeTo.out (InstructionWire i) := by
  have aux : ∀ (t : UInt16) (as : List Action), 8 + (as.map Action.size).sum ≤ 65535 →
      Layout (writeInstructionActions t as).out
        [.num 2 t.toNat, .num 2 (8 + (as.flatMap (fun a => a.writeTo.out)).length), .pad 4,
          .raw (as.flatMap (fun a => a.writeTo.out))] := by
    intro t as hl
    rw [← Actions.bytes_length] at hl
    have hf : as.flatMap (fun a => a.writeTo.out) = Actions.bytes as := rfl
    rw [instructionActions_bytes, hf]
    simp only [List.append_assoc, Layout.u16, u16_ofNat_toNat hl]
    simp
  cases i with
  | writeActions as => exact aux 3 as hv.2
  | applyActions as => exact aux 4 as hv.2
  | clearActions =>
    have := aux 5 [] (by simp)
    simp only [Instruction.writeTo, Instruction.type, InstructionWire]
    rw [← List.append_nil (writeInstructionActions 5 []).out]
    simpa [Layout] using this
  | _ => simp [Instruction.writeTo, Enc.writeTo, Enc.gather, instructionHeader, InstructionWire, Instruction.type]

theorem instruction_length (i : Instruction) (hv : i.Valid) :
    At i.writeTo.out 2 2 i.writeTo.out.length ∧ i.writeTo.out.length % 8 = 0 := by
  have hl := i.bytes_length
  have hw := instruction_layout i hv
  simp only [Instruction.bytes] at hl
  have hd : ∀ (b : Bytes) (x y : Nat) (fs : List Fld), Layout b (.num 2 x :: .num 2 y :: fs) → At b 2 2 y := by
    intro b x y fs h
    simp only [Layout, List.length_drop] at h
    exact ⟨by omega, h.2.2.2.1⟩
  have ha : ∀ as : List Action, (as.flatMap (fun a => a.writeTo.out)).length = (as.map Action.size).sum :=
    fun as => Actions.bytes_length as
  have h8 : ∀ as : List Action, (as.map Action.size).sum % 8 = 0 := by
    intro as
    induction as with
    | nil => rfl
    | cons a t ih =>
      have : a.size % 8 = 0 := by cases a <;> simp only [Action.size] <;> omega
      simp only [List.map_cons, List.sum_cons]; omega
  rw [hl]
  cases i with
  | writeActions as =>
    simp only [InstructionWire, ha] at hw
    exact ⟨hd _ _ _ _ hw, by have := h8 as; simp only [Instruction.size]; omega⟩
  | applyActions as =>
    simp only [InstructionWire, ha] at hw
    exact ⟨hd _ _ _ _ hw, by have := h8 as; simp only [Instruction.size]; omega⟩
  | _ =>
    simp only [InstructionWire] at hw
    exact ⟨hd _ _ _ _ hw, by simp [Instruction.size]⟩

/-- C27.  Encoding then decoding an instruction into any instruction value of the same
kind gives it back and consumes exactly its bytes, so nested actions are confined to the
declared length. -/
theorem instruction_roundtrip (i : Instruction) (hv : i.Valid) :
    Encodes i.writeTo ∧
    ∀ s r tail, s.type = i.type → r.Ok .eof → r.content = i.writeTo.out ++ tail →
      (Instruction.readFrom s r).val = i ∧ (Instruction.readFrom s r).n = i.writeTo.out.length ∧
      (Instruction.readFrom s r).err = none ∧ (Instruction.readFrom s r).rd.content = tail := by
  refine ⟨by simp [Encodes, Instruction.writeTo_eq], ?_⟩
  intro s r tail hs hr hc
  obtain ⟨r', h1, h2, _⟩ := i.reads' hv s hs r tail hr hc
  refine ⟨by rw [h1], by rw [h1]; rfl, by rw [h1], ?_⟩
  rw [h1, h2.content.2, hc]; simp [Instruction.bytes]

/-- C27.  A list of instructions decodes to the same list in the same order.  The decoded
instructions are *appended* to whatever the target held (see `C42`). -/
theorem instructions_roundtrip (is : List Instruction) (hv : ∀ i ∈ is, i.Valid) :
    Encodes (Instructions.writeTo is) ∧
    (Instructions.writeTo is).out = is.flatMap (fun i => i.writeTo.out) ∧
    ∀ s r, r.Ok .eof → r.content = (Instructions.writeTo is).out →
      (Instructions.readFrom s r).val = s ++ is ∧
      (Instructions.readFrom s r).n = (Instructions.writeTo is).out.length ∧
      (Instructions.readFrom s r).err = none ∧ (Instructions.readFrom s r).rd.content = [] := by
  simp only [Instructions.writeTo_eq]
  refine ⟨⟨rfl, rfl⟩, rfl, ?_⟩
  intro s r hr hc
  obtain ⟨r', h1, h2, _⟩ := Instructions.readsAll is hv s r hr hc
  refine ⟨by rw [h1], by rw [h1], by rw [h1], ?_⟩
  rw [h1, h2.content.2, hc]; simp

example : ∀ i ∈ [Instruction.applyActions [.output 1 0, .popVLAN], .gotoTable 3, .writeMetadata 1 2],
    i.Valid := by decide

end Verif.Props
