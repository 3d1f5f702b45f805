import Verif.Props.Undersized
import Verif.Conforms

/-!
# C93: lengths larger than the element that declares them

In a list of actions or instructions the length of an element says where the next one begins;
an element may be longer than the part of it that the decoder knows, as an experimenter's action
is by its very nature.  The code skips the surplus of a set-field action, but of no other action
and of no instruction without actions: those take a fixed number of bytes, whatever their length
says, and what else the element holds is decoded as if it were further elements of the list.
-/

namespace Verif.Props

open Verif

/-! ## Auxiliary lemmas -/

/-- A list that is one record for a reader that follows the lengths. -/
theorem one_record (t : UInt16) (n : Nat) (b : Bytes) (hn : n = 4 + b.length) (hl : n ≤ 65535) :
    Spec.records 2 1 (be t ++ (be (UInt16.ofNat n) ++ b)) =
      some [be t ++ (be (UInt16.ofNat n) ++ b)] := by
  have h1 : Spec.u16 2 (be t ++ (be (UInt16.ofNat n) ++ b)) = n := by
    have := Spec.u16_skip (b := be t) (k := 2) (by simp) 0 (be (UInt16.ofNat n) ++ b)
    rw [this, Spec.u16_zero, u16_ofNat_toNat hl]
  have h2 : (be t ++ (be (UInt16.ofNat n) ++ b)).length = n := by simp; omega
  have := Spec.recordsFuel_of (off := 2) (align := 1) (enc := fun _ : Unit => be t ++ (be (UInt16.ofNat n) ++ b))
    (rc := fun _ : Unit => be t ++ (be (UInt16.ofNat n) ++ b)) [()]
    (fun _ _ => ⟨⟨[], by simp⟩, by simp, by omega, by rw [h1, h2]⟩)
    (be t ++ (be (UInt16.ofNat n) ++ b)).length (by simp)
  simpa [Spec.records] using this

/-- An action with another length in its header. -/
def actionSaying (L : UInt16) (a : Action) : Bytes := be a.type ++ (be L ++ a.writeTo.out.drop 4)

/-- An instruction with another length in its header. -/
def instructionSaying (L : UInt16) (i : Instruction) : Bytes := be i.type ++ (be L ++ i.writeTo.out.drop 4)

/-- A list of actions each of which is decoded from the bytes beside it. -/
theorem actions_of (xs : List (Action × Bytes))
    (h : ∀ x ∈ xs, Reads Action.readFrom x.1.zero x.2 x.1 ∧ ∃ t, x.2 = be x.1.type ++ t) (s : List Action) :
    ReadsAll Actions.readFrom s (xs.flatMap (·.2)) (xs.map (·.1)) := by
  refine ReadsAll.assignCons (ReadsAll.last ?_)
  exact ReadsAll.scanFrom' (enc := fun x : Action × Bytes => x.2) (val := (·.1)) (zero := fun x => x.1.zero)
    (code := fun x => x.1.type) [] xs (fun x hx => (h x hx).1) (fun x _ => actionMake_type x.1) (fun x hx => (h x hx).2)

/-- The same for instructions. -/
theorem instructions_of (xs : List (Instruction × Bytes))
    (h : ∀ x ∈ xs, Reads Instruction.readFrom x.1.zero x.2 x.1 ∧ ∃ t, x.2 = be x.1.type ++ t) (s : List Instruction) :
    ReadsAll Instructions.readFrom s (xs.flatMap (·.2)) (s ++ xs.map (·.1)) :=
  ReadsAll.scanFrom' (enc := fun x : Instruction × Bytes => x.2) (val := (·.1)) (zero := fun x => x.1.zero)
    (code := fun x => x.1.type) s xs (fun x hx => (h x hx).1) (fun x _ => instructionMake_type x.1)
    (fun x hx => (h x hx).2)

/-- The instructions without actions do not look at their lengths. -/
theorem instruction_length_reads (i : Instruction) (h3 : i.type ≠ 3) (h4 : i.type ≠ 4) (L : UInt16) :
    Reads Instruction.readFrom i.zero (instructionSaying L i) i := by
  unfold instructionSaying
  rw [← List.append_assoc]
  cases i with
  | writeActions as => exact absurd rfl h3
  | applyActions as => exact absurd rfl h4
  | gotoTable t =>
    have h := Reads.cons (skipInstructionHeader_reads 1 L (0 : UInt8))
      (Reads.cons (Reads.num (set := fun v _ => v) t) (Reads.last (Reads.skip (k := 3) (zeros_length 3))))
    have := Reads.wrap (dec := Instruction.readFrom) (s := .gotoTable 0) (f := Instruction.gotoTable) h (fun r => rfl)
    simpa [Instruction.writeTo, Enc.writeTo, Enc.gather, instructionHeader, Instruction.type, Instruction.zero,
      drop_two] using this
  | writeMetadata m k =>
    have h := Reads.cons (skipInstructionHeader_reads 2 L ((0, 0) : UInt64 × UInt64))
      (Reads.cons (Reads.skip (k := 4) (zeros_length 4)) (Reads.cons (Reads.num (set := fun v s => (v, s.2)) m)
        (Reads.last (Reads.num (set := fun v s => (s.1, v)) k))))
    have := Reads.wrap (dec := Instruction.readFrom) (s := .writeMetadata 0 0)
      (f := fun s : UInt64 × UInt64 => Instruction.writeMetadata s.1 s.2) h (fun r => rfl)
    simpa [Instruction.writeTo, Enc.writeTo, Enc.gather, instructionHeader, Instruction.type, Instruction.zero,
      drop_two] using this
  | clearActions =>
    exact Reads.wrap (dec := Instruction.readFrom) (f := fun _ : Unit => Instruction.clearActions) (t' := ())
      (Reads.last (Reads.skip (by
        simp [Instruction.writeTo, writeInstructionActions, Actions.buf_eq, Actions.bytes, Enc.writeTo, Enc.gather,
          instructionHeader]))) (fun r => rfl)
  | meter m =>
    have h := Reads.cons (skipInstructionHeader_reads 6 L (0 : UInt32))
      (Reads.last (Reads.num (set := fun v _ => v) m))
    have := Reads.wrap (dec := Instruction.readFrom) (s := .meter 0) (f := Instruction.meter) h (fun r => rfl)
    simpa [Instruction.writeTo, Enc.writeTo, Enc.gather, instructionHeader, Instruction.type, Instruction.zero,
      drop_two] using this

/-- A set-field action with a surplus behind the field. -/
def setFieldWith (f : XM) (surplus : Bytes) : Bytes :=
  be (25 : UInt16) ++ (be (UInt16.ofNat (4 + f.writeTo.out.length + surplus.length)) ++ (f.writeTo.out ++ surplus))

theorem setField_surplus_reads (f : XM) (hf : f.Valid) (surplus : Bytes)
    (hl : 4 + f.writeTo.out.length + surplus.length ≤ 65535) :
    Reads Action.readFrom (Action.setField f).zero (setFieldWith f surplus) (.setField f) := by
  have hb : f.writeTo.out = f.bytes := rfl
  have hlen := u16_ofNat_toNat hl
  have hsub : (UInt16.ofNat (4 + f.writeTo.out.length + surplus.length) - 4).toNat =
      f.writeTo.out.length + surplus.length := by
    rw [UInt16.toNat_sub_of_le]
    · rw [hlen]; simp; omega
    · rw [UInt16.le_iff_toNat_le, hlen]; simp; omega
  have h : Reads setField.readFrom XM.zero (setFieldWith f surplus) f := by
    rw [setFieldWith, ← List.append_assoc]
    refine Reads.withLocal (l' := (25, UInt16.ofNat (4 + f.writeTo.out.length + surplus.length))) ?_
    refine Reads.cons (Reads.sub (actionHeader.reads _ _ _)) ?_
    refine Reads.last (Reads.dyn (Reads.limited (ReadsAll.cons (Reads.sub (f.reads hf _))
      (ReadsAll.last (ReadsAll.rest (set := fun _ s => s) surplus))) ?_))
    simp only [List.length_append]
    exact hsub
  exact Reads.wrap h (fun r => rfl)

theorem surplus_readsAll (a : Action) (ha : ∀ f, a ≠ .setField f) (as : List Action) (hv : ∀ x ∈ as, x.Valid)
    (n : Nat) (s : List Action) : ReadsAll Actions.readFrom s
      (actionSaying (UInt16.ofNat n) a ++ (Actions.writeTo as).out) (a :: as) := by
  have := actions_of ((a, actionSaying (UInt16.ofNat n) a) :: as.map fun x => (x, x.bytes)) (by
    intro x hx
    rcases List.mem_cons.1 hx with rfl | hx
    · exact ⟨action_length_reads a ha _, _, rfl⟩
    · obtain ⟨y, hy, rfl⟩ := List.mem_map.1 hx
      exact ⟨y.reads (hv y hy), y.bytes_type⟩) s
  rw [Actions.writeTo_eq]
  simpa [List.flatMap_map, Actions.bytes, Function.comp_def] using this

/-! ## The property, as far as it is true -/

/-- C93, as far as it is true.  In a list of actions a set-field action takes what its length says:
whatever lies between the field and the end of the action is skipped, and the actions around it are
decoded as they stand.  Missing: an action of another type longer than its struct, see
`actions_surplus_false`. -/
theorem actions_surplus_partial (xs : List (Action × Bytes)) (s : List Action)
    (hv : ∀ x ∈ xs, x.1.Valid) (h : ∀ x ∈ xs, x.2 = x.1.writeTo.out ∨ ∃ f surplus, x.1 = .setField f ∧
      4 + f.writeTo.out.length + surplus.length ≤ 65535 ∧ x.2 = setFieldWith f surplus) :
    DecodesAllFrom Actions.readFrom s (xs.flatMap (·.2)) (xs.map (·.1)) := by
  refine (actions_of xs (fun x hx => ?_) s).decodesAllFrom
  rcases h x hx with h | ⟨f, surplus, h1, h2, h3⟩
  · rw [h]; exact ⟨x.1.reads (hv x hx), x.1.bytes_type⟩
  · have hvx := hv x hx
    rw [h1] at hvx
    rw [h3, h1]; exact ⟨setField_surplus_reads f hvx surplus h2, _, rfl⟩

/-! ## What the code does otherwise -/

/-- C93 is false of every other action.  For any action but a set-field action and any list of
actions, there is a list that consists of *one* action by the lengths: the action, with the length
that covers all that follows.  It is decoded as the action and the actions of the list, without an error. -/
theorem actions_surplus_false (a : Action) (ha : ∀ f, a ≠ .setField f) (as : List Action)
    (hv : ∀ x ∈ as, x.Valid) (n : Nat) (hn : n = a.writeTo.out.length + (Actions.writeTo as).out.length)
    (hl : n ≤ 65535) :
    Spec.records 2 1 (actionSaying (UInt16.ofNat n) a ++ (Actions.writeTo as).out) =
      some [actionSaying (UInt16.ofNat n) a ++ (Actions.writeTo as).out] ∧
    DecodesAll Actions.readFrom (actionSaying (UInt16.ofNat n) a ++ (Actions.writeTo as).out) (a :: as) := by
  have ho : a.writeTo.out = a.bytes := rfl
  have h4 : 4 ≤ a.writeTo.out.length := by
    rw [ho, a.bytes_length]; cases a <;> simp [Action.size]; omega
  constructor
  · rw [actionSaying, List.append_assoc, List.append_assoc]
    refine one_record _ _ _ ?_ hl
    simp only [List.length_append, List.length_drop]; omega
  · exact fun s => (surplus_readsAll a ha as hv n s).decodesAllFrom

/-- The same for the instructions without actions. -/
theorem instructions_surplus_false (i : Instruction) (h3 : i.type ≠ 3) (h4 : i.type ≠ 4) (is : List Instruction)
    (hv : ∀ x ∈ is, x.Valid) (n : Nat) (hn : n = i.writeTo.out.length + (Instructions.writeTo is).out.length)
    (hl : n ≤ 65535) (s : List Instruction) :
    Spec.records 2 1 (instructionSaying (UInt16.ofNat n) i ++ (Instructions.writeTo is).out) =
      some [instructionSaying (UInt16.ofNat n) i ++ (Instructions.writeTo is).out] ∧
    DecodesAllFrom Instructions.readFrom s (instructionSaying (UInt16.ofNat n) i ++ (Instructions.writeTo is).out)
      (s ++ i :: is) := by
  have ho : i.writeTo.out = i.bytes := rfl
  have h4 : 4 ≤ i.writeTo.out.length := by
    rw [ho, i.bytes_length]; cases i <;> simp [Instruction.size] <;> omega
  constructor
  · rw [instructionSaying, List.append_assoc, List.append_assoc]
    refine one_record _ _ _ ?_ hl
    simp only [List.length_append, List.length_drop]; omega
  · refine ReadsAll.decodesAllFrom ?_
    have := instructions_of ((i, instructionSaying (UInt16.ofNat n) i) :: is.map fun x => (x, x.bytes)) (by
      intro x hx
      rcases List.mem_cons.1 hx with rfl | hx
      · exact ⟨instruction_length_reads _ h3 (by assumption) _, _, rfl⟩
      · obtain ⟨y, hy, rfl⟩ := List.mem_map.1 hx
        exact ⟨y.reads (hv y hy), y.bytes_type⟩) s
    rw [Instructions.writeTo_eq]
    simpa [List.flatMap_map, Instructions.bytes, Function.comp_def] using this

/-- The body of an experimenter's action in a packet-out message is carried out as actions of
OpenFlow.  The message has one action by its lengths, and the body may be any encoded list. -/
theorem packetOut_surplus_false (e : UInt32) (as : List Action) (hv : ∀ x ∈ as, x.Valid) (p : PacketOut)
    (hp : p.actions = .experimenter e :: as) (n : Nat) (hn : n = 8 + (Actions.writeTo as).out.length)
    (hl : n ≤ 65535) (body : Bytes)
    (hb : body = be (0xffff : UInt16) ++ (be (UInt16.ofNat n) ++ (be e ++ (Actions.writeTo as).out))) :
    Spec.records 2 1 body = some [body] ∧
    DecodesAll PacketOut.readFrom (be p.buffer ++ (be p.inPort ++ (be (UInt16.ofNat body.length) ++
      (zeros 6 ++ (body ++ p.data))))) p := by
  have h0 : body.length = n := by rw [hb]; simp; omega
  constructor
  · rw [hb]
    refine one_record _ _ _ ?_ hl
    simp; omega
  · intro s
    refine ReadsAll.decodesAllFrom ?_
    have hlen := u16_ofNat_toNat (h0 ▸ hl : body.length ≤ 65535)
    have ha := surplus_readsAll (.experimenter e) (by simp) as hv n []
    have hs : actionSaying (UInt16.ofNat n) (.experimenter e) ++ (Actions.writeTo as).out = body := by
      rw [hb]
      simp [actionSaying, Action.writeTo, Enc.writeTo, Enc.gather, actionHeader, Action.type, drop_two]
    rw [hs, ← hp] at ha
    unfold PacketOut.readFrom
    refine ReadsAll.withLocal (l' := UInt16.ofNat body.length) ?_
    reads
    refine ReadsAll.cons (Reads.dyn (Reads.limited (ReadsAll.sub ha) hlen)) ?_
    exact ReadsAll.last (ReadsAll.rest _)

/-- In an instruction: the actions that a flow entry applies are not those of the message. -/
theorem instruction_actions_surplus_false (t : UInt16) (a : Action)
    (ha : ∀ f, a ≠ .setField f) (as : List Action) (hv : ∀ x ∈ as, x.Valid) (n : Nat)
    (hn : n = a.writeTo.out.length + (Actions.writeTo as).out.length) (hl : 8 + n ≤ 65535)
    (i : Instruction) (hi : t = 3 ∧ i = .writeActions (a :: as) ∨ t = 4 ∧ i = .applyActions (a :: as)) :
    Spec.records 2 1 (actionSaying (UInt16.ofNat n) a ++ (Actions.writeTo as).out) =
      some [actionSaying (UInt16.ofNat n) a ++ (Actions.writeTo as).out] ∧
    DecodesFrom Instruction.readFrom i.zero (be t ++ (be (UInt16.ofNat (8 + n)) ++ (zeros 4 ++
      (actionSaying (UInt16.ofNat n) a ++ (Actions.writeTo as).out)))) i := by
  refine ⟨(actions_surplus_false a ha as hv n hn (by omega)).1, Reads.decodesFrom ?_⟩
  have ho : a.writeTo.out = a.bytes := rfl
  have h4 : 4 ≤ a.writeTo.out.length := by
    rw [ho, a.bytes_length]; cases a <;> simp [Action.size]; omega
  have hlen := u16_ofNat_toNat hl
  have hsub : (UInt16.ofNat (8 + n) - 8).toNat =
      (actionSaying (UInt16.ofNat n) a ++ (Actions.writeTo as).out).length := by
    rw [UInt16.toNat_sub_of_le]
    · rw [hlen]; simp [actionSaying]; omega
    · rw [UInt16.le_iff_toNat_le, hlen]; simp
  have h : Reads readInstructionActions [] ((be t ++ be (UInt16.ofNat (8 + n))) ++ (zeros 4 ++
      (actionSaying (UInt16.ofNat n) a ++ (Actions.writeTo as).out))) (a :: as) := by
    refine Reads.withLocal (l' := (t, UInt16.ofNat (8 + n))) ?_
    refine Reads.cons (Reads.sub (instructionHeader.reads _ _ _)) ?_
    refine Reads.cons (Reads.skip (by simp)) ?_
    exact Reads.last (Reads.dyn (Reads.limited (ReadsAll.sub (surplus_readsAll a ha as hv n _)) hsub))
  rw [List.append_assoc] at h
  rcases hi with ⟨rfl, rfl⟩ | ⟨rfl, rfl⟩
  · exact Reads.wrap h (fun r => rfl)
  · exact Reads.wrap h (fun r => rfl)

/-! ## Instances -/

/-- A set-field action with eight bytes behind the field that look like an action, between two
others: they are skipped. -/
example : DecodesAllFrom Actions.readFrom []
    ((Action.output 7 0).writeTo.out ++ (setFieldWith ⟨0x8000, 0, [0, 0, 0, 1], []⟩ [0, 24, 0, 8, 0, 0, 0, 0] ++
      Action.popVLAN.writeTo.out))
    [.output 7 0, .setField ⟨0x8000, 0, [0, 0, 0, 1], []⟩, .popVLAN] := by
  have := actions_surplus_partial [(.output 7 0, (Action.output 7 0).writeTo.out),
    (.setField ⟨0x8000, 0, [0, 0, 0, 1], []⟩,
      setFieldWith ⟨0x8000, 0, [0, 0, 0, 1], []⟩ [0, 24, 0, 8, 0, 0, 0, 0]),
    (.popVLAN, Action.popVLAN.writeTo.out)] [] (by decide +kernel) (by
      intro x hx
      simp only [List.mem_cons, List.not_mem_nil, or_false] at hx
      rcases hx with rfl | rfl | rfl
      · exact .inl rfl
      · exact .inr ⟨_, _, rfl, by decide +kernel, rfl⟩
      · exact .inl rfl)
  simpa using this

/-- An experimenter's action whose body happens to look like an output action sends the packet out. -/
example : Spec.records 2 1 [255, 255, 0, 24, 0, 0, 35, 32, 0, 0, 0, 16, 0, 0, 0, 7, 0, 0, 0, 0, 0, 0, 0, 0] =
      some [[255, 255, 0, 24, 0, 0, 35, 32, 0, 0, 0, 16, 0, 0, 0, 7, 0, 0, 0, 0, 0, 0, 0, 0]] ∧
    DecodesAll PacketOut.readFrom ([0, 0, 0, 1, 0, 0, 0, 2, 0, 24, 0, 0, 0, 0, 0, 0] ++
      [255, 255, 0, 24, 0, 0, 35, 32, 0, 0, 0, 16, 0, 0, 0, 7, 0, 0, 0, 0, 0, 0, 0, 0] ++ [9])
      ⟨1, 2, [.experimenter 0x2320, .output 7 0], [9]⟩ :=
  packetOut_surplus_false 0x2320 [.output 7 0] (by decide +kernel) ⟨1, 2, [.experimenter 0x2320, .output 7 0], [9]⟩
    rfl 24 (by decide +kernel) (by omega) _ (by decide +kernel)

/-- A goto-table instruction with the length of two. -/
example : DecodesAllFrom Instructions.readFrom []
    (instructionSaying (UInt16.ofNat 16) (.gotoTable 3) ++ (Instructions.writeTo [.clearActions]).out)
    [.gotoTable 3, .clearActions] :=
  (instructions_surplus_false (.gotoTable 3) (by decide) (by decide) [.clearActions] (by decide +kernel) 16
    (by decide +kernel) (by omega) []).2

example : DecodesFrom Instruction.readFrom (.applyActions []) (be (4 : UInt16) ++ (be (UInt16.ofNat (8 + 24)) ++
    (zeros 4 ++ (actionSaying (UInt16.ofNat 24) .popVLAN ++ (Actions.writeTo [.output 7 0]).out))))
    (.applyActions [.popVLAN, .output 7 0]) :=
  (instruction_actions_surplus_false 4 .popVLAN (by simp) [.output 7 0] (by decide +kernel) 24
    (by decide +kernel) (by omega) _ (.inr ⟨rfl, rfl⟩)).2

end Verif.Props
