import Verif.Ofp.Action

/-!
# ofp/instruction.go
-/

namespace Verif

/-! ## Model -/

/-- The instruction types of ofp/instruction.go:142-323.  As for `Action`, only the types
of the package are modelled. -/
inductive Instruction where
  | gotoTable (table : UInt8)
  | writeMetadata (metadata mask : UInt64)
  | writeActions (actions : List Action)
  | applyActions (actions : List Action)
  | clearActions
  | meter (meter : UInt32)
  deriving DecidableEq, Repr, Inhabited

/-- `Type()` methods and the constants of ofp/instruction.go:11-37. -/
def Instruction.type : Instruction → UInt16
  | .gotoTable .. => 1
  | .writeMetadata .. => 2
  | .writeActions .. => 3
  | .applyActions .. => 4
  | .clearActions => 5
  | .meter .. => 6

/-- `binary.Write` of `instruction{t, len}`, ofp/instruction.go:75-81. -/
def instructionHeader (t len : UInt16) : WElem := .bin (be t ++ be len)

/-- `(i *instruction) ReadFrom`, ofp/instruction.go:83-85. -/
def instructionHeader.readFrom : Step (UInt16 × UInt16) :=
  Enc.readFrom [Enc.num (fun v s => (v, s.2)), Enc.num (fun v s => (s.1, v))]

/-- `&instruction{}` as a decoding target that is thrown away. -/
def skipInstructionHeader {σ : Type} : Step σ :=
  Enc.subVal (fun _ => (0, 0)) instructionHeader.readFrom

/-- `writeInstructionActions`, ofp/instruction.go:205-220. -/
def writeInstructionActions (t : UInt16) (as : List Action) : Wr :=
  match Actions.buf as with
  | (b, some e) => ⟨[], b.length, some e⟩
  | (b, none) =>
    Enc.writeTo [instructionHeader t (UInt16.ofNat b.length + 8), .bin (zeros 4), .bin b]

/-- `readInstructionActions`, ofp/instruction.go:224-244.  `header.Len-8` wraps around
for lengths below eight. -/
def readInstructionActions : Step (List Action) :=
  Enc.withLocal ((0, 0) : UInt16 × UInt16) <| Enc.readFrom [
    Enc.sub (fun s => s.2) (fun h s => (s.1, h)) instructionHeader.readFrom,
    Enc.skip 4,
    Enc.dyn (fun s => Enc.limited (s.2.2 - 8).toNat
      (Enc.sub (fun s => s.1) (fun as s => (as, s.2)) Actions.readFrom))]

/-- The `WriteTo` methods of ofp/instruction.go. -/
def Instruction.writeTo (i : Instruction) : Wr :=
  match i with
  -- ofp/instruction.go:157-159
  | .gotoTable t => Enc.writeTo [instructionHeader i.type 8, .bin (be t), .bin (zeros 3)]
  -- ofp/instruction.go:191-194
  | .writeMetadata m k => Enc.writeTo [instructionHeader i.type 24, .bin (zeros 4), .bin (be m), .bin (be k)]
  -- ofp/instruction.go:286-288, 261-263, 308-310
  | .writeActions as => writeInstructionActions i.type as
  | .applyActions as => writeInstructionActions i.type as
  | .clearActions => writeInstructionActions i.type []
  -- ofp/instruction.go:333-335
  | .meter m => Enc.writeTo [instructionHeader i.type 8, .bin (be m)]

/-- The `ReadFrom` methods of ofp/instruction.go. -/
def Instruction.readFrom : Step Instruction := fun i r =>
  match i with
  -- ofp/instruction.go:164-166
  | .gotoTable t => Enc.wrap Instruction.gotoTable
      (Enc.readFrom [skipInstructionHeader, Enc.num (fun v _ => v), Enc.skip 3]) t r
  -- ofp/instruction.go:198-201
  | .writeMetadata m k => Enc.wrap (fun s : UInt64 × UInt64 => Instruction.writeMetadata s.1 s.2)
      (Enc.readFrom [skipInstructionHeader, Enc.skip 4, Enc.num (fun v s => (v, s.2)),
        Enc.num (fun v s => (s.1, v))]) (m, k) r
  -- ofp/instruction.go:292-294, 267-269
  | .writeActions as => Enc.wrap Instruction.writeActions readInstructionActions as r
  | .applyActions as => Enc.wrap Instruction.applyActions readInstructionActions as r
  -- ofp/instruction.go:314-316
  | .clearActions => Enc.wrap (fun _ : Unit => Instruction.clearActions) (Enc.readFrom [Enc.skip 8]) () r
  -- ofp/instruction.go:339-341
  | .meter m => Enc.wrap Instruction.meter
      (Enc.readFrom [skipInstructionHeader, Enc.num (fun v _ => v)]) m r

/-- `instructionMap`, ofp/instruction.go:61-68, and the reader maker, 126-134. -/
def instructionMake (code : UInt16) : Except Err Instruction :=
  match code.toNat with
  | 1 => .ok (.gotoTable 0)
  | 2 => .ok (.writeMetadata 0 0)
  | 3 => .ok (.writeActions [])
  | 4 => .ok (.applyActions [])
  | 5 => .ok .clearActions
  | 6 => .ok (.meter 0)
  | _ => .error .unknownType

/-- `(i *Instructions) WriteTo`, ofp/instruction.go:108-119. -/
def Instructions.writeTo (is : List Instruction) : Wr :=
  let w := Enc.writeSliceTo (is.map Instruction.writeTo)
  match w.err with
  | some e => ⟨[], 0, some e⟩
  | none => Enc.writeTo [.bin w.out]

/-- `(i *Instructions) ReadFrom`, ofp/instruction.go:123-138: unlike `Actions.ReadFrom` the
list is *not* reset first, decoded instructions are appended. -/
def Instructions.readFrom : Step (List Instruction) :=
  Enc.scanFrom instructionMake Instruction.readFrom

/-! ## Helper lemmas -/

/-- What the wire format can represent. -/
def Instruction.Valid : Instruction → Prop
  | .writeActions as => (∀ a ∈ as, a.Valid) ∧ 8 + (as.map Action.size).sum ≤ 65535
  | .applyActions as => (∀ a ∈ as, a.Valid) ∧ 8 + (as.map Action.size).sum ≤ 65535
  | _ => True

instance (a : Instruction) : Decidable a.Valid := by
  cases a <;> simp only [Instruction.Valid] <;> infer_instance

def Instruction.bytes (i : Instruction) : Bytes := i.writeTo.out

theorem Instruction.writeTo_eq (i : Instruction) : i.writeTo = ⟨i.bytes, i.bytes.length, none⟩ := by
  cases i <;> simp [Instruction.bytes, Instruction.writeTo, writeInstructionActions, Actions.buf_eq,
    Enc.writeTo, Enc.gather, instructionHeader]

/-- The fresh receiver of the same type. -/
def Instruction.zero : Instruction → Instruction
  | .gotoTable .. => .gotoTable 0
  | .writeMetadata .. => .writeMetadata 0 0
  | .writeActions .. => .writeActions []
  | .applyActions .. => .applyActions []
  | .clearActions => .clearActions
  | .meter .. => .meter 0

theorem instructionMake_type (i : Instruction) : instructionMake i.type = .ok i.zero := by
  cases i <;> rfl

/-- The size of an instruction on the wire. -/
def Instruction.size : Instruction → Nat
  | .writeMetadata .. => 24
  | .writeActions as => 8 + (as.map Action.size).sum
  | .applyActions as => 8 + (as.map Action.size).sum
  | _ => 8

theorem Instruction.bytes_length (i : Instruction) : i.bytes.length = i.size := by
  cases i <;> simp [Instruction.bytes, Instruction.writeTo, writeInstructionActions, Actions.buf_eq,
    Enc.writeTo, Enc.gather, instructionHeader, Instruction.size, Actions.bytes_length]
    <;> omega

theorem Instruction.bytes_type (i : Instruction) : ∃ t, i.bytes = be i.type ++ t := by
  cases i <;> simp [Instruction.bytes, Instruction.writeTo, writeInstructionActions, Actions.buf_eq,
    Enc.writeTo, Enc.gather, instructionHeader, Instruction.type]

theorem instructionHeader.reads (t l : UInt16) (s : UInt16 × UInt16) :
    Reads instructionHeader.readFrom s (be t ++ be l) (t, l) :=
  Reads.cons (Reads.num _) (Reads.last (Reads.num _))

theorem instructionHeader.flat : Flat instructionHeader.readFrom 4 :=
  Flat.cons Flat.num (Flat.cons Flat.num Flat.nil)

theorem skipInstructionHeader_reads {σ : Type} (t l : UInt16) (s : σ) :
    Reads skipInstructionHeader s (be t ++ be l) s := Reads.subVal (instructionHeader.reads t l _)

theorem instructionActions_bytes (t : UInt16) (as : List Action) :
    (writeInstructionActions t as).out = (be t ++ be (UInt16.ofNat (8 + (Actions.bytes as).length))) ++
      (zeros 4 ++ Actions.bytes as) := by
  simp [writeInstructionActions, Actions.buf_eq, Enc.writeTo, Enc.gather, instructionHeader, UInt16.add_comm]

theorem readInstructionActions_reads (t : UInt16) (as : List Action) (hv : ∀ a ∈ as, a.Valid)
    (hl : 8 + (as.map Action.size).sum ≤ 65535) (s : List Action) :
    Reads readInstructionActions s (writeInstructionActions t as).out as := by
  rw [← Actions.bytes_length] at hl
  rw [instructionActions_bytes]
  have hlen := u16_ofNat_toNat hl
  have hsub : (UInt16.ofNat (8 + (Actions.bytes as).length) - 8).toNat = (Actions.bytes as).length := by
    rw [UInt16.toNat_sub_of_le]
    · rw [hlen]; simp
    · rw [UInt16.le_iff_toNat_le, hlen]; simp
  refine Reads.withLocal (l' := (t, UInt16.ofNat (8 + (Actions.bytes as).length))) ?_
  refine Reads.cons (Reads.sub (instructionHeader.reads _ _ _)) ?_
  refine Reads.cons (Reads.skip (by simp)) ?_
  exact Reads.last (Reads.dyn (Reads.limited (ReadsAll.sub (Actions.readsAll as hv _)) hsub))

theorem Instruction.reads' (i : Instruction) (hv : i.Valid) (s : Instruction) (hs : s.type = i.type) :
    Reads Instruction.readFrom s i.bytes i := by
  cases i with
  | writeActions as =>
    obtain ⟨t0, rfl⟩ : ∃ t0, s = .writeActions t0 := by cases s <;> simp_all [Instruction.type]
    exact Reads.wrap (readInstructionActions_reads _ as hv.1 hv.2 t0) (fun r => rfl)
  | applyActions as =>
    obtain ⟨t0, rfl⟩ : ∃ t0, s = .applyActions t0 := by cases s <;> simp_all [Instruction.type]
    exact Reads.wrap (readInstructionActions_reads _ as hv.1 hv.2 t0) (fun r => rfl)
  | gotoTable t =>
    obtain ⟨t0, rfl⟩ : ∃ t0, s = .gotoTable t0 := by cases s <;> simp_all [Instruction.type]
    have h := Reads.cons (skipInstructionHeader_reads 1 8 (t0 : UInt8))
      (Reads.cons (Reads.num (set := fun v _ => v) t) (Reads.last (Reads.skip (k := 3) (zeros_length 3))))
    have := Reads.wrap (dec := Instruction.readFrom) (s := .gotoTable t0) (f := Instruction.gotoTable) h (fun r => rfl)
    simpa [Instruction.bytes, Instruction.writeTo, Enc.writeTo, Enc.gather, instructionHeader, Instruction.type] using this
  | writeMetadata m k =>
    obtain ⟨p0, m0, rfl⟩ : ∃ p0 m0, s = .writeMetadata p0 m0 := by cases s <;> simp_all [Instruction.type]
    have h := Reads.cons (skipInstructionHeader_reads 2 24 ((p0, m0) : UInt64 × UInt64))
      (Reads.cons (Reads.skip (k := 4) (zeros_length 4)) (Reads.cons (Reads.num (set := fun v s => (v, s.2)) m)
        (Reads.last (Reads.num (set := fun v s => (s.1, v)) k))))
    have := Reads.wrap (dec := Instruction.readFrom) (s := .writeMetadata p0 m0)
      (f := fun s : UInt64 × UInt64 => Instruction.writeMetadata s.1 s.2) h (fun r => rfl)
    simpa [Instruction.bytes, Instruction.writeTo, Enc.writeTo, Enc.gather, instructionHeader, Instruction.type] using this
  | clearActions =>
    obtain rfl : s = .clearActions := by cases s <;> simp_all [Instruction.type]
    exact Reads.wrap (dec := Instruction.readFrom) (f := fun _ : Unit => Instruction.clearActions) (t' := ())
      (Reads.last (Reads.skip (by rw [Instruction.bytes_length]; rfl))) (fun r => rfl)
  | meter m =>
    obtain ⟨t0, rfl⟩ : ∃ t0, s = .meter t0 := by cases s <;> simp_all [Instruction.type]
    have h := Reads.cons (skipInstructionHeader_reads 6 8 (t0 : UInt32))
      (Reads.last (Reads.num (set := fun v _ => v) m))
    have := Reads.wrap (dec := Instruction.readFrom) (s := .meter t0) (f := Instruction.meter) h (fun r => rfl)
    simpa [Instruction.bytes, Instruction.writeTo, Enc.writeTo, Enc.gather, instructionHeader, Instruction.type] using this

theorem Instruction.reads (i : Instruction) (hv : i.Valid) :
    Reads Instruction.readFrom i.zero i.bytes i := i.reads' hv _ (by cases i <;> rfl)

def Instructions.bytes (is : List Instruction) : Bytes := is.flatMap Instruction.bytes

theorem Instructions.writeTo_eq (is : List Instruction) :
    Instructions.writeTo is = ⟨Instructions.bytes is, (Instructions.bytes is).length, none⟩ := by
  simp [Instructions.writeTo, writeSliceTo_map Instruction.writeTo Instruction.bytes is
    (fun x _ => x.writeTo_eq), Instructions.bytes, Enc.writeTo, Enc.gather]

theorem Instructions.bytes_length (is : List Instruction) :
    (Instructions.bytes is).length = (is.map Instruction.size).sum := by
  simp only [Instructions.bytes, List.length_flatMap, Instruction.bytes_length]

theorem Instructions.readsAll (is : List Instruction) (hv : ∀ i ∈ is, i.Valid) (s : List Instruction) :
    ReadsAll Instructions.readFrom s (Instructions.bytes is) (s ++ is) :=
  ReadsAll.scanFrom (enc := Instruction.bytes) (zero := Instruction.zero) (code := Instruction.type) s is
    (fun a ha => a.reads (hv a ha)) (fun a _ => instructionMake_type a) (fun a _ => a.bytes_type)

theorem skipInstructionHeader_safe {σ : Type} {E : Err → Prop} [ErrSet E] :
    Safe E (skipInstructionHeader (σ := σ)) := Safe.subVal instructionHeader.flat.safe

theorem skipInstructionHeader_moves {σ : Type} : Moves (skipInstructionHeader (σ := σ)) :=
  Moves.subVal (instructionHeader.flat.moves (by omega))

theorem readInstructionActions_safe : Safe ActErr readInstructionActions := by
  have h1 : Safe ActErr instructionHeader.readFrom := instructionHeader.flat.safe
  have h2 := Actions.readFrom_safe
  unfold readInstructionActions
  safe

theorem Instruction.readFrom_safe : Safe ActErr Instruction.readFrom := by
  intro a r hr
  have h1 := @skipInstructionHeader_safe (UInt64 × UInt64) ActErr _
  have h2 := @skipInstructionHeader_safe UInt8 ActErr _
  have h4 := @skipInstructionHeader_safe UInt32 ActErr _
  have h3 := readInstructionActions_safe
  cases a <;> simp only [Instruction.readFrom] <;> refine SafeAt.wrap ?_ hr <;> safe

theorem Instruction.readFrom_moves : Moves Instruction.readFrom := by
  intro a r hr he
  have h1 := @skipInstructionHeader_moves (UInt64 × UInt64)
  have h2 := @skipInstructionHeader_moves UInt8
  have h4 := @skipInstructionHeader_moves UInt32
  have h3 : Moves readInstructionActions :=
    Moves.withLocal (Moves.cons (Moves.sub (instructionHeader.flat.moves (by omega))))
  cases a <;> simp only [Instruction.readFrom] at he ⊢ <;> refine Moves.wrap ?_ hr he <;> moves

theorem instructionMake_err (c : UInt16) (e : Err) (h : instructionMake c = .error e) :
    e = .unknownType := by
  unfold instructionMake at h
  split at h <;> simp at h
  exact h.symm

theorem Instructions.readFrom_safe : Safe ActErr Instructions.readFrom := by
  refine Safe.scanFrom Instruction.readFrom_safe Instruction.readFrom_moves ?_
  intro c e h
  simp [ActErr, instructionMake_err c e h]

end Verif
