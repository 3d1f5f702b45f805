import Verif.Ofp.Instruction
import Verif.Ofp.Raw
import Verif.Scan

/-!
# ofp/table.go: table features (the other messages are in `Verif.Ofp.Fixed`)
-/

namespace Verif

/-! ## Model -/

/-- The implementations of `TableProp`, ofp/table.go:425-747.  `Table`, `ActionType` and
`InstructionType` are numbers. -/
inductive TableProp where
  | instructions (miss : Bool) (types : List UInt16)
  | nextTables (miss : Bool) (tables : Bytes)
  | writeActions (miss : Bool) (types : List UInt16)
  | applyActions (miss : Bool) (types : List UInt16)
  | matches (fields : List XM)
  | wildcards (fields : List XM)
  | writeSetField (miss : Bool) (fields : List XM)
  | applySetField (miss : Bool) (fields : List XM)
  | experimenter (miss : Bool) (exp expType : UInt32) (data : Bytes)
  deriving DecidableEq, Repr, Inhabited

/-- `tablePropType`, ofp/table.go:342-348. -/
def tablePropType (miss : Bool) (rt mt : UInt16) : UInt16 := if miss then mt else rt

/-- The `Type` methods, ofp/table.go:442-446, 516-520, 565-569, 601-605, 627-629, 651-653,
679-683, 715-719, 751-755; constants 206-261. -/
def TableProp.type : TableProp → UInt16
  | .instructions m _ => tablePropType m 0 1
  | .nextTables m _ => tablePropType m 2 3
  | .writeActions m _ => tablePropType m 4 5
  | .applyActions m _ => tablePropType m 6 7
  | .matches _ => 8
  | .wildcards _ => 10
  | .writeSetField m _ => tablePropType m 12 13
  | .applySetField m _ => tablePropType m 14 15
  | .experimenter m .. => tablePropType m 0xfffe 0xffff

/-- `binary.Write` of `tableProp{t, uint16(len)}`, ofp/table.go:310-313. -/
def tablePropHeader (t : UInt16) (len : Nat) : WElem := .bin (be t ++ be (UInt16.ofNat len))

/-- `writeTablePropXM`, ofp/table.go:350-366; three writes, the count is summed. -/
def writeTablePropXM (t : UInt16) (xs : List XM) : Wr :=
  let headerlen := 4 + 4 * xs.length
  Enc.writeSliceTo [Enc.writeTo [tablePropHeader t headerlen],
    Enc.writeSliceTo (xs.map XM.writeTo), Enc.writeTo [.bin (zeros (padLen headerlen))]]

/-- `writeTablePropActions`, ofp/table.go:384-396. -/
def writeTablePropActions (t : UInt16) (as : List UInt16) : Wr :=
  let proplen := 4 + 4 * as.length
  Enc.writeTo [tablePropHeader t proplen, .bin (as.flatMap (fun a => be a ++ be (4 : UInt16))),
    .bin (zeros (padLen proplen))]

/-- The `WriteTo` methods of the properties. -/
def TableProp.writeTo (p : TableProp) : Wr :=
  match p with
  -- ofp/table.go:450-467; the padding is computed from the 16-bit length
  | .instructions _ is =>
    let len := UInt16.ofNat (4 + 4 * is.length)
    Enc.writeSliceTo [
      Enc.writeTo [tablePropHeader p.type (4 + 4 * is.length),
        .bin (is.flatMap (fun i => be i ++ be (4 : UInt16)))],
      Enc.writeTo [.bin (zeros (padLen len.toNat))]]
  -- ofp/table.go:524-530
  | .nextTables _ ts => Enc.writeTo [tablePropHeader p.type (4 + ts.length), .bin ts,
      .bin (zeros (padLen (4 + ts.length)))]
  -- ofp/table.go:573-575, 609-611
  | .writeActions _ as => writeTablePropActions p.type as
  | .applyActions _ as => writeTablePropActions p.type as
  -- ofp/table.go:633-635, 657-659, 687-689, 723-725
  | .matches xs => writeTablePropXM p.type xs
  | .wildcards xs => writeTablePropXM p.type xs
  | .writeSetField _ xs => writeTablePropXM p.type xs
  | .applySetField _ xs => writeTablePropXM p.type xs
  -- ofp/table.go:759-765; the padding is computed from the 16-bit length
  | .experimenter _ e t d =>
    Enc.writeTo [tablePropHeader p.type (4 + d.length + 8), .bin (be e), .bin (be t), .bin d,
      .bin (zeros (padLen (UInt16.ofNat (4 + d.length + 8)).toNat))]

/-- `yieldTableProp`, ofp/table.go:315-333: one `binary.Read` of four bytes; `hasMiss`: the
pointer is not nil.  The local variable is `header.Len`. -/
def yieldTableProp {σ : Type} (hasMiss : Bool) : Step ((Bool × σ) × UInt16) :=
  Enc.bin 4 (fun b s =>
    ((if hasMiss then ofBE UInt16 (b.take 2) &&& 1 == 1 else s.1.1, s.1.2), ofBE UInt16 (b.drop 2)))

/-- `readTablePropXM`, ofp/table.go:368-382.  `header.Len - 4` wraps around (line 330). -/
def readTablePropXM (hasMiss : Bool) : Step (Bool × List XM) :=
  Enc.withLocal (0 : UInt16) <| Enc.readFrom [
    yieldTableProp hasMiss,
    Enc.assign (fun s => ((s.1.1, []), s.2)),
    Enc.dyn (fun s => Enc.limited (s.2 - 4).toNat
      (Enc.sub (fun s => s.1.2) (fun xs s => ((s.1.1, xs), s.2)) (readAllXM false))),
    Enc.dyn (fun s => Enc.skip (padLen s.2.toNat))]

/-- `encoding.ReadFunc` with a callback that collects the type codes, ofp/table.go:410-414,
482-489.  The two header types are decoded in the same way (ofp/action.go:149-151,
ofp/instruction.go:83-85). -/
def readTypeCodes (header : Step (UInt16 × UInt16)) : Step (List UInt16) := fun s r =>
  let o := Enc.readFunc (0, 0) header r
  ⟨s ++ o.val.map (·.1), o.n, o.err, o.rd⟩

/-- `readTablePropActions`, ofp/table.go:401-422, and `(t *TablePropInstructions) ReadFrom`,
471-496. -/
def readTablePropCodes (header : Step (UInt16 × UInt16)) : Step (Bool × List UInt16) :=
  Enc.withLocal (0 : UInt16) <| Enc.readFrom [
    yieldTableProp true,
    Enc.assign (fun s => ((s.1.1, []), s.2)),
    Enc.dyn (fun s => Enc.limited (s.2 - 4).toNat
      (Enc.sub (fun s => s.1.2) (fun xs s => ((s.1.1, xs), s.2)) (readTypeCodes header))),
    Enc.dyn (fun s => Enc.skip (padLen s.2.toNat))]

/-- `(t *TablePropNextTables) ReadFrom`, ofp/table.go:534-545.  The size of the slice,
`header.Len - 4`, wraps around. -/
def readNextTables : Step (Bool × Bytes) :=
  Enc.withLocal (0 : UInt16) <| Enc.readFrom [
    yieldTableProp true,
    Enc.assign (fun s => ((s.1.1, zeros (s.2 - 4).toNat), s.2)),
    Enc.dyn (fun s => Enc.bin (s.2 - 4).toNat (fun b s => ((s.1.1, b), s.2))),
    Enc.dyn (fun s => Enc.skip (padLen s.2.toNat))]

/-- `(t *TablePropExperimenter) ReadFrom`, ofp/table.go:769-789: `Miss` is not set.  The
padding is computed in `uint16`. -/
def readTablePropExperimenter : Step (UInt32 × UInt32 × Bytes) :=
  Enc.withLocal (0 : UInt16) <| Enc.readFrom [
    Enc.bin 4 (fun b s => (s.1, ofBE UInt16 (b.drop 2))),
    Enc.num (fun v s => ((v, s.1.2), s.2)),
    Enc.num (fun v s => ((s.1.1, v, s.1.2.2), s.2)),
    Enc.dyn (fun s => Enc.limited (s.2 - 4 - 8).toNat
      (Enc.rest (fun b s => ((s.1.1, s.1.2.1, b), s.2)))),
    Enc.dyn (fun s => Enc.skip ((s.2 + 7) / 8 * 8 - s.2).toNat)]

/-- The `ReadFrom` methods of the properties. -/
def TableProp.readFrom : Step TableProp := fun p r =>
  match p with
  -- ofp/table.go:471-496
  | .instructions m is => Enc.wrap (fun s : Bool × List UInt16 => .instructions s.1 s.2)
      (readTablePropCodes instructionHeader.readFrom) (m, is) r
  | .nextTables m ts => Enc.wrap (fun s : Bool × Bytes => .nextTables s.1 s.2) readNextTables (m, ts) r
  -- ofp/table.go:579-581, 615-617
  | .writeActions m as => Enc.wrap (fun s : Bool × List UInt16 => .writeActions s.1 s.2)
      (readTablePropCodes actionHeader.readFrom) (m, as) r
  | .applyActions m as => Enc.wrap (fun s : Bool × List UInt16 => .applyActions s.1 s.2)
      (readTablePropCodes actionHeader.readFrom) (m, as) r
  -- ofp/table.go:639-641, 663-665, 693-695, 729-731
  | .matches xs => Enc.wrap (fun s : Bool × List XM => .matches s.2) (readTablePropXM false) (false, xs) r
  | .wildcards xs => Enc.wrap (fun s : Bool × List XM => .wildcards s.2) (readTablePropXM false) (false, xs) r
  | .writeSetField m xs => Enc.wrap (fun s : Bool × List XM => .writeSetField s.1 s.2)
      (readTablePropXM true) (m, xs) r
  | .applySetField m xs => Enc.wrap (fun s : Bool × List XM => .applySetField s.1 s.2)
      (readTablePropXM true) (m, xs) r
  | .experimenter m e t d => Enc.wrap
      (fun s : UInt32 × UInt32 × Bytes => .experimenter m s.1 s.2.1 s.2.2)
      readTablePropExperimenter (e, t, d) r

/-- `tablePropMap`, ofp/table.go:282-299, and the reader maker, 176-184. -/
def tablePropMake (code : UInt16) : Except Err TableProp :=
  match code.toNat with
  | 0 => .ok (.instructions false [])
  | 1 => .ok (.instructions false [])
  | 2 => .ok (.nextTables false [])
  | 3 => .ok (.nextTables false [])
  | 4 => .ok (.writeActions false [])
  | 5 => .ok (.writeActions false [])
  | 6 => .ok (.applyActions false [])
  | 7 => .ok (.applyActions false [])
  | 8 => .ok (.matches [])
  | 10 => .ok (.wildcards [])
  | 12 => .ok (.writeSetField false [])
  | 13 => .ok (.writeSetField false [])
  | 14 => .ok (.applySetField false [])
  | 15 => .ok (.applySetField false [])
  | 0xfffe => .ok (.experimenter false 0 0 [])
  | 0xffff => .ok (.experimenter false 0 0 [])
  | _ => .error .unknownType

/-- `TableFeatures`, ofp/table.go:111-132. -/
structure TableFeatures where
  table : UInt8
  name : Bytes
  metadataMatch : UInt64
  metadataWrite : UInt64
  config : UInt32
  maxEntries : UInt32
  properties : List TableProp
  deriving DecidableEq, Repr, Inhabited

/-- The zero value. -/
def TableFeatures.zero : TableFeatures := ⟨0, [], 0, 0, 0, 0, []⟩

/-- `(t *TableFeatures) WriteTo`, ofp/table.go:136-155. -/
def TableFeatures.writeTo (t : TableFeatures) : Wr :=
  let buf := Enc.writeSliceTo (t.properties.map TableProp.writeTo)
  match buf.err with
  | some e => ⟨[], 0, some e⟩
  | none => Enc.writeTo [.bin (be (UInt16.ofNat (64 + buf.out.length))), .bin (be t.table),
      .bin (zeros 5), .bin (copyTo t.name 32), .bin (be t.metadataMatch), .bin (be t.metadataWrite),
      .bin (be t.config), .bin (be t.maxEntries), .bin buf.out]

/-- `(t *TableFeatures) ReadFrom`, ofp/table.go:159-191; the local variables are the name and
the length.  The limit is `int64(length)-n` with `n = 64`: negative limits read nothing. -/
def TableFeatures.readFrom : Step TableFeatures :=
  Enc.withLocal ((zeros 32, 0) : Bytes × UInt16) <| Enc.readFrom [
    Enc.num (fun v s => (s.1, s.2.1, v)),
    Enc.num (fun v s => ({ s.1 with table := v }, s.2)),
    Enc.skip 5,
    Enc.bin 32 (fun b s => (s.1, b, s.2.2)),
    Enc.num (fun v s => ({ s.1 with metadataMatch := v }, s.2)),
    Enc.num (fun v s => ({ s.1 with metadataWrite := v }, s.2)),
    Enc.num (fun v s => ({ s.1 with config := v }, s.2)),
    Enc.num (fun v s => ({ s.1 with maxEntries := v }, s.2)),
    Enc.assign (fun s => ({ s.1 with name := s.2.1, properties := [] }, s.2)),
    Enc.dyn (fun s => Enc.limited (s.2.2.toNat - 64)
      (Enc.sub (fun s => s.1.properties) (fun v s => ({ s.1 with properties := v }, s.2))
        (Enc.scanFrom tablePropMake TableProp.readFrom)))]

/-! ## Helper lemmas -/

/-- The zero value of the same Go type. -/
def TableProp.zero : TableProp → TableProp
  | .instructions .. => .instructions false []
  | .nextTables .. => .nextTables false []
  | .writeActions .. => .writeActions false []
  | .applyActions .. => .applyActions false []
  | .matches .. => .matches []
  | .wildcards .. => .wildcards []
  | .writeSetField .. => .writeSetField false []
  | .applySetField .. => .applySetField false []
  | .experimenter .. => .experimenter false 0 0 []

theorem tablePropMake_type (p : TableProp) : tablePropMake p.type = .ok p.zero := by
  rcases p with ⟨m, _⟩ | ⟨m, _⟩ | ⟨m, _⟩ | ⟨m, _⟩ | _ | _ | ⟨m, _⟩ | ⟨m, _⟩ | ⟨m, _⟩ <;>
    first | rfl | (cases m <;> rfl)

def TableProp.bytes (p : TableProp) : Bytes := p.writeTo.out

theorem writeTablePropXM_eq (t : UInt16) (xs : List XM) : writeTablePropXM t xs =
    ⟨be t ++ (be (UInt16.ofNat (4 + 4 * xs.length)) ++ (xs.flatMap XM.bytes ++
      zeros (padLen (4 + 4 * xs.length)))),
     4 + ((xs.flatMap XM.bytes).length + padLen (4 + 4 * xs.length)), none⟩ := by
  have := writeSliceTo_map XM.writeTo XM.bytes xs (fun x _ => x.writeTo_eq)
  simp [writeTablePropXM, this, Enc.writeSliceTo, Enc.writeTo, Enc.gather, tablePropHeader]

def typeCodes (as : List UInt16) : Bytes := as.flatMap (fun a => be a ++ be (4 : UInt16))

theorem typeCodes_length (as : List UInt16) : (typeCodes as).length = 4 * as.length := by
  induction as with
  | nil => rfl
  | cons a as ih =>
    have : typeCodes (a :: as) = (be a ++ be (4 : UInt16)) ++ typeCodes as := rfl
    rw [this, List.length_append, ih, List.length_cons]; simp; omega

theorem TableProp.writeTo_eq (p : TableProp) : p.writeTo = ⟨p.bytes, p.bytes.length, none⟩ := by
  cases p <;> simp [TableProp.bytes, TableProp.writeTo, writeTablePropXM_eq, writeTablePropActions,
    Enc.writeSliceTo, Enc.writeTo, Enc.gather, tablePropHeader] <;> omega

theorem TableProp.bytes_type (p : TableProp) : ∃ t, p.bytes = be p.type ++ t := by
  cases p <;> simp [TableProp.bytes, TableProp.writeTo, writeTablePropXM_eq, writeTablePropActions,
    Enc.writeSliceTo, Enc.writeTo, Enc.gather, tablePropHeader, TableProp.type]

/-! ### Decoding the properties -/

theorem yield_reads {σ : Type} (hm : Bool) (t l : UInt16) (s : (Bool × σ) × UInt16) :
    Reads (yieldTableProp hm) s (be t ++ be l)
      ((if hm then t &&& 1 == 1 else s.1.1, s.1.2), l) := by
  have := Reads.bin (set := fun b (s : (Bool × σ) × UInt16) =>
    ((if hm then ofBE UInt16 (b.take 2) &&& 1 == 1 else s.1.1, s.1.2), ofBE UInt16 (b.drop 2)))
    (s := s) (b := be t ++ be l) (k := 4) (by simp)
  simpa [yieldTableProp, List.take_append, List.drop_append, List.take_of_length_le,
    List.drop_of_length_le] using this

/-- What the decoder makes of the header of an extensible match without its payload. -/
def XM.ofHeader (h : UInt16 × UInt8 × UInt8) : XM :=
  if h.2.1 &&& 1 == 1 then
    ⟨h.1, h.2.1 >>> 1, zeros (h.2.2.toNat / 2), zeros (h.2.2.toNat / 2)⟩
  else ⟨h.1, h.2.1 >>> 1, zeros h.2.2.toNat, []⟩

def XM.headerBytes (h : UInt16 × UInt8 × UInt8) : Bytes := be h.1 ++ (be h.2.1 ++ be h.2.2)

theorem XM.header_reads (h : UInt16 × UInt8 × UInt8) (s : XM) :
    Reads (XM.read false) s (XM.headerBytes h) (XM.ofHeader h) := by
  obtain ⟨c, f, l⟩ := h
  unfold XM.headerBytes
  refine Reads.withLocal (l' := (l, f &&& 1 == 1)) ?_
  refine Reads.cons (Reads.num _) ?_
  refine Reads.cons (Reads.num _) ?_
  have hn : be l = be l ++ [] := by simp
  simp only
  rw [hn]
  refine Reads.cons (Reads.num _) ?_
  refine Reads.assignCons ?_
  refine Reads.assignCons ?_
  refine Reads.last ?_
  by_cases hf : (f &&& 1 == 1) = true
  · have := Reads.assign (f := fun s : XM × XMLocal =>
      if s.2.2 then
        let length := s.2.1.toNat / 2
        ({ s.1 with mask := (s.1.value.drop length).take length,
                    value := s.1.value.take length }, s.2)
      else s) (s := (⟨c, f >>> 1, zeros l.toNat, []⟩, (l, true)))
    simp only [if_true] at this
    simp only [id, hf, XM.ofHeader, if_true]
    have e1 : (zeros l.toNat).take (l.toNat / 2) = zeros (l.toNat / 2) := by
      rw [zeros, List.take_replicate, Nat.min_eq_left (by omega), zeros]
    have e2 : ((zeros l.toNat).drop (l.toNat / 2)).take (l.toNat / 2) = zeros (l.toNat / 2) := by
      rw [zeros, List.drop_replicate, List.take_replicate, Nat.min_eq_left (by omega), zeros]
    rw [e1, e2] at this
    exact this
  · have := Reads.assign (f := fun s : XM × XMLocal =>
      if s.2.2 then
        let length := s.2.1.toNat / 2
        ({ s.1 with mask := (s.1.value.drop length).take length,
                    value := s.1.value.take length }, s.2)
      else s) (s := (⟨c, f >>> 1, zeros l.toNat, []⟩, (l, false)))
    simp only [Bool.false_eq_true, if_false] at this
    simp only [id, hf, XM.ofHeader]
    exact this

/-- `header.Len - 4` of a sane header. -/
theorem len_sub4 {k : Nat} (h : 4 + k ≤ 65535) : (UInt16.ofNat (4 + k) - 4).toNat = k := by
  have hl := u16_ofNat_toNat h
  rw [UInt16.toNat_sub_of_le]
  · rw [hl]; simp
  · rw [UInt16.le_iff_toNat_le, hl]; simp

theorem readTablePropXM_reads (hm : Bool) (t : UInt16) (hs : List (UInt16 × UInt8 × UInt8))
    (pad : Bytes) (s : Bool × List XM) (hl : 4 + 4 * hs.length ≤ 65535)
    (hp : pad.length = padLen (4 + 4 * hs.length)) :
    Reads (readTablePropXM hm) s
      ((be t ++ be (UInt16.ofNat (4 + 4 * hs.length))) ++ (hs.flatMap XM.headerBytes ++ pad))
      (if hm then t &&& 1 == 1 else s.1, hs.map XM.ofHeader) := by
  have hk : (hs.flatMap XM.headerBytes).length = 4 * hs.length := by
    clear hl hp
    induction hs with
    | nil => rfl
    | cons h hs ih =>
      rw [List.flatMap_cons, List.length_append, ih, List.length_cons]
      simp [XM.headerBytes]; omega
  refine Reads.withLocal (l' := UInt16.ofNat (4 + 4 * hs.length)) ?_
  refine Reads.cons (yield_reads _ _ _ _) ?_
  refine Reads.assignCons ?_
  refine Reads.cons (Reads.dyn (Reads.limited (ReadsAll.sub
    (readAllXM_reads' false XM.headerBytes XM.ofHeader [] hs (fun h _ s => XM.header_reads h s)
      (fun h _ => by simp [XM.headerBytes]))) ?_)) ?_
  · simp only; rw [len_sub4 hl, hk]
  · refine Reads.last (Reads.dyn (Reads.skip ?_))
    simp only; rw [u16_ofNat_toNat hl, hp]

theorem header_eof : EndsEmpty actionHeader.readFrom (0, 0) :=
  readFrom_eof (k := 2) (by omega) _

/-- Type codes with any length field are accepted. -/
theorem readTypeCodes_reads (cs : List (UInt16 × UInt16)) (s : List UInt16) :
    ReadsAll (readTypeCodes actionHeader.readFrom) s (cs.flatMap (fun c => be c.1 ++ be c.2))
      (s ++ cs.map (·.1)) := by
  refine ⟨fun F r hr hf => ?_⟩
  have hrd : ∀ c : UInt16 × UInt16, Reads actionHeader.readFrom (0, 0) (be c.1 ++ be c.2) (c.1, c.2) :=
    fun c => Reads.cons (Reads.num _) (Reads.last (Reads.num _))
  exact (readFunc_reads (zero := (0, 0)) (st := actionHeader.readFrom)
    (enc := fun c : UInt16 × UInt16 => be c.1 ++ be c.2) cs (fun c _ => hrd c)
    (fun c _ => by simp) header_eof F r hr hf).map (f := fun l => s ++ l.map (·.1))

theorem readTablePropCodes_reads (t : UInt16) (cs : List (UInt16 × UInt16)) (pad : Bytes)
    (s : Bool × List UInt16) (hl : 4 + 4 * cs.length ≤ 65535)
    (hp : pad.length = padLen (4 + 4 * cs.length)) :
    Reads (readTablePropCodes actionHeader.readFrom) s
      ((be t ++ be (UInt16.ofNat (4 + 4 * cs.length))) ++
        (cs.flatMap (fun c => be c.1 ++ be c.2) ++ pad)) (t &&& 1 == 1, cs.map (·.1)) := by
  have hk : (cs.flatMap (fun c => be c.1 ++ be c.2)).length = 4 * cs.length := by
    clear hl hp
    induction cs with
    | nil => rfl
    | cons h hs ih =>
      rw [List.flatMap_cons, List.length_append, ih, List.length_cons]
      simp; omega
  refine Reads.withLocal (l' := UInt16.ofNat (4 + 4 * cs.length)) ?_
  refine Reads.cons (yield_reads _ _ _ _) ?_
  refine Reads.assignCons ?_
  refine Reads.cons (Reads.dyn (Reads.limited (ReadsAll.sub (readTypeCodes_reads cs [])) ?_)) ?_
  · simp only; rw [len_sub4 hl, hk]
  · refine Reads.last (Reads.dyn (Reads.skip ?_))
    simp only; rw [u16_ofNat_toNat hl, hp]

theorem readNextTables_reads (t : UInt16) (ts pad : Bytes) (s : Bool × Bytes)
    (hl : 4 + ts.length ≤ 65535) (hp : pad.length = padLen (4 + ts.length)) :
    Reads readNextTables s ((be t ++ be (UInt16.ofNat (4 + ts.length))) ++ (ts ++ pad))
      (t &&& 1 == 1, ts) := by
  refine Reads.withLocal (l' := UInt16.ofNat (4 + ts.length)) ?_
  refine Reads.cons (yield_reads _ _ _ _) ?_
  refine Reads.assignCons ?_
  refine Reads.cons (Reads.dyn (Reads.bin ?_)) ?_
  · simp only; rw [len_sub4 hl]
  · refine Reads.last (Reads.dyn (Reads.skip ?_))
    simp only; rw [u16_ofNat_toNat hl, hp]

/-- The padding computed in `uint16` is the usual one. -/
theorem pad16 (x : UInt16) : ((x + 7) / 8 * 8 - x).toNat = padLen x.toNat := by
  have h := x.toNat_lt
  rw [UInt16.toNat_sub, UInt16.toNat_mul, UInt16.toNat_div, UInt16.toNat_add]
  unfold padLen
  change (2 ^ 16 - x.toNat + (x.toNat + 7) % 2 ^ 16 / 8 * 8 % 2 ^ 16) % 2 ^ 16 = _
  omega

theorem readTablePropExperimenter_reads (t : UInt16) (e et : UInt32) (d pad : Bytes)
    (s : UInt32 × UInt32 × Bytes) (hl : 12 + d.length ≤ 65535)
    (hp : pad.length = padLen (12 + d.length)) :
    Reads readTablePropExperimenter s ((be t ++ be (UInt16.ofNat (4 + d.length + 8))) ++
      (be e ++ (be et ++ (d ++ pad)))) (e, et, d) := by
  have hs : (UInt16.ofNat (4 + d.length + 8) - 4 - 8).toNat = d.length := by
    have h1 := len_sub4 (k := d.length + 8) (by omega)
    rw [show 4 + d.length + 8 = 4 + (d.length + 8) from by omega, UInt16.toNat_sub_of_le]
    · rw [h1]; simp
    · rw [UInt16.le_iff_toNat_le, h1]; simp
  have h := Reads.cons (Reads.bin (s := (s, (0 : UInt16))) (k := 4)
      (b := be t ++ be (UInt16.ofNat (4 + d.length + 8)))
      (set := fun b s => (s.1, ofBE UInt16 (b.drop 2))) (by simp))
    (Reads.cons (Reads.num (set := fun v s => ((v, s.1.2), s.2)) e)
      (Reads.cons (Reads.num (set := fun v s => ((s.1.1, v, s.1.2.2), s.2)) et)
        (Reads.cons (Reads.dyn (f := fun s => Enc.limited (s.2 - 4 - 8).toNat
            (Enc.rest (fun b s => ((s.1.1, s.1.2.1, b), s.2)))) (Reads.limited (ReadsAll.rest d)
              (by simpa [List.drop_append] using hs)))
          (Reads.last (Reads.dyn (f := fun s => Enc.skip ((s.2 + 7) / 8 * 8 - s.2).toNat)
            (Reads.skip (b := pad) (by
              simp only
              rw [pad16, hp, show ofBE UInt16 ((be t ++ be (UInt16.ofNat (4 + d.length + 8))).drop 2) =
                UInt16.ofNat (4 + d.length + 8) from by simp,
                u16_ofNat_toNat (by omega)]
              congr 1; omega)))))))
  refine Reads.withLocal (l' := ofBE UInt16 ((be t ++ be (UInt16.ofNat (4 + d.length + 8))).drop 2)) ?_
  exact h

/-- An extensible match without a payload, as the table properties should carry it. -/
def XM.Plain (x : XM) : Prop := x.value = [] ∧ x.mask = [] ∧ x.type.toNat < 128

instance (x : XM) : Decidable x.Plain := by unfold XM.Plain; infer_instance

def XM.header (x : XM) : UInt16 × UInt8 × UInt8 := (x.cls, x.type <<< 1, 0)

theorem XM.Plain.bytes {x : XM} (h : x.Plain) : x.bytes = XM.headerBytes x.header := by
  obtain ⟨h1, h2, _⟩ := h
  rw [XM.bytes_eq, h1, h2]
  simp [XM.headerBytes, XM.header]

theorem XM.Plain.ofHeader {x : XM} (h : x.Plain) : XM.ofHeader x.header = x := by
  obtain ⟨c, t, v, m⟩ := x
  obtain ⟨h1, h2, h3⟩ := h
  simp only at h1 h2 h3
  subst h1 h2
  obtain ⟨_, _, c3, c4, _⟩ := xm_type_shift t.toNat h3
  simp only [UInt8.ofNat_toNat, UInt8.or_zero] at c3 c4
  simp [XM.ofHeader, XM.header, c3, c4, zeros]

/-- The fields of a property with extensible matches; empty for the others. -/
def TableProp.fields : TableProp → List XM
  | .matches xs => xs
  | .wildcards xs => xs
  | .writeSetField _ xs => xs
  | .applySetField _ xs => xs
  | _ => []

/-- The flag of an experimenter property; false for the others. -/
def TableProp.expMiss : TableProp → Bool
  | .experimenter m .. => m
  | _ => false

/-- The number of bytes without the padding. -/
def TableProp.size : TableProp → Nat
  | .instructions _ is => 4 + 4 * is.length
  | .nextTables _ ts => 4 + ts.length
  | .writeActions _ as => 4 + 4 * as.length
  | .applyActions _ as => 4 + 4 * as.length
  | .experimenter _ _ _ d => 12 + d.length
  | p => 4 + 4 * p.fields.length

theorem plain_flatMap (xs : List XM) (h : ∀ x ∈ xs, x.Plain) :
    xs.flatMap XM.bytes = (xs.map XM.header).flatMap XM.headerBytes := by
  induction xs with
  | nil => rfl
  | cons x xs ih =>
    simp [(h x (by simp)).bytes, ih fun y hy => h y (by simp [hy])]

theorem plain_map (xs : List XM) (h : ∀ x ∈ xs, x.Plain) :
    (xs.map XM.header).map XM.ofHeader = xs := by
  induction xs with
  | nil => rfl
  | cons x xs ih =>
    simp [(h x (by simp)).ofHeader] at ih ⊢
    exact ih fun y hy => h y (by simp [hy])

theorem readTablePropXM_plain (hm : Bool) (t : UInt16) (xs : List XM) (hx : ∀ x ∈ xs, x.Plain)
    (s : Bool × List XM) (hl : 4 + 4 * xs.length ≤ 65535) :
    Reads (readTablePropXM hm) s (writeTablePropXM t xs).out
      (if hm then t &&& 1 == 1 else s.1, xs) := by
  have h := readTablePropXM_reads hm t (xs.map XM.header) (zeros (padLen (4 + 4 * xs.length))) s
    (by simpa using hl) (by simp)
  rw [plain_map xs hx, ← plain_flatMap xs hx, List.length_map] at h
  rw [writeTablePropXM_eq]
  simpa using h

theorem readTablePropCodes_types (t : UInt16) (as : List UInt16) (s : Bool × List UInt16)
    (hl : 4 + 4 * as.length ≤ 65535) :
    Reads (readTablePropCodes actionHeader.readFrom) s (be t ++ (be (UInt16.ofNat (4 + 4 * as.length)) ++
      (as.flatMap (fun a => be a ++ be (4 : UInt16)) ++ zeros (padLen (4 + 4 * as.length)))))
      (t &&& 1 == 1, as) := by
  have h := readTablePropCodes_reads t (as.map fun a => (a, 4)) (zeros (padLen (4 + 4 * as.length))) s
    (by simpa using hl) (by simp)
  have e1 : (as.map fun a => (a, (4 : UInt16))).flatMap (fun c => be c.1 ++ be c.2) =
      as.flatMap (fun a => be a ++ be (4 : UInt16)) := by
    rw [List.flatMap_map]
  have e2 : (as.map fun a => (a, (4 : UInt16))).map (·.1) = as := by simp [Function.comp_def]
  rw [e1, e2, List.length_map] at h
  simpa using h

theorem TableProp.reads (p s : TableProp) (hs : s.zero = p.zero) (hm : s.expMiss = p.expMiss)
    (hx : ∀ x ∈ p.fields, x.Plain) (hl : p.size ≤ 65535) :
    Reads TableProp.readFrom s p.bytes p := by
  cases p with
  | instructions m is =>
    obtain ⟨m', is', rfl⟩ : ∃ a b, s = .instructions a b := by cases s <;> simp_all [TableProp.zero]
    have h := readTablePropCodes_types (TableProp.instructions m is).type is (m', is') hl
    have := Reads.wrap (dec := TableProp.readFrom) (s := .instructions m' is')
      (f := fun s : Bool × List UInt16 => TableProp.instructions s.1 s.2) h (fun r => rfl)
    have hu := u16_ofNat_toNat hl
    simp only [TableProp.size] at hu
    have hb : ((TableProp.instructions m is).type &&& 1 == 1) = m := by
      cases m <;> simp only [TableProp.type, tablePropType] <;> decide
    rw [hb] at this
    simpa [TableProp.bytes, TableProp.writeTo, Enc.writeTo, Enc.writeSliceTo, Enc.gather, tablePropHeader,
      -UInt16.toNat_ofNat', -UInt16.ofNat_add, hu] using this
  | nextTables m is =>
    obtain ⟨m', is', rfl⟩ : ∃ a b, s = .nextTables a b := by cases s <;> simp_all [TableProp.zero]
    have h := readNextTables_reads (TableProp.nextTables m is).type is (zeros (padLen (4 + is.length)))
      (m', is') hl (by simp)
    have := Reads.wrap (dec := TableProp.readFrom) (s := .nextTables m' is')
      (f := fun s : Bool × Bytes => TableProp.nextTables s.1 s.2) h (fun r => rfl)
    have hb : ((TableProp.nextTables m is).type &&& 1 == 1) = m := by
      cases m <;> simp only [TableProp.type, tablePropType] <;> decide
    rw [hb] at this
    simpa [TableProp.bytes, TableProp.writeTo, Enc.writeTo, Enc.gather, tablePropHeader] using this
  | writeActions m is =>
    obtain ⟨m', is', rfl⟩ : ∃ a b, s = .writeActions a b := by cases s <;> simp_all [TableProp.zero]
    have h := readTablePropCodes_types (TableProp.writeActions m is).type is (m', is') hl
    have := Reads.wrap (dec := TableProp.readFrom) (s := .writeActions m' is')
      (f := fun s : Bool × List UInt16 => TableProp.writeActions s.1 s.2) h (fun r => rfl)
    have hb : ((TableProp.writeActions m is).type &&& 1 == 1) = m := by
      cases m <;> simp only [TableProp.type, tablePropType] <;> decide
    rw [hb] at this
    simpa [TableProp.bytes, TableProp.writeTo, writeTablePropActions, Enc.writeTo, Enc.gather,
      tablePropHeader] using this
  | applyActions m is =>
    obtain ⟨m', is', rfl⟩ : ∃ a b, s = .applyActions a b := by cases s <;> simp_all [TableProp.zero]
    have h := readTablePropCodes_types (TableProp.applyActions m is).type is (m', is') hl
    have := Reads.wrap (dec := TableProp.readFrom) (s := .applyActions m' is')
      (f := fun s : Bool × List UInt16 => TableProp.applyActions s.1 s.2) h (fun r => rfl)
    have hb : ((TableProp.applyActions m is).type &&& 1 == 1) = m := by
      cases m <;> simp only [TableProp.type, tablePropType] <;> decide
    rw [hb] at this
    simpa [TableProp.bytes, TableProp.writeTo, writeTablePropActions, Enc.writeTo, Enc.gather,
      tablePropHeader] using this
  | «matches» xs =>
    obtain ⟨xs', rfl⟩ : ∃ b, s = .matches b := by cases s <;> simp_all [TableProp.zero]
    exact Reads.wrap (dec := TableProp.readFrom) (s := .matches xs')
      (f := fun s : Bool × List XM => TableProp.matches s.2)
      (readTablePropXM_plain false (TableProp.matches xs).type xs hx (false, xs') hl) (fun r => rfl)
  | wildcards xs =>
    obtain ⟨xs', rfl⟩ : ∃ b, s = .wildcards b := by cases s <;> simp_all [TableProp.zero]
    exact Reads.wrap (dec := TableProp.readFrom) (s := .wildcards xs')
      (f := fun s : Bool × List XM => TableProp.wildcards s.2)
      (readTablePropXM_plain false (TableProp.wildcards xs).type xs hx (false, xs') hl) (fun r => rfl)
  | writeSetField m xs =>
    obtain ⟨m', xs', rfl⟩ : ∃ a b, s = .writeSetField a b := by cases s <;> simp_all [TableProp.zero]
    have := Reads.wrap (dec := TableProp.readFrom) (s := .writeSetField m' xs')
      (f := fun s : Bool × List XM => TableProp.writeSetField s.1 s.2)
      (readTablePropXM_plain true (TableProp.writeSetField m xs).type xs hx (m', xs') hl) (fun r => rfl)
    have hb : ((TableProp.writeSetField m xs).type &&& 1 == 1) = m := by
      cases m <;> simp only [TableProp.type, tablePropType] <;> decide
    rw [if_pos rfl, hb] at this
    exact this
  | applySetField m xs =>
    obtain ⟨m', xs', rfl⟩ : ∃ a b, s = .applySetField a b := by cases s <;> simp_all [TableProp.zero]
    have := Reads.wrap (dec := TableProp.readFrom) (s := .applySetField m' xs')
      (f := fun s : Bool × List XM => TableProp.applySetField s.1 s.2)
      (readTablePropXM_plain true (TableProp.applySetField m xs).type xs hx (m', xs') hl) (fun r => rfl)
    have hb : ((TableProp.applySetField m xs).type &&& 1 == 1) = m := by
      cases m <;> simp only [TableProp.type, tablePropType] <;> decide
    rw [if_pos rfl, hb] at this
    exact this
  | experimenter m e t d =>
    obtain ⟨m', e', t', d', rfl⟩ : ∃ a b c d, s = .experimenter a b c d := by
      cases s <;> simp_all [TableProp.zero]
    simp only [TableProp.expMiss] at hm
    subst hm
    have hl' : 12 + d.length ≤ 65535 := hl
    have hu := u16_ofNat_toNat hl'
    have h := readTablePropExperimenter_reads (TableProp.experimenter m' e t d).type e t d
      (zeros (padLen (12 + d.length))) (e', t', d') hl (by simp)
    have := Reads.wrap (dec := TableProp.readFrom) (s := .experimenter m' e' t' d')
      (f := fun s : UInt32 × UInt32 × Bytes => TableProp.experimenter m' s.1 s.2.1 s.2.2) h (fun r => rfl)
    simpa [TableProp.bytes, TableProp.writeTo, Enc.writeTo, Enc.gather, tablePropHeader,
      -UInt16.toNat_ofNat', -UInt16.ofNat_add, hu, show 4 + d.length + 8 = 12 + d.length from by omega] using this

/-! ### Any input -/

theorem readTypeCodes_safe : Safe ShortErr (readTypeCodes actionHeader.readFrom) := by
  intro s r hr
  have hf : Flat actionHeader.readFrom 4 := actionHeader.flat
  obtain ⟨a, o, e⟩ := readFunc_safe (E := ShortErr) (zero := (0, 0)) hf.safe (hf.moves (by omega)) r hr
  exact ⟨a, o, e⟩

theorem readTablePropXM_safe (hm : Bool) : Safe ShortErr (readTablePropXM hm) := by
  have h : Safe ShortErr (readAllXM false) := readAllXM_safe false
  unfold readTablePropXM yieldTableProp; safe

theorem readTablePropCodes_safe : Safe ShortErr (readTablePropCodes actionHeader.readFrom) := by
  have h := readTypeCodes_safe
  unfold readTablePropCodes yieldTableProp; safe

theorem readNextTables_safe : Safe ShortErr readNextTables := by
  unfold readNextTables yieldTableProp; safe

theorem readTablePropExperimenter_safe : Safe ShortErr readTablePropExperimenter := by
  unfold readTablePropExperimenter; safe

theorem TableProp.readFrom_safe : Safe ShortErr TableProp.readFrom := by
  intro p r hr
  cases p
  · simp only [TableProp.readFrom]; exact SafeAt.wrap readTablePropCodes_safe hr
  · simp only [TableProp.readFrom]; exact SafeAt.wrap readNextTables_safe hr
  · simp only [TableProp.readFrom]; exact SafeAt.wrap readTablePropCodes_safe hr
  · simp only [TableProp.readFrom]; exact SafeAt.wrap readTablePropCodes_safe hr
  · simp only [TableProp.readFrom]; exact SafeAt.wrap (readTablePropXM_safe false) hr
  · simp only [TableProp.readFrom]; exact SafeAt.wrap (readTablePropXM_safe false) hr
  · simp only [TableProp.readFrom]; exact SafeAt.wrap (readTablePropXM_safe true) hr
  · simp only [TableProp.readFrom]; exact SafeAt.wrap (readTablePropXM_safe true) hr
  · simp only [TableProp.readFrom]; exact SafeAt.wrap readTablePropExperimenter_safe hr

theorem TableProp.readFrom_moves : Moves TableProp.readFrom := by
  have h4 : ∀ {σ : Type} {set : Bytes → σ → σ} {t : List (Step σ)},
      Moves (Enc.readFrom (Enc.bin 4 set :: t)) := Moves.cons (Flat.bin.moves (by omega))
  intro p r hr
  cases p
  · simp only [TableProp.readFrom]; exact Moves.wrap (Moves.withLocal h4) hr
  · simp only [TableProp.readFrom]; exact Moves.wrap (Moves.withLocal h4) hr
  · simp only [TableProp.readFrom]; exact Moves.wrap (Moves.withLocal h4) hr
  · simp only [TableProp.readFrom]; exact Moves.wrap (Moves.withLocal h4) hr
  · simp only [TableProp.readFrom]; exact Moves.wrap (Moves.withLocal h4) hr
  · simp only [TableProp.readFrom]; exact Moves.wrap (Moves.withLocal h4) hr
  · simp only [TableProp.readFrom]; exact Moves.wrap (Moves.withLocal h4) hr
  · simp only [TableProp.readFrom]; exact Moves.wrap (Moves.withLocal h4) hr
  · simp only [TableProp.readFrom]; exact Moves.wrap (Moves.withLocal h4) hr

theorem tablePropMake_err (c : UInt16) (e : Err) (h : tablePropMake c = .error e) :
    e = .unknownType := by
  unfold tablePropMake at h
  split at h <;> simp at h
  exact h.symm

theorem TableFeatures.readFrom_safe : Safe DecErr TableFeatures.readFrom := by
  have h : Safe DecErr (Enc.scanFrom tablePropMake TableProp.readFrom) :=
    Safe.scanFrom (TableProp.readFrom_safe.mono fun _ => ShortErr.dec) TableProp.readFrom_moves
      (fun c e h => by simp [DecErr, tablePropMake_err c e h])
  unfold TableFeatures.readFrom; safe

/-! ### How much is taken from the stream -/

/-- Started with `s`, the step takes at most `k` bytes from any reader. -/
def Takes {σ : Type} (k : Nat) (st : Step σ) (s : σ) : Prop :=
  ∀ r, r.Ok .eof → ∃ m, m ≤ k ∧ Rd.Adv m r (st s r).rd ∧ (st s r).rd.Ok .eof

theorem Takes.nil {σ : Type} {s : σ} : Takes 0 (Enc.readFrom []) s := fun r hr =>
  ⟨0, Nat.le_refl _, Rd.Adv.refl r, hr⟩

theorem Takes.cons {σ : Type} {st : Step σ} {t : List (Step σ)} {s : σ} {a b : Nat} (h1 : Takes a st s)
    (h2 : ∀ r, Takes b (Enc.readFrom t) (st s r).val) : Takes (a + b) (Enc.readFrom (st :: t)) s := by
  intro r hr
  obtain ⟨m, hm, ha, ho⟩ := h1 r hr
  have h3 := h2 r
  rcases hst : st s r with ⟨v, n, e, r1⟩
  rw [hst] at ha ho h3
  cases e with
  | some e => exact ⟨m, by omega, by simpa [Enc.readFrom, hst] using ha, by simpa [Enc.readFrom, hst] using ho⟩
  | none =>
    obtain ⟨m', hm', ha', ho'⟩ := h3 r1 ho
    exact ⟨m + m', by omega, by simpa [Enc.readFrom, hst] using ha.trans ha',
      by simpa [Enc.readFrom, hst] using ho'⟩

theorem Takes.flat {σ : Type} {st : Step σ} {k : Nat} (h : Flat st k) {s : σ} : Takes k st s := by
  intro r hr
  obtain ⟨h1, h2, h3, h4⟩ := h s r hr
  refine ⟨_, ?_, h2, h1⟩
  by_cases hk : k ≤ r.content.length
  · rw [(h3 hk).2]; exact Nat.le_refl _
  · rw [(h4 (by omega)).2]; omega

theorem Takes.limited {σ : Type} {st : Step σ} {k : Nat} {E : Err → Prop} (h : Safe E st) {s : σ} :
    Takes k (Enc.limited k st) s := by
  intro r hr
  obtain ⟨⟨m, hm, a⟩, o, e⟩ := h s (.lim k r) ⟨rfl, hr⟩
  refine ⟨m, ?_, a.unlimit, o.unlimit a⟩
  have := a.content.1
  simp only [Rd.content, List.length_take] at this
  omega

theorem Takes.dyn {σ : Type} {f : σ → Step σ} {st : Step σ} {k : Nat} {s : σ} (he : f s = st)
    (h : Takes k st s) : Takes k (Enc.dyn f) s := by
  subst he; exact h

/-- A header, a limited part and the padding. -/
theorem Takes.prop {σ : Type} {k : Nat} {E : Err → Prop} (hm : Bool) (t l : UInt16) (body : Step ((Bool × σ) × UInt16))
    (f : (Bool × σ) × UInt16 → (Bool × σ) × UInt16)
    (s : (Bool × σ) × UInt16) (hs : ∀ s, (f s).2 = s.2) (hbody : Safe E body)
    (hk : ∀ s r, (body s r).val.2 = s.2)
    (hl : 4 ≤ l.toNat) (r : Rd) (hr : r.Ok .eof) (tail : Bytes) (hc : r.content = (be t ++ be l) ++ tail)
    (hkk : k = l.toNat + padLen l.toNat) :
    ∃ m, m ≤ k ∧ Rd.Adv m r (Enc.readFrom [yieldTableProp hm, Enc.assign f,
      Enc.dyn (fun s => Enc.limited (s.2 - 4).toNat body),
      Enc.dyn (fun s => Enc.skip (padLen s.2.toNat))] s r).rd := by
  obtain ⟨r1, e1, a1, o1⟩ := yield_reads hm t l s r tail hr hc
  have h4 : (l - 4).toNat = l.toNat - 4 := by
    rw [UInt16.toNat_sub_of_le]
    · simp
    · rw [UInt16.le_iff_toNat_le]; simpa using hl
  have hT : Takes ((l.toNat - 4) + (padLen l.toNat + 0)) (Enc.readFrom [
      Enc.dyn (fun s => Enc.limited (s.2 - 4).toNat body),
      Enc.dyn (fun s => Enc.skip (padLen s.2.toNat))])
      (f ((if hm then t &&& 1 == 1 else s.1.1, s.1.2), l)) := by
    refine Takes.cons ?_ fun r' => Takes.cons ?_ fun r'' => Takes.nil
    · rw [← h4]
      exact Takes.dyn (by simp only [hs]) (Takes.limited hbody)
    · refine Takes.dyn (st := Enc.skip (padLen l.toNat)) ?_ (Takes.flat Flat.skip)
      simp only [Enc.dyn, Enc.limited]
      rw [hk, hs]
  obtain ⟨m, hm1, a2, _⟩ := hT r1 o1
  refine ⟨(be t ++ be l).length + m, ?_, ?_⟩
  · simp; omega
  · have := a1.trans a2
    simpa [Enc.readFrom, e1, Enc.assign] using this

theorem readTablePropXM_takes (hm : Bool) (s : Bool × List XM) (t l : UInt16) (hl : 4 ≤ l.toNat) (r : Rd)
    (hr : r.Ok .eof) (tail : Bytes) (hc : r.content = (be t ++ be l) ++ tail) :
    ∃ m, m ≤ l.toNat + padLen l.toNat ∧ Rd.Adv m r (readTablePropXM hm s r).rd :=
  Takes.prop hm t l
    (Enc.sub (fun s => s.1.2) (fun xs s => ((s.1.1, xs), s.2)) (readAllXM false))
    (fun s => ((s.1.1, []), s.2)) (s, 0) (fun _ => rfl) (Safe.sub (readAllXM_safe (E := ShortErr) false)) (fun _ _ => rfl) hl r hr tail hc rfl

theorem readTablePropCodes_takes (s : Bool × List UInt16) (t l : UInt16) (hl : 4 ≤ l.toNat) (r : Rd)
    (hr : r.Ok .eof) (tail : Bytes) (hc : r.content = (be t ++ be l) ++ tail) :
    ∃ m, m ≤ l.toNat + padLen l.toNat ∧
      Rd.Adv m r (readTablePropCodes actionHeader.readFrom s r).rd :=
  Takes.prop true t l
    (Enc.sub (fun s => s.1.2) (fun xs s => ((s.1.1, xs), s.2)) (readTypeCodes actionHeader.readFrom))
    (fun s => ((s.1.1, []), s.2)) (s, 0) (fun _ => rfl) (Safe.sub readTypeCodes_safe) (fun _ _ => rfl) hl r hr tail hc rfl

/-! ### Table features -/

def TableProps.bytes (ps : List TableProp) : Bytes := ps.flatMap TableProp.bytes

theorem TableProps.writeTo_eq (ps : List TableProp) : Enc.writeSliceTo (ps.map TableProp.writeTo) =
    ⟨TableProps.bytes ps, (TableProps.bytes ps).length, none⟩ :=
  writeSliceTo_map TableProp.writeTo TableProp.bytes ps (fun x _ => x.writeTo_eq)

theorem TableFeatures.out_eq (t : TableFeatures) : t.writeTo =
    ⟨be (UInt16.ofNat (64 + (TableProps.bytes t.properties).length)) ++ (be t.table ++ (zeros 5 ++
      (copyTo t.name 32 ++ (be t.metadataMatch ++ (be t.metadataWrite ++ (be t.config ++
      (be t.maxEntries ++ TableProps.bytes t.properties))))))),
      64 + (TableProps.bytes t.properties).length, none⟩ := by
  simp [TableFeatures.writeTo, TableProps.writeTo_eq, Enc.writeTo, Enc.gather]; omega

def TableFeatures.canonical (t : TableFeatures) : TableFeatures := { t with name := copyTo t.name 32 }

theorem TableProps.readsAll (ps : List TableProp)
    (hp : ∀ p ∈ ps, (∀ x ∈ p.fields, x.Plain) ∧ p.expMiss = false ∧ p.size ≤ 65535) :
    ReadsAll (Enc.scanFrom tablePropMake TableProp.readFrom) [] (TableProps.bytes ps) ps :=
  ReadsAll.scanFrom (enc := TableProp.bytes) (zero := TableProp.zero) (code := TableProp.type) [] ps
    (fun p hm => p.reads _ (by cases p <;> rfl) (by rw [(hp p hm).2.1]; cases p <;> rfl)
      (hp p hm).1 (hp p hm).2.2)
    (fun p _ => tablePropMake_type p) (fun p _ => p.bytes_type)

theorem TableFeatures.reads (t s : TableFeatures)
    (hp : ∀ p ∈ t.properties, (∀ x ∈ p.fields, x.Plain) ∧ p.expMiss = false ∧ p.size ≤ 65535)
    (hl : 64 + (TableProps.bytes t.properties).length ≤ 65535) :
    Reads TableFeatures.readFrom s t.writeTo.out t.canonical := by
  have hscan := TableProps.readsAll t.properties hp
  have hsub : (UInt16.ofNat (64 + (TableProps.bytes t.properties).length)).toNat - 64 =
      (TableProps.bytes t.properties).length := by
    rw [u16_ofNat_toNat hl]; omega
  rw [TableFeatures.out_eq]
  generalize TableProps.bytes t.properties = bs at *
  unfold TableFeatures.readFrom
  refine Reads.withLocal (l' := (copyTo t.name 32, UInt16.ofNat (64 + bs.length))) ?_
  refine Reads.cons (Reads.num _) ?_
  refine Reads.cons (Reads.num _) ?_
  refine Reads.cons (Reads.skip (by simp)) ?_
  refine Reads.cons (Reads.bin (by simp)) ?_
  refine Reads.cons (Reads.num _) ?_
  refine Reads.cons (Reads.num _) ?_
  refine Reads.cons (Reads.num _) ?_
  refine Reads.cons (Reads.num _) ?_
  exact Reads.assignCons (Reads.last (Reads.dyn (Reads.limited (ReadsAll.sub hscan) hsub)))

end Verif
