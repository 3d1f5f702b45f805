import Verif.Ofp.Table
import Verif.Props.Raw

/-!
# Property C36 and the table part of C39 and C41
-/

namespace Verif.Props

open Verif

/-! ## Wire format of the properties (OpenFlow 1.3.5, section 7.3.5.5) -/

/-- The type codes: even for the regular entries, odd for the table-miss entry. -/
theorem tableProp_types :
    (∀ m l, (TableProp.instructions m l).type.toNat = 0 + m.toNat) ∧
    (∀ m l, (TableProp.nextTables m l).type.toNat = 2 + m.toNat) ∧
    (∀ m l, (TableProp.writeActions m l).type.toNat = 4 + m.toNat) ∧
    (∀ m l, (TableProp.applyActions m l).type.toNat = 6 + m.toNat) ∧
    (∀ l, (TableProp.matches l).type.toNat = 8) ∧
    (∀ l, (TableProp.wildcards l).type.toNat = 10) ∧
    (∀ m l, (TableProp.writeSetField m l).type.toNat = 12 + m.toNat) ∧
    (∀ m l, (TableProp.applySetField m l).type.toNat = 14 + m.toNat) ∧
    (∀ m e t d, (TableProp.experimenter m e t d).type.toNat = 0xfffe + m.toNat) := by
  refine ⟨?_, ?_, ?_, ?_, fun _ => rfl, fun _ => rfl, ?_, ?_, ?_⟩ <;> intro m <;> cases m <;> intros <;> rfl

/-- C36.  A list of instructions: 4-byte instruction headers, the length without padding,
padding to 8 bytes. -/
theorem tablePropInstructions_layout (m : Bool) (is : List UInt16) (hl : 4 + 4 * is.length ≤ 65535) :
    Encodes (TableProp.instructions m is).writeTo ∧
    Layout (TableProp.instructions m is).writeTo.out
      [.num 2 (0 + m.toNat), .num 2 (4 + 4 * is.length),
       .raw (is.flatMap fun i => be i ++ be (4 : UInt16)),
       .pad ((8 - (4 + 4 * is.length) % 8) % 8)] := by
  have hu := u16_ofNat_toNat hl
  have hp : padLen (4 + 4 * is.length) = (8 - (4 + 4 * is.length) % 8) % 8 := by unfold padLen; omega
  have ht := tableProp_types.1 m is
  refine ⟨by rw [TableProp.writeTo_eq]; exact ⟨rfl, rfl⟩, ?_⟩
  simp [TableProp.writeTo, Enc.writeSliceTo, Enc.writeTo, Enc.gather, tablePropHeader,
    -UInt16.toNat_ofNat', -UInt16.ofNat_add, hu, hp, ht]

/-- C36.  The tables that can follow. -/
theorem tablePropNextTables_layout (m : Bool) (ts : Bytes) (hl : 4 + ts.length ≤ 65535) :
    Encodes (TableProp.nextTables m ts).writeTo ∧
    Layout (TableProp.nextTables m ts).writeTo.out
      [.num 2 (2 + m.toNat), .num 2 (4 + ts.length), .raw ts, .pad ((8 - (4 + ts.length) % 8) % 8)] := by
  have hu := u16_ofNat_toNat hl
  have hp : padLen (4 + ts.length) = (8 - (4 + ts.length) % 8) % 8 := by unfold padLen; omega
  have ht := tableProp_types.2.1 m ts
  refine ⟨by rw [TableProp.writeTo_eq]; exact ⟨rfl, rfl⟩, ?_⟩
  simp [TableProp.writeTo, Enc.writeTo, Enc.gather, tablePropHeader,
    -UInt16.toNat_ofNat', -UInt16.ofNat_add, hu, hp, ht]

/-- C36.  Actions that can be written or applied: 4-byte action headers. -/
theorem tablePropActions_layout (m : Bool) (as : List UInt16) (hl : 4 + 4 * as.length ≤ 65535) :
    Encodes (TableProp.writeActions m as).writeTo ∧ Encodes (TableProp.applyActions m as).writeTo ∧
    Layout (TableProp.writeActions m as).writeTo.out
      [.num 2 (4 + m.toNat), .num 2 (4 + 4 * as.length),
       .raw (as.flatMap fun i => be i ++ be (4 : UInt16)),
       .pad ((8 - (4 + 4 * as.length) % 8) % 8)] ∧
    Layout (TableProp.applyActions m as).writeTo.out
      [.num 2 (6 + m.toNat), .num 2 (4 + 4 * as.length),
       .raw (as.flatMap fun i => be i ++ be (4 : UInt16)),
       .pad ((8 - (4 + 4 * as.length) % 8) % 8)] := by
  have hu := u16_ofNat_toNat hl
  have hp : padLen (4 + 4 * as.length) = (8 - (4 + 4 * as.length) % 8) % 8 := by unfold padLen; omega
  have ht := tableProp_types.2.2.1 m as
  have ht' := tableProp_types.2.2.2.1 m as
  refine ⟨by rw [TableProp.writeTo_eq]; exact ⟨rfl, rfl⟩, by rw [TableProp.writeTo_eq]; exact ⟨rfl, rfl⟩, ?_, ?_⟩ <;>
  simp [TableProp.writeTo, writeTablePropActions, Enc.writeTo, Enc.gather, tablePropHeader,
    -UInt16.toNat_ofNat', -UInt16.ofNat_add, hu, hp, ht, ht']

/-- C36.  Experimenter properties. -/
theorem tablePropExperimenter_layout (m : Bool) (e t : UInt32) (d : Bytes) (hl : 12 + d.length ≤ 65535) :
    Encodes (TableProp.experimenter m e t d).writeTo ∧
    Layout (TableProp.experimenter m e t d).writeTo.out
      [.num 2 (0xfffe + m.toNat), .num 2 (12 + d.length), .num 4 e.toNat, .num 4 t.toNat, .raw d,
       .pad ((8 - (12 + d.length) % 8) % 8)] := by
  have hu := u16_ofNat_toNat hl
  have hp : padLen (12 + d.length) = (8 - (12 + d.length) % 8) % 8 := by unfold padLen; omega
  have ht := tableProp_types.2.2.2.2.2.2.2.2 m e t d
  refine ⟨by rw [TableProp.writeTo_eq]; exact ⟨rfl, rfl⟩, ?_⟩
  simp [TableProp.writeTo, Enc.writeTo, Enc.gather, tablePropHeader,
    -UInt16.toNat_ofNat', -UInt16.ofNat_add, show 4 + d.length + 8 = 12 + d.length from by omega, hu, hp, ht]

/-- C36.  The properties with extensible matches (match, wildcards, write and apply
set-field).  The length counts four bytes per match; the matches are written in full, with
their values and masks. -/
theorem tablePropFields_layout (p : TableProp) (xs : List XM) (hl : 4 + 4 * xs.length ≤ 65535)
    (hp : p = .matches xs ∨ p = .wildcards xs ∨ (∃ m, p = .writeSetField m xs) ∨
      ∃ m, p = .applySetField m xs) :
    Encodes p.writeTo ∧ Layout p.writeTo.out
      [.num 2 p.type.toNat, .num 2 (4 + 4 * xs.length), .raw (xs.flatMap fun x => x.writeTo.out),
       .pad ((8 - (4 + 4 * xs.length) % 8) % 8)] := by
  have hu := u16_ofNat_toNat hl
  have hpad : padLen (4 + 4 * xs.length) = (8 - (4 + 4 * xs.length) % 8) % 8 := by unfold padLen; omega
  have hx : (xs.flatMap fun x => x.writeTo.out) = xs.flatMap XM.bytes := rfl
  refine ⟨by rw [TableProp.writeTo_eq]; exact ⟨rfl, rfl⟩, ?_⟩
  rcases hp with rfl | rfl | ⟨m, rfl⟩ | ⟨m, rfl⟩ <;>
  simp [TableProp.writeTo, writeTablePropXM_eq, -UInt16.toNat_ofNat', -UInt16.ofNat_add, hu, hpad, hx]

example : 4 + 4 * [(⟨0x8000, 0, [], []⟩ : XM), ⟨0x8000, 3, [1, 2], [3, 4]⟩].length ≤ 65535 := by decide

/-- C36.  What is written for a property with extensible matches exceeds the declared length
and its padding by the sizes of the values and masks, so the property has the declared
length exactly when no match has a value or a mask. -/
theorem tablePropFields_length (p : TableProp) (xs : List XM) (hl : 4 + 4 * xs.length ≤ 65535)
    (hp : p = .matches xs ∨ p = .wildcards xs ∨ (∃ m, p = .writeSetField m xs) ∨
      ∃ m, p = .applySetField m xs) :
    ∃ len, At p.writeTo.out 2 2 len ∧ (p.writeTo.out.length = (len + 7) / 8 * 8 ↔
      ∀ x ∈ xs, x.value = [] ∧ x.mask = []) := by
  have hu := u16_ofNat_toNat hl
  refine ⟨4 + 4 * xs.length, ?_⟩
  have hout : p.writeTo.out = be p.type ++ (be (UInt16.ofNat (4 + 4 * xs.length)) ++
      (xs.flatMap XM.bytes ++ zeros (padLen (4 + 4 * xs.length)))) := by
    rcases hp with rfl | rfl | ⟨m, rfl⟩ | ⟨m, rfl⟩ <;> simp [TableProp.writeTo, writeTablePropXM_eq]
  have hlen : ∀ ys : List XM, 4 * ys.length ≤ (ys.flatMap XM.bytes).length ∧
      ((ys.flatMap XM.bytes).length = 4 * ys.length ↔ ∀ x ∈ ys, x.value = [] ∧ x.mask = []) := by
    intro ys
    induction ys with
    | nil => simp
    | cons y ys ih =>
      rw [List.flatMap_cons, List.length_append, XM.bytes_length, List.length_cons]
      refine ⟨by omega, ?_⟩
      simp only [List.mem_cons, forall_eq_or_imp]
      rw [← ih.2]
      constructor
      · intro h
        exact ⟨⟨List.eq_nil_of_length_eq_zero (by omega), List.eq_nil_of_length_eq_zero (by omega)⟩, by omega⟩
      · rintro ⟨⟨h1, h2⟩, h3⟩
        rw [h1, h2, h3]; simp; omega
  have hx := hlen xs
  refine ⟨?_, ?_⟩
  · rw [hout]
    have := getBE_be (UInt16.ofNat (4 + 4 * xs.length))
    simp only [At, Wire.toNat] at this ⊢
    refine ⟨by simp; omega, ?_⟩
    rw [List.drop_left' (by simp), List.take_left' (by simp), this, hu]
  · rw [← hx.2, hout]
    simp [padLen]
    omega

example : ∃ x : XM, ¬ (x.value = [] ∧ x.mask = []) := ⟨⟨0x8000, 0, [0, 0, 0, 1], []⟩, by decide⟩

/-! ## Round trip -/

/-- C36.  Round trip of a property into a receiver of the same Go type, whatever it held.
Missing: matches that carry a value or a mask (`tableProp_reencode_false`) and the flag of
experimenter properties (`tablePropExperimenter_miss_lost`). -/
theorem tableProp_roundtrip_partial (p s : TableProp) (hs : s.zero = p.zero)
    (hm : s.expMiss = p.expMiss)
    (hx : ∀ x ∈ p.fields, x.value = [] ∧ x.mask = [] ∧ x.type.toNat < 128) (hl : p.size ≤ 65535) :
    DecodesFrom TableProp.readFrom s p.writeTo.out p :=
  Reads.decodesFrom (p.reads s hs hm hx hl)

example : ∃ p s : TableProp, s.zero = p.zero ∧ s.expMiss = p.expMiss ∧ p ≠ s ∧ p.fields.length = 2 ∧
    (∀ x ∈ p.fields, x.value = [] ∧ x.mask = [] ∧ x.type.toNat < 128) ∧ p.size ≤ 65535 :=
  ⟨.writeSetField true [⟨0x8000, 5, [], []⟩, ⟨0x8000, 6, [], []⟩],
   .writeSetField false [⟨0x8000, 9, [1], [2]⟩], by decide⟩

/-- C36.  All kinds but experimenter and the ones with matches: no condition but the size. -/
theorem tableProp_roundtrip (p s : TableProp) (hs : s.zero = p.zero) (hm : p.expMiss = s.expMiss)
    (hx : p.fields = []) (hl : p.size ≤ 65535) : DecodesFrom TableProp.readFrom s p.writeTo.out p :=
  tableProp_roundtrip_partial p s hs hm.symm (by simp [hx]) hl

example : ∃ p s : TableProp, s.zero = p.zero ∧ p.expMiss = s.expMiss ∧ p ≠ s ∧ p.fields = [] ∧
    p.size ≤ 65535 := ⟨.applyActions true [1, 2, 3], .applyActions false [4], by decide⟩

/-- C36 fails.  The flag of an experimenter property is on the wire but never decoded: the
receiver keeps its own. -/
theorem tablePropExperimenter_miss_lost (m m' : Bool) (e t e' t' : UInt32) (d d' : Bytes)
    (hl : 12 + d.length ≤ 65535) :
    DecodesFrom TableProp.readFrom (.experimenter m' e' t' d')
      (TableProp.experimenter m e t d).writeTo.out (.experimenter m' e t d) := by
  have h := readTablePropExperimenter_reads (TableProp.experimenter m e t d).type e t d
    (zeros (padLen (12 + d.length))) (e', t', d') hl (by simp)
  have hu := u16_ofNat_toNat hl
  have := Reads.wrap (dec := TableProp.readFrom) (s := .experimenter m' e' t' d')
    (f := fun s : UInt32 × UInt32 × Bytes => TableProp.experimenter m' s.1 s.2.1 s.2.2) h (fun r => rfl)
  refine Reads.decodesFrom ?_
  simpa [TableProp.writeTo, Enc.writeTo, Enc.gather, tablePropHeader,
    -UInt16.toNat_ofNat', -UInt16.ofNat_add, hu, show 4 + d.length + 8 = 12 + d.length from by omega] using this

theorem tablePropExperimenter_roundtrip_false (e t : UInt32) (d : Bytes) :
    ¬ DecodesFrom TableProp.readFrom (.experimenter false 0 0 [])
      (TableProp.experimenter true e t d).writeTo.out (.experimenter true e t d) := by
  intro h
  have := (h (.src (TableProp.experimenter true e t d).writeTo.out [] .eof false) [] rfl
    (by simp [Rd.content])).1
  simp [TableProp.readFrom, Enc.wrap] at this

/-! ## Properties received from a switch -/

/-- What a switch sends for the fields it supports: the class, the field with the mask bit
and the length of the value the field has (OpenFlow 1.3.5, section 7.3.5.5.2). -/
def fieldHeader (cls : UInt16) (field : UInt8) (mask : Bool) (len : UInt8) : Bytes :=
  be cls ++ (be (field * 2 + if mask then 1 else 0) ++ be len)

/-- C36.  Such a property decodes, with any padding, into matches whose values and masks are
zeros of the announced lengths. -/
theorem tablePropMatch_received (hs : List (UInt16 × UInt8 × Bool × UInt8))
    (hf : ∀ h ∈ hs, h.2.1.toNat < 128) (hl : 4 + 4 * hs.length ≤ 65535)
    (pad : Bytes) (hp : pad.length = (8 - (4 + 4 * hs.length) % 8) % 8) (s : List XM) :
    DecodesFrom TableProp.readFrom (.matches s)
      (be (8 : UInt16) ++ (be (UInt16.ofNat (4 + 4 * hs.length)) ++
        (hs.flatMap (fun h => fieldHeader h.1 h.2.1 h.2.2.1 h.2.2.2) ++ pad)))
      (.matches (hs.map fun h =>
        if h.2.2.1 then ⟨h.1, h.2.1, zeros (h.2.2.2.toNat / 2), zeros (h.2.2.2.toNat / 2)⟩
        else ⟨h.1, h.2.1, zeros h.2.2.2.toNat, []⟩)) := by
  let w : UInt16 × UInt8 × Bool × UInt8 → UInt16 × UInt8 × UInt8 :=
    fun h => (h.1, h.2.1 * 2 + if h.2.2.1 then 1 else 0, h.2.2.2)
  have e1 : hs.flatMap (fun h => fieldHeader h.1 h.2.1 h.2.2.1 h.2.2.2) =
      (hs.map w).flatMap XM.headerBytes := by
    rw [List.flatMap_map]; rfl
  have hb : ∀ n < 128, ∀ b : Bool,
      (UInt8.ofNat n * 2 + if b then 1 else 0) >>> 1 = UInt8.ofNat n ∧
      ((UInt8.ofNat n * 2 + if b then 1 else 0) &&& 1 == 1) = b := by decide
  have e2 : (hs.map fun h =>
        if h.2.2.1 then (⟨h.1, h.2.1, zeros (h.2.2.2.toNat / 2), zeros (h.2.2.2.toNat / 2)⟩ : XM)
        else ⟨h.1, h.2.1, zeros h.2.2.2.toNat, []⟩) = (hs.map w).map XM.ofHeader := by
    rw [List.map_map]
    refine List.map_congr_left fun h hm => ?_
    obtain ⟨b1, b2⟩ := hb h.2.1.toNat (hf h hm) h.2.2.1
    rw [UInt8.ofNat_toNat] at b1 b2
    simp only [Function.comp, XM.ofHeader, w, b1, b2]
  have h := readTablePropXM_reads false 8 (hs.map w) pad (false, s) (by simpa using hl)
    (by rw [List.length_map, hp]; unfold padLen; omega)
  have := Reads.wrap (dec := TableProp.readFrom) (s := .matches s)
    (f := fun s : Bool × List XM => TableProp.matches s.2) h (fun r => rfl)
  refine Reads.decodesFrom ?_
  rw [e1, e2]
  simpa using this

example : ∃ hs : List (UInt16 × UInt8 × Bool × UInt8), 2 ≤ hs.length ∧
    (∀ h ∈ hs, h.2.1.toNat < 128) ∧ 4 + 4 * hs.length ≤ 65535 :=
  ⟨[(0x8000, 0, false, 4), (0x8000, 3, true, 12)], by decide⟩

/-- C36 fails.  A property with the fields input port and Ethernet type, decoded from a
switch's message and encoded again, decodes without an error to different fields. -/
theorem tableProp_reencode_false : ∃ (wire : Bytes) (p q : TableProp),
    DecodesFrom TableProp.readFrom (.matches []) wire p ∧
    (TableProp.readFrom (.matches []) (.src p.writeTo.out [] .eof false)).err = none ∧
    (TableProp.readFrom (.matches []) (.src p.writeTo.out [] .eof false)).val = q ∧ q ≠ p := by
  refine ⟨_, _, _, tablePropMatch_received [(0x8000, 0, false, 4), (0x8000, 5, false, 2)] (by decide)
    (by decide) (zeros 4) (by decide) [], ?_, rfl, ?_⟩ <;> decide +kernel

/-- C36 fails.  Likewise a table features message with two such properties, each with one
field: after the first the stray value is taken for a property of type 0 and length 0. -/
theorem tableFeatures_reencode_false : ∃ t : TableFeatures,
    t.properties = [.matches [⟨0x8000, 0, zeros 4, []⟩], .wildcards [⟨0x8000, 0, zeros 4, []⟩]] ∧
    t.name.length = 32 ∧ t.writeTo.err = none ∧
    (TableFeatures.readFrom TableFeatures.zero (.src t.writeTo.out [] .eof false)).val ≠ t :=
  ⟨⟨1, zeros 32, 0, 0, 0, 0, [.matches [⟨0x8000, 0, zeros 4, []⟩], .wildcards [⟨0x8000, 0, zeros 4, []⟩]]⟩,
    rfl, rfl, by decide +kernel, by decide +kernel⟩

/-! ## Any input -/

/-- C36.  A property with type codes or matches stays within the length it declares and the
padding, whatever follows and whether or not it is decoded. -/
theorem tableProp_confined (p : TableProp) (t l : UInt16) (hl : 4 ≤ l.toNat)
    (hp : (∀ m ts, p ≠ .nextTables m ts) ∧ ∀ m e et d, p ≠ .experimenter m e et d)
    (r : Rd) (hr : r.Ok .eof) (tail : Bytes) (hc : r.content = (be t ++ be l) ++ tail) :
    ∃ k, k ≤ (l.toNat + 7) / 8 * 8 ∧ (TableProp.readFrom p r).rd.content = r.content.drop k := by
  have hk : l.toNat + padLen l.toNat = (l.toNat + 7) / 8 * 8 := by unfold padLen; omega
  have hx : ∀ hm s, ∃ k, k ≤ (l.toNat + 7) / 8 * 8 ∧
      (readTablePropXM hm s r).rd.content = r.content.drop k := fun hm s =>
    let ⟨m, h1, h2⟩ := readTablePropXM_takes hm s t l hl r hr tail hc
    ⟨m, by omega, h2.content.2⟩
  have ha : ∀ s, ∃ k, k ≤ (l.toNat + 7) / 8 * 8 ∧
      (readTablePropCodes actionHeader.readFrom s r).rd.content = r.content.drop k := fun s =>
    let ⟨m, h1, h2⟩ := readTablePropCodes_takes s t l hl r hr tail hc
    ⟨m, by omega, h2.content.2⟩
  cases p with
  | instructions m l => exact ha (m, l)
  | nextTables m l => exact absurd rfl (hp.1 m l)
  | writeActions m l => exact ha (m, l)
  | applyActions m l => exact ha (m, l)
  | «matches» l => exact hx false (false, l)
  | wildcards l => exact hx false (false, l)
  | writeSetField m l => exact hx true (m, l)
  | applySetField m l => exact hx true (m, l)
  | experimenter m e et d => exact absurd rfl (hp.2 m e et d)

example : ∃ l : UInt16, 4 ≤ l.toNat := ⟨6, by decide⟩

/-- C43 fails.  A declared length below 4 wraps around: such a property of next tables takes
the rest of the input for its own, here the 65533 bytes that follow the header with length
1, and succeeds. -/
theorem tablePropNextTables_undersized (rest : Bytes) (hr : rest.length = 65533) (pad : Bytes)
    (hp : pad.length = 7) : DecodesFrom TableProp.readFrom (.nextTables false [])
      (be (2 : UInt16) ++ (be (1 : UInt16) ++ (rest ++ pad))) (.nextTables false rest) := by
  refine Reads.decodesFrom ?_
  have h : Reads readNextTables (false, []) ((be (2 : UInt16) ++ be (1 : UInt16)) ++ (rest ++ pad))
      (false, rest) := by
    refine Reads.withLocal (l' := 1) ?_
    refine Reads.cons (yield_reads _ _ _ _) ?_
    refine Reads.assignCons ?_
    refine Reads.cons (Reads.dyn (Reads.bin ?_)) ?_
    · rw [hr]; rfl
    · refine Reads.last (Reads.dyn (Reads.skip ?_))
      rw [hp]; simp only; decide
  have := Reads.wrap (dec := TableProp.readFrom) (s := .nextTables false [])
    (f := fun s : Bool × Bytes => TableProp.nextTables s.1 s.2) h (fun r => rfl)
  simpa using this

example : ∃ rest pad : Bytes, rest.length = 65533 ∧ pad.length = 7 :=
  ⟨zeros 65533, zeros 7, by simp, by simp⟩

/-- C41.  A property decoder ends on any input, takes at least what it reports and no more
than there is; the only errors are those of a short input. -/
theorem tableProp_total (p : TableProp) (r : Rd) (hr : r.Ok .eof) :
    (TableProp.readFrom p r).n ≤ r.content.length ∧
    (∃ m, (TableProp.readFrom p r).n ≤ m ∧ (TableProp.readFrom p r).rd.content = r.content.drop m) ∧
    ((TableProp.readFrom p r).err = none ∨ (TableProp.readFrom p r).err = some .eof ∨
      (TableProp.readFrom p r).err = some .unexpectedEOF) := by
  obtain ⟨⟨m, h1, h2⟩, _, h3⟩ := TableProp.readFrom_safe p r hr
  have := h2.content
  refine ⟨by omega, ⟨m, h1, this.2⟩, ?_⟩
  rcases he : (TableProp.readFrom p r).err with _ | e
  · exact .inl rfl
  · rcases h3 e he with rfl | rfl <;> simp

/-! ## Table features -/

/-- C36.  Wire format of a table features entry. -/
theorem tableFeatures_layout (t : TableFeatures) (hl : t.writeTo.out.length ≤ 65535) :
    Encodes t.writeTo ∧ ∃ name, FieldText 32 t.name name ∧
    Layout t.writeTo.out [.num 2 t.writeTo.out.length, .num 1 t.table.toNat, .pad 5, .raw name,
      .num 8 t.metadataMatch.toNat, .num 8 t.metadataWrite.toNat, .num 4 t.config.toNat,
      .num 4 t.maxEntries.toNat, .raw (t.properties.flatMap fun p => p.writeTo.out)] := by
  have hb : (t.properties.flatMap fun p => p.writeTo.out) = TableProps.bytes t.properties := rfl
  have hlen : t.writeTo.out.length = 64 + (TableProps.bytes t.properties).length := by
    rw [TableFeatures.out_eq]; simp; omega
  rw [hlen] at hl ⊢
  have hu := u16_ofNat_toNat hl
  refine ⟨?_, _, copyTo_fieldText 32 t.name, ?_⟩
  · rw [TableFeatures.out_eq]; simp [Encodes]; omega
  · rw [TableFeatures.out_eq, hb]
    simp [-UInt16.toNat_ofNat', -UInt16.ofNat_add, hu]

theorem tableProp_size_le (p : TableProp) (hx : ∀ x ∈ p.fields, x.value = [] ∧ x.mask = [])
    (hl : p.writeTo.out.length ≤ 65535) : p.size ≤ 65535 := by
  have hx' : ∀ xs : List XM, 4 * xs.length ≤ (xs.flatMap XM.bytes).length := by
    intro xs
    induction xs with
    | nil => simp
    | cons y ys ih => rw [List.flatMap_cons, List.length_append, XM.bytes_length, List.length_cons]; omega
  have hx1 := fun xs => hx' xs
  cases p <;> simp only [TableProp.size, TableProp.fields] <;>
    simp only [TableProp.writeTo, writeTablePropXM_eq, writeTablePropActions, Enc.writeSliceTo, Enc.writeTo,
      Enc.gather, tablePropHeader, List.length_append, be_length, zeros_length] at hl <;> (try simp at hl) <;>
    (try (have := typeCodes_length ‹List UInt16›; unfold typeCodes at this; simp at this)) <;>
    (try (have := hx1 ‹List XM›; simp at this)) <;> omega

/-- C36.  Round trip of a table features entry into any receiver, on any reader, leaving what
follows.  The name comes back as the 32 bytes of its field.  Missing: as for the single
properties. -/
theorem tableFeatures_roundtrip_partial (t : TableFeatures)
    (hp : ∀ p ∈ t.properties, p.expMiss = false ∧
      ∀ x ∈ p.fields, x.value = [] ∧ x.mask = [] ∧ x.type.toNat < 128)
    (hl : t.writeTo.out.length ≤ 65535) :
    ∃ t' : TableFeatures, Decodes TableFeatures.readFrom t.writeTo.out t' ∧
      FieldText 32 t.name t'.name ∧ t' = { t with name := t'.name } := by
  have hlen : t.writeTo.out.length = 64 + (TableProps.bytes t.properties).length := by
    rw [TableFeatures.out_eq]; simp; omega
  have hle : ∀ p ∈ t.properties, p.writeTo.out.length ≤ (TableProps.bytes t.properties).length := by
    intro p hm
    obtain ⟨a, b, hab⟩ := List.append_of_mem hm
    rw [TableProps.bytes, hab]
    simp [TableProp.bytes]; omega
  refine ⟨t.canonical, Reads.decodes fun s => t.reads s (fun p hm => ⟨(hp p hm).2, (hp p hm).1, ?_⟩)
    (by omega), copyTo_fieldText 32 _, rfl⟩
  exact tableProp_size_le p (fun x hx => ⟨((hp p hm).2 x hx).1, ((hp p hm).2 x hx).2.1⟩)
    (by have := hle p hm; omega)

/-- C36.  A name of 32 bytes comes back as it was. -/
theorem tableFeatures_roundtrip_exact_partial (t : TableFeatures) (hn : t.name.length = 32)
    (hp : ∀ p ∈ t.properties, p.expMiss = false ∧
      ∀ x ∈ p.fields, x.value = [] ∧ x.mask = [] ∧ x.type.toNat < 128)
    (hl : t.writeTo.out.length ≤ 65535) : Decodes TableFeatures.readFrom t.writeTo.out t := by
  obtain ⟨t', h1, h2, h3⟩ := tableFeatures_roundtrip_partial t hp hl
  have : t'.name = t.name := by
    have h := h2.2.1
    rwa [List.take_of_length_le (by rw [h2.1, hn]; exact Nat.le_refl _),
      List.take_of_length_le (by rw [hn]; exact Nat.le_refl _)] at h
  rw [this] at h3
  rwa [h3] at h1

example : ∃ t : TableFeatures, t.name.length = 32 ∧ t.properties.length = 4 ∧
    (∀ p ∈ t.properties, p.expMiss = false ∧
      ∀ x ∈ p.fields, x.value = [] ∧ x.mask = [] ∧ x.type.toNat < 128) ∧
    t.writeTo.out.length ≤ 65535 :=
  ⟨⟨1, zeros 32, 2, 3, 4, 5, [.instructions true [1, 2], .nextTables false [7, 8, 9],
    .applySetField true [⟨0x8000, 1, [], []⟩], .experimenter false 5 6 [7]]⟩, by decide +kernel⟩

/-- C41.  The table features decoder ends on any input and fails only with the errors of a
short input or an unknown property. -/
theorem tableFeatures_total (t : TableFeatures) (r : Rd) (hr : r.Ok .eof) :
    (TableFeatures.readFrom t r).n ≤ r.content.length ∧
    (∃ m, (TableFeatures.readFrom t r).n ≤ m ∧
      (TableFeatures.readFrom t r).rd.content = r.content.drop m) ∧
    ((TableFeatures.readFrom t r).err = none ∨ (TableFeatures.readFrom t r).err = some .eof ∨
      (TableFeatures.readFrom t r).err = some .unexpectedEOF ∨
      (TableFeatures.readFrom t r).err = some .unknownType) := by
  obtain ⟨⟨m, h1, h2⟩, _, h3⟩ := TableFeatures.readFrom_safe t r hr
  have := h2.content
  refine ⟨by omega, ⟨m, h1, this.2⟩, ?_⟩
  rcases he : (TableFeatures.readFrom t r).err with _ | e
  · exact .inl rfl
  · rcases h3 e he with rfl | rfl | rfl <;> simp

end Verif.Props
