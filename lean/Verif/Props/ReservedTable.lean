import Verif.Props.Reserved
import Verif.Props.Table

/-!
# Property C61, continued: table features
-/

namespace Verif.Props

open Verif

/-- What stands between the header of a table property and its padding. -/
def TablePropBody : TableProp → Bytes
  | .instructions _ is => is.flatMap (fun i => be i ++ be (4 : UInt16))
  | .nextTables _ ts => ts
  | .writeActions _ as => as.flatMap (fun i => be i ++ be (4 : UInt16))
  | .applyActions _ as => as.flatMap (fun i => be i ++ be (4 : UInt16))
  | .matches xs => xs.flatMap (fun x => x.writeTo.out)
  | .wildcards xs => xs.flatMap (fun x => x.writeTo.out)
  | .writeSetField _ xs => xs.flatMap (fun x => x.writeTo.out)
  | .applySetField _ xs => xs.flatMap (fun x => x.writeTo.out)
  | .experimenter _ e t d => be e ++ (be t ++ d)

/-- The diagram of a table property: the length does not include the padding. -/
def TablePropPacket (p : TableProp) : List Fld :=
  [.num 2 p.type.toNat, .num 2 p.size, .raw (TablePropBody p), .pad ((8 - p.size % 8) % 8)]

private theorem loose_prop {b body : Bytes} {t : UInt16} {n k : Nat} (hn : n ≤ 65535)
    (h : Loose b [.num 2 t.toNat, .num 2 n, .raw body, .pad k]) :
    ∃ pad : Bytes, pad.length = k ∧ b = (be t ++ be (UInt16.ofNat n)) ++ (body ++ pad) := by
  have hu := u16_ofNat_toNat hn
  obtain ⟨b1, b2, e, l1, l2⟩ := Loose.split (f := [.num 2 t.toNat, .num 2 n]) h
  obtain ⟨b3, b4, e', l3, l4⟩ := Loose.split (f := [.raw body]) l2
  refine ⟨b4, by rw [l4.length]; simp [Fld.width], ?_⟩
  have h1 : b1 = be t ++ be (UInt16.ofNat n) := by
    obtain ⟨a1, a2, a3, a4, a5⟩ := l1
    have a6 : b1.length = 4 := by
      have := congrArg List.length (show (b1.drop 2).drop 2 = [] from a5)
      simp at this a3; omega
    have c1 : b1.take 2 = be t := by
      rw [← putBE_getBE (b1.take 2), a2, List.length_take, Nat.min_eq_left a1]; rfl
    have c2 : b1.drop 2 = be (UInt16.ofNat n) := by
      have : b1.drop 2 = (b1.drop 2).take 2 := by rw [List.take_of_length_le]; simp; omega
      rw [this, ← putBE_getBE ((b1.drop 2).take 2), a4, List.length_take, Nat.min_eq_left a3, ← hu]
      rw [hu]; exact congrArg (putBE 2) hu.symm
    rw [← c1, ← c2, List.take_append_drop]
  have h3 : b3 = body := by
    obtain ⟨a1, a2, a3⟩ := l3
    have := congrArg List.length (show b3.drop _ = [] from a3)
    rw [List.take_of_length_le (by simp at this; omega)] at a2
    exact a2
  rw [e, e', h1, h3]

private theorem size_pad (n : Nat) : (8 - n % 8) % 8 = padLen n := by unfold padLen; omega

private theorem codes_pad (t : UInt16) (as : List UInt16) (pad : Bytes) (s : Bool × List UInt16)
    (hl : 4 + 4 * as.length ≤ 65535) (hp : pad.length = padLen (4 + 4 * as.length)) :
    Reads (readTablePropCodes actionHeader.readFrom) s ((be t ++ be (UInt16.ofNat (4 + 4 * as.length))) ++
      (as.flatMap (fun a => be a ++ be (4 : UInt16)) ++ pad)) (t &&& 1 == 1, as) := by
  have h := readTablePropCodes_reads t (as.map fun a => (a, 4)) pad s (by simpa using hl) (by simpa using hp)
  have e1 : (as.map fun a => (a, (4 : UInt16))).flatMap (fun c => be c.1 ++ be c.2) =
      as.flatMap (fun a => be a ++ be (4 : UInt16)) := by
    rw [List.flatMap_map]
  have e2 : (as.map fun a => (a, (4 : UInt16))).map (·.1) = as := by simp [Function.comp_def]
  rwa [e1, e2, List.length_map] at h

private theorem fields_pad (hm : Bool) (t : UInt16) (xs : List XM) (hx : ∀ x ∈ xs, x.Plain)
    (pad : Bytes) (s : Bool × List XM) (hl : 4 + 4 * xs.length ≤ 65535)
    (hp : pad.length = padLen (4 + 4 * xs.length)) :
    Reads (readTablePropXM hm) s ((be t ++ be (UInt16.ofNat (4 + 4 * xs.length))) ++
      (xs.flatMap (fun x => x.writeTo.out) ++ pad)) (if hm then t &&& 1 == 1 else s.1, xs) := by
  have h := readTablePropXM_reads hm t (xs.map XM.header) pad s (by simpa using hl) (by simpa using hp)
  rwa [plain_map xs hx, ← plain_flatMap xs hx, List.length_map] at h

private theorem tableProp_lreads (p s : TableProp) (hs : s.zero = p.zero) (hm : s.expMiss = p.expMiss)
    (hx : ∀ x ∈ p.fields, x.Plain) (hl : p.size ≤ 65535) :
    LReads TableProp.readFrom s (TablePropPacket p) p := by
  intro b hb
  obtain ⟨pad, hp, rfl⟩ := loose_prop hl hb
  rw [size_pad] at hp
  clear hb
  cases p with
  | instructions m is =>
    obtain ⟨m', is', rfl⟩ : ∃ a b, s = .instructions a b := by cases s <;> simp_all [TableProp.zero]
    have := Reads.wrap (dec := TableProp.readFrom) (s := .instructions m' is')
      (f := fun s : Bool × List UInt16 => TableProp.instructions s.1 s.2)
      (codes_pad (TableProp.instructions m is).type is pad (m', is') hl hp) (fun r => rfl)
    have hb : ((TableProp.instructions m is).type &&& 1 == 1) = m := by
      cases m <;> simp only [TableProp.type, tablePropType] <;> decide
    rw [hb] at this
    exact this
  | nextTables m is =>
    obtain ⟨m', is', rfl⟩ : ∃ a b, s = .nextTables a b := by cases s <;> simp_all [TableProp.zero]
    have := Reads.wrap (dec := TableProp.readFrom) (s := .nextTables m' is')
      (f := fun s : Bool × Bytes => TableProp.nextTables s.1 s.2)
      (readNextTables_reads (TableProp.nextTables m is).type is pad (m', is') hl hp) (fun r => rfl)
    have hb : ((TableProp.nextTables m is).type &&& 1 == 1) = m := by
      cases m <;> simp only [TableProp.type, tablePropType] <;> decide
    rw [hb] at this
    exact this
  | writeActions m is =>
    obtain ⟨m', is', rfl⟩ : ∃ a b, s = .writeActions a b := by cases s <;> simp_all [TableProp.zero]
    have := Reads.wrap (dec := TableProp.readFrom) (s := .writeActions m' is')
      (f := fun s : Bool × List UInt16 => TableProp.writeActions s.1 s.2)
      (codes_pad (TableProp.writeActions m is).type is pad (m', is') hl hp) (fun r => rfl)
    have hb : ((TableProp.writeActions m is).type &&& 1 == 1) = m := by
      cases m <;> simp only [TableProp.type, tablePropType] <;> decide
    rw [hb] at this
    exact this
  | applyActions m is =>
    obtain ⟨m', is', rfl⟩ : ∃ a b, s = .applyActions a b := by cases s <;> simp_all [TableProp.zero]
    have := Reads.wrap (dec := TableProp.readFrom) (s := .applyActions m' is')
      (f := fun s : Bool × List UInt16 => TableProp.applyActions s.1 s.2)
      (codes_pad (TableProp.applyActions m is).type is pad (m', is') hl hp) (fun r => rfl)
    have hb : ((TableProp.applyActions m is).type &&& 1 == 1) = m := by
      cases m <;> simp only [TableProp.type, tablePropType] <;> decide
    rw [hb] at this
    exact this
  | «matches» xs =>
    obtain ⟨xs', rfl⟩ : ∃ b, s = .matches b := by cases s <;> simp_all [TableProp.zero]
    exact Reads.wrap (dec := TableProp.readFrom) (s := .matches xs')
      (f := fun s : Bool × List XM => TableProp.matches s.2)
      (fields_pad false (TableProp.matches xs).type xs hx pad (false, xs') hl hp) (fun r => rfl)
  | wildcards xs =>
    obtain ⟨xs', rfl⟩ : ∃ b, s = .wildcards b := by cases s <;> simp_all [TableProp.zero]
    exact Reads.wrap (dec := TableProp.readFrom) (s := .wildcards xs')
      (f := fun s : Bool × List XM => TableProp.wildcards s.2)
      (fields_pad false (TableProp.wildcards xs).type xs hx pad (false, xs') hl hp) (fun r => rfl)
  | writeSetField m xs =>
    obtain ⟨m', xs', rfl⟩ : ∃ a b, s = .writeSetField a b := by cases s <;> simp_all [TableProp.zero]
    have := Reads.wrap (dec := TableProp.readFrom) (s := .writeSetField m' xs')
      (f := fun s : Bool × List XM => TableProp.writeSetField s.1 s.2)
      (fields_pad true (TableProp.writeSetField m xs).type xs hx pad (m', xs') hl hp) (fun r => rfl)
    have hb : ((TableProp.writeSetField m xs).type &&& 1 == 1) = m := by
      cases m <;> simp only [TableProp.type, tablePropType] <;> decide
    rw [if_pos rfl, hb] at this
    exact this
  | applySetField m xs =>
    obtain ⟨m', xs', rfl⟩ : ∃ a b, s = .applySetField a b := by cases s <;> simp_all [TableProp.zero]
    have := Reads.wrap (dec := TableProp.readFrom) (s := .applySetField m' xs')
      (f := fun s : Bool × List XM => TableProp.applySetField s.1 s.2)
      (fields_pad true (TableProp.applySetField m xs).type xs hx pad (m', xs') hl hp) (fun r => rfl)
    have hb : ((TableProp.applySetField m xs).type &&& 1 == 1) = m := by
      cases m <;> simp only [TableProp.type, tablePropType] <;> decide
    rw [if_pos rfl, hb] at this
    exact this
  | experimenter m e t d =>
    obtain ⟨m', e', t', d', rfl⟩ : ∃ a b c d, s = .experimenter a b c d := by
      cases s <;> simp_all [TableProp.zero]
    simp only [TableProp.expMiss] at hm
    subst hm
    have h := readTablePropExperimenter_reads (TableProp.experimenter m' e t d).type e t d
      pad (e', t', d') hl hp
    have := Reads.wrap (dec := TableProp.readFrom) (s := .experimenter m' e' t' d')
      (f := fun s : UInt32 × UInt32 × Bytes => TableProp.experimenter m' s.1 s.2.1 s.2.2) h (fun r => rfl)
    simpa [TablePropBody, TableProp.size, -UInt16.toNat_ofNat', -UInt16.ofNat_add,
      show 4 + d.length + 8 = 12 + d.length from by omega] using this

private theorem tableProp_packet_layout (p : TableProp) (hx : ∀ x ∈ p.fields, x.Plain)
    (hl : p.size ≤ 65535) : Encodes p.writeTo ∧ Layout p.writeTo.out (TablePropPacket p) := by
  have ht := tableProp_types
  cases p with
  | instructions m is =>
    have := tablePropInstructions_layout m is hl
    rw [← ht.1 m is] at this; exact this
  | nextTables m is =>
    have := tablePropNextTables_layout m is hl
    rw [← ht.2.1 m is] at this; exact this
  | writeActions m is =>
    have := tablePropActions_layout m is hl
    rw [← ht.2.2.1 m is] at this; exact ⟨this.1, this.2.2.1⟩
  | applyActions m is =>
    have := tablePropActions_layout m is hl
    rw [← ht.2.2.2.1 m is] at this; exact ⟨this.2.1, this.2.2.2⟩
  | «matches» xs => exact tablePropFields_layout _ xs hl (.inl rfl)
  | wildcards xs => exact tablePropFields_layout _ xs hl (.inr (.inl rfl))
  | writeSetField m xs => exact tablePropFields_layout _ xs hl (.inr (.inr (.inl ⟨m, rfl⟩)))
  | applySetField m xs => exact tablePropFields_layout _ xs hl (.inr (.inr (.inr ⟨m, rfl⟩)))
  | experimenter m e t d =>
    refine ⟨(tablePropExperimenter_layout m e t d hl).1, ?_⟩
    have hu := u16_ofNat_toNat (n := 12 + d.length) hl
    simp only [TableProp.writeTo, Enc.writeTo, Enc.gather, tablePropHeader, TablePropPacket, TableProp.size,
      TablePropBody, size_pad, show 4 + d.length + 8 = 12 + d.length from by omega, hu]
    have e1 : ∀ z : Bytes, be e ++ (be t ++ (d ++ z)) = (be e ++ (be t ++ d)) ++ z := by simp
    simp [-UInt16.toNat_ofNat', -UInt16.ofNat_add, hu]
    rw [e1]; simp only [Layout.raw, Layout.zeros', Layout.nil_iff]

/-- C61.  The padding of a table property may be anything.  Missing, as for C36: the
properties with fields that have a payload. -/
theorem tableProp_reserved_partial (p : TableProp)
    (hx : ∀ x ∈ p.fields, x.value = [] ∧ x.mask = [] ∧ x.type.toNat < 128) (hl : p.size ≤ 65535)
    (b : Bytes) (hb : Loose b (TablePropPacket p)) :
    (∀ s : TableProp, s.zero = p.zero → s.expMiss = p.expMiss → DecodesFrom TableProp.readFrom s b p) ∧
      Encodes p.writeTo ∧ p.writeTo.out = canon ((TablePropPacket p).map Fld.part) b :=
  ⟨fun s hs hm => Reads.decodesFrom (tableProp_lreads p s hs hm hx hl b hb),
    (tableProp_packet_layout p hx hl).1, (tableProp_packet_layout p hx hl).2.canon hb⟩

example : ∃ p : TableProp, p.fields.length = 1 ∧
    (∀ x ∈ p.fields, x.value = [] ∧ x.mask = [] ∧ x.type.toNat < 128) ∧ p.size ≤ 65535 ∧
    Loose [0, 15, 0, 8, 0x80, 0, 2, 0] (TablePropPacket p) :=
  ⟨.applySetField true [⟨0x8000, 1, [], []⟩], by decide, by decide, by decide, by decide +kernel⟩

example : Loose [0, 3, 0, 7, 1, 2, 3, 0xff] (TablePropPacket (.nextTables true [1, 2, 3])) := by
  decide +kernel

private theorem tableProps_lreads (ps : List TableProp) (hv : ∀ p ∈ ps, (∀ x ∈ p.fields, x.Plain) ∧
    p.expMiss = false ∧ p.size ≤ 65535) :
    LReadsAll (Enc.scanFrom tablePropMake TableProp.readFrom) [] (ps.flatMap TablePropPacket) ps :=
  LReadsAll.scanFrom (zero := TableProp.zero) (code := TableProp.type) [] ps
    (fun p hp => tableProp_lreads p _ (by cases p <;> rfl)
      (by rw [(hv p hp).2.1]; cases p <;> rfl) (hv p hp).1 (hv p hp).2.2)
    (fun p _ => tablePropMake_type p) (fun p _ => ⟨_, rfl⟩)

/-- C61.  Table features: the five reserved bytes of the entry and the padding of the
properties may be anything.  Missing, as for C36: properties with fields that have a payload
and experimenter properties for the miss case. -/
theorem tableFeatures_reserved_partial (t : TableFeatures) (hn : t.name.length = 32)
    (hp : ∀ p ∈ t.properties, p.expMiss = false ∧
      ∀ x ∈ p.fields, x.value = [] ∧ x.mask = [] ∧ x.type.toNat < 128)
    (hl : t.writeTo.out.length ≤ 65535) :
    Tolerates TableFeatures.writeTo TableFeatures.readFrom ([.num 2 t.writeTo.out.length,
      .num 1 t.table.toNat, .pad 5, .raw t.name, .num 8 t.metadataMatch.toNat,
      .num 8 t.metadataWrite.toNat, .num 4 t.config.toNat, .num 4 t.maxEntries.toNat] ++
      t.properties.flatMap TablePropPacket) t := by
  have hlen : t.writeTo.out.length = 64 + (TableProps.bytes t.properties).length := by
    rw [TableFeatures.out_eq]; simp; omega
  rw [hlen] at hl ⊢
  have hle : ∀ p ∈ t.properties, p.writeTo.out.length ≤ (TableProps.bytes t.properties).length := by
    intro p hm
    obtain ⟨a, b, hab⟩ := List.append_of_mem hm
    rw [TableProps.bytes, hab]
    simp [TableProp.bytes]; omega
  have hv : ∀ p ∈ t.properties, (∀ x ∈ p.fields, x.Plain) ∧ p.expMiss = false ∧ p.size ≤ 65535 :=
    fun p hm => ⟨(hp p hm).2, (hp p hm).1, tableProp_size_le p
      (fun x hx => ⟨((hp p hm).2 x hx).1, ((hp p hm).2 x hx).2.1⟩) (by have := hle p hm; omega)⟩
  have hP : Layout (TableProps.bytes t.properties) (t.properties.flatMap TablePropPacket) :=
    Layout.flatMap _ (fun p hm => (tableProp_packet_layout p (hv p hm).1 (hv p hm).2.2).2)
  have hu := u16_ofNat_toNat hl
  have hc : copyTo t.name 32 = t.name := copyTo_full _ _ hn
  rw [← hu]
  refine LReads.tolerates (fun s => ?_) (tableFeatures_layout t (by rw [hlen]; exact hl)).1 ?_
  · unfold TableFeatures.readFrom
    refine LReads.withLocal (l' := (t.name, UInt16.ofNat (64 + (TableProps.bytes t.properties).length))) ?_
    simp only [List.cons_append, List.nil_append]
    loose
    refine LReads.app (f := [_]) (LReads.raw (Reads.bin hn)) ?_
    loose
    refine LReads.last (LReads.dyn (LReads.limited (LReadsAll.sub (tableProps_lreads _ hv)) ?_))
    rw [← hP.length]; simp only [hu]; omega
  · rw [TableFeatures.out_eq, hc]
    simp only [List.cons_append, List.nil_append, Layout.u8, Layout.u16, Layout.u32, Layout.u64,
      Layout.zeros, Layout.raw, true_and]
    exact hP

example : ∃ t : TableFeatures, t.name.length = 32 ∧ t.properties.length = 2 ∧
    (∀ p ∈ t.properties, p.expMiss = false ∧
      ∀ x ∈ p.fields, x.value = [] ∧ x.mask = [] ∧ x.type.toNat < 128) ∧
    t.writeTo.out.length ≤ 65535 ∧
    Loose ([0, 80, 1, 9, 8, 7, 6, 5] ++ List.replicate 32 65 ++ List.replicate 16 1 ++
      List.replicate 8 2 ++ [0, 3, 0, 7, 1, 2, 3, 0xff] ++ [0, 15, 0, 8, 0x80, 0, 2, 0])
      ([.num 2 t.writeTo.out.length,
      .num 1 t.table.toNat, .pad 5, .raw t.name, .num 8 t.metadataMatch.toNat,
      .num 8 t.metadataWrite.toNat, .num 4 t.config.toNat, .num 4 t.maxEntries.toNat] ++
      t.properties.flatMap TablePropPacket) :=
  ⟨⟨1, List.replicate 32 65, 0x101010101010101, 0x101010101010101, 0x2020202, 0x2020202,
    [.nextTables true [1, 2, 3], .applySetField true [⟨0x8000, 1, [], []⟩]]⟩, by decide +kernel⟩

end Verif.Props
