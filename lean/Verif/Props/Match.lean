import Verif.Ofp.Match
import Verif.Hoare

/-!
# Properties C24, C25 and part of C53: extensible matches and matches
-/

namespace Verif.Props

open Verif

/-- C24.  A representable extensible match is encoded as class, type and mask flag, payload
length, value, mask. -/
theorem xm_layout (x : XM) (hv : x.Valid) :
    Layout x.writeTo.out [.num 2 x.cls.toNat,
      .num 1 (2 * x.type.toNat + if x.mask = [] then 0 else 1),
      .num 1 (x.value.length + x.mask.length), .raw x.value, .raw x.mask] := by
  obtain ⟨ht, hl, hm⟩ := hv
  obtain ⟨_, _, _, _, c5, c6⟩ := xm_type_shift x.type.toNat ht
  simp only [UInt8.ofNat_toNat] at c5 c6
  have hlen : (UInt8.ofNat (x.mask.length + x.value.length)).toNat =
      x.value.length + x.mask.length := by
    rw [UInt8.toNat_ofNat']; omega
  have := x.bytes_eq
  simp only [XM.bytes] at this
  rw [this]
  by_cases h : x.mask = []
  · simp only [h, List.length_nil, Nat.lt_irrefl, if_false, Layout.u16, Layout.u8, c6, if_true] at *
    simp; omega
  · have h' : 0 < x.mask.length := List.length_pos_iff.mpr h
    simp only [h, h', if_false, Layout.u16, Layout.u8, c5, if_true, hlen]
    simp

/-- C24.  Encoding then decoding gives the same match back, on any stream. -/
theorem xm_roundtrip (x : XM) (hv : x.Valid) :
    Encodes x.writeTo ∧ Decodes XM.readFrom x.writeTo.out x :=
  ⟨by simp [Encodes, XM.writeTo_eq], Reads.decodes (x.reads hv)⟩

/-- C24.  Whatever bytes are decoded, the result is within the bounds of `XM.Valid`. -/
theorem xm_decoded_valid (s : XM) (r : Rd) (hr : r.Ok .eof) (h : (XM.readFrom s r).err = none) :
    (XM.readFrom s r).val.Valid := by
  refine (?_ : Triple (fun _ => True) XM.readFrom XM.Valid) s r hr trivial h |>.1
  refine Triple.withLocal (P' := fun _ => True) (Q' := fun s => s.1.Valid) ?_ (fun _ _ => trivial)
    (fun _ h => h)
  refine Triple.cons (Q := fun _ => True) (Triple.num fun _ _ _ => trivial) ?_
  refine Triple.cons (Q := fun _ => True) (Triple.num fun _ _ _ => trivial) ?_
  refine Triple.cons (Q := fun _ => True) (Triple.num fun _ _ _ => trivial) ?_
  refine Triple.cons (Q := fun s => s.1.type.toNat < 128 ∧ s.1.mask = [] ∧
    s.1.value.length = s.2.1.toNat) (Triple.assign fun s _ => ⟨?_, rfl, by simp⟩) ?_
  · have := s.1.type.toNat_lt
    simp [Nat.shiftRight_eq_div_pow]; omega
  simp only [if_true]
  refine Triple.cons (Q := fun s => s.1.type.toNat < 128 ∧ s.1.mask = [] ∧
    s.1.value.length = s.2.1.toNat) (Triple.dyn fun s0 => Triple.bin ?_) ?_
  · rintro b s hb ⟨⟨h1, h2, h3⟩, rfl⟩
    exact ⟨h1, h2, hb⟩
  refine Triple.cons (Triple.assign fun s hs => ?_) Triple.nil
  obtain ⟨h1, h2, h3⟩ := hs
  have hlt := s.2.1.toNat_lt
  split
  · refine ⟨h1, ?_, ?_⟩ <;> simp [h3] <;> omega
  · exact ⟨h1, by rw [h2]; simp; omega, .inl h2⟩

/-- C24.  Exactly the matches within the bounds survive a round trip. -/
theorem xm_roundtrip_iff (x : XM) : Decodes XM.readFrom x.writeTo.out x ↔ x.Valid := by
  refine ⟨fun h => ?_, fun h => (xm_roundtrip x h).2⟩
  obtain ⟨h1, _, h2, _⟩ := h XM.zero (.src x.writeTo.out [] .eof false) [] rfl (by simp [Rd.content])
  rw [← h1]
  exact xm_decoded_valid _ _ rfl h2

/-- Non-vacuity: a masked match. -/
example : XM.Valid ⟨0x8000, 11, [10, 0, 0, 0], [255, 0, 0, 0]⟩ := by decide

/-- The bounds are needed: a type above 127 comes back as another type. -/
example : (XM.readFrom XM.zero (.src (XM.writeTo ⟨0x8000, 130, [1], []⟩).out [] .eof false)).val =
    ⟨0x8000, 2, [1], []⟩ := by decide

/-- C25.  Type, length without padding, the fields one after another, and zero padding to a
multiple of eight. -/
theorem match_layout (m : Match) (hv : m.Valid) :
    ∃ len pad, len = 4 + (m.fields.map (fun x => 4 + x.value.length + x.mask.length)).sum ∧
      pad < 8 ∧ (len + pad) % 8 = 0 ∧ m.writeTo.out.length = len + pad ∧
      Layout m.writeTo.out [.num 2 m.type.toNat, .num 2 len,
        .raw (m.fields.flatMap (fun x => x.writeTo.out)), .pad pad] := by
  have hb := m.bytes_eq
  have hbl := m.bytes_length
  simp only [Match.bytes] at hb hbl
  obtain ⟨h1, h2⟩ := hv
  rw [← Match.fieldBytes_length] at *
  refine ⟨4 + m.fieldBytes.length, padLen (m.fieldBytes.length + 4), rfl, padLen_lt _, ?_, ?_, ?_⟩
  · rw [Nat.add_comm 4]; exact padLen_dvd _
  · rw [hbl]; omega
  · have hf : m.fields.flatMap (fun x => x.writeTo.out) = m.fieldBytes := rfl
    rw [hb, hf]
    simp only [Layout.u16, u16_ofNat_toNat (n := m.fieldBytes.length + 4) (by omega)]
    refine ⟨trivial, by omega, ?_⟩
    simp

/-- C25.  Encoding then decoding gives the same match back and consumes the padded size,
whatever follows on the stream and whatever the target held. -/
theorem match_roundtrip (m : Match) (hv : m.Valid) :
    Encodes m.writeTo ∧ Decodes Match.readFrom m.writeTo.out m :=
  ⟨by simp [Encodes, Match.writeTo_eq], Reads.decodes (m.reads hv)⟩

example : Match.Valid ⟨1, [⟨0x8000, 0, [0, 0, 0, 3], []⟩, ⟨0x8000, 11, [10, 0, 0, 0], [255, 0, 0, 0]⟩]⟩ := by
  decide

/-- C53.  `Match.Field(t)` is the first field of type `t`: everything before it has another
type. -/
theorem match_field_some (m : Match) (t : UInt8) (x : XM) :
    m.field t = some x ↔ x.type = t ∧ ∃ pre post, m.fields = pre ++ x :: post ∧ ∀ y ∈ pre, y.type ≠ t := by
  rw [Match.field, List.find?_eq_some_iff_append]
  simp

/-- C53.  `Match.Field(t)` is nil iff no field has type `t`. -/
theorem match_field_none (m : Match) (t : UInt8) : m.field t = none ↔ ∀ x ∈ m.fields, x.type ≠ t := by
  simp [Match.field]

/-- C53.  The accessors of `XMValue` return the big-endian number of the leading bytes. -/
theorem xmValue_num {α : Type} [Wire α] (zero : α) (v : Bytes) (h : Wire.size α ≤ v.length) :
    xmValueNum α zero v = Wire.ofNat (getBE (v.take (Wire.size α))) := by
  have := Reads.last (Reads.bin (k := Wire.size α) (set := fun b (_ : α) => ofBE α b) (s := zero)
    (b := v.take (Wire.size α)) (by simp; omega))
  obtain ⟨r', h1, _⟩ := this (.src v [] .eof false) (v.drop (Wire.size α)) rfl (by simp [Rd.content])
  simp only [Enc.num, xmValueNum]
  rw [h1]; rfl

/-- C53.  On a value that is too short they return zero. -/
theorem xmValue_short {α : Type} [Wire α] (zero : α) (v : Bytes) (h : v.length < Wire.size α) :
    xmValueNum α zero v = zero := by
  rcases readFull_spec .eof (Wire.size α) (.src v [] .eof false) rfl with ⟨hk, _⟩ | ⟨_, r', h1, _⟩
  · simp [Rd.content] at hk; omega
  · simp [xmValueNum, Enc.readFrom, Enc.num, Enc.bin, h1]

example : xmValueNum UInt32 0 [0, 0, 1, 2, 9] = 258 := by decide

end Verif.Props
