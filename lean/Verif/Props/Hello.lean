import Verif.Ofp.Hello

/-!
# Properties C34 and C35
-/

namespace Verif.Props

open Verif

/-- The version number `v` is in the set a list of bitmaps denotes (OpenFlow 1.3.5, section
7.5.1): bit `v % 32` of word `v / 32`; words that are missing denote zeros. -/
def Supports (ws : List UInt32) (v : Nat) : Prop := ((ws[v / 32]?.getD 0).toNat).testBit (v % 32) = true

/-- C35.  Wire format of a version bitmap: type 1, its length, the words, zero padding.  The
encoding occupies a multiple of eight bytes. -/
theorem versionBitmap_layout (ws : List UInt32)
    (hs : (HelloElem.versionBitmap ws).writeTo.out.length ≤ 65535) :
    let w := (HelloElem.versionBitmap ws).writeTo
    Encodes w ∧ w.out.length % 8 = 0 ∧
    Layout w.out [.num 2 1, .num 2 w.out.length, .raw (ws.flatMap be),
      .pad (if ws.length % 2 = 0 then 4 else 0)] := by
  have hb : (HelloElem.versionBitmap ws).writeTo.out = (HelloElem.versionBitmap ws).bytes := rfl
  have hl := (HelloElem.versionBitmap ws).bytes_length
  have hsz : (HelloElem.versionBitmap ws).size = 4 + 4 * (paddedWords ws).length := rfl
  have hpl := paddedWords_length ws
  intro w
  have hw : w = ⟨(HelloElem.versionBitmap ws).bytes, (HelloElem.versionBitmap ws).bytes.length, none⟩ :=
    HelloElem.writeTo_eq _
  rw [hw]
  refine ⟨⟨rfl, rfl⟩, ?_, ?_⟩
  · simp only; omega
  · simp only
    have hu := u16_ofNat_toNat (n := 4 + 4 * (paddedWords ws).length) (by rw [hb] at hs; omega)
    rw [hl, hsz, HelloElem.bytes_eq]
    have hp : be32s (paddedWords ws) = ws.flatMap be ++ zeros (if ws.length % 2 = 0 then 4 else 0) := by
      rw [← be32s_padded]
      have : (4 + ws.length * 4) % 8 = if ws.length % 2 = 0 then 4 else 0 := by split <;> omega
      rw [this]; rfl
    rw [hp]
    simp [-UInt16.toNat_ofNat', -UInt16.ofNat_add, hu]

/-- C35.  Missing: lists of even length (they come back with a zero word appended, see
`versionBitmap_even`).  A list of odd length is restored exactly. -/
theorem versionBitmap_roundtrip_partial (ws : List UInt32) (hodd : ws.length % 2 = 1)
    (hs : (HelloElem.versionBitmap ws).writeTo.out.length ≤ 65535) :
    Decodes HelloElem.readFrom (HelloElem.versionBitmap ws).writeTo.out (.versionBitmap ws) := by
  have hc : (HelloElem.versionBitmap ws).canonical = .versionBitmap ws := by
    simp [HelloElem.canonical, paddedWords, hodd]
  have := fun s => (HelloElem.versionBitmap ws).reads s (by
    rw [HelloElem.Valid, ← HelloElem.bytes_length]; exact hs)
  rw [hc] at this
  exact Reads.decodes this

example : ([0x12] : List UInt32).length % 2 = 1 ∧
    (HelloElem.versionBitmap [0x12]).writeTo.out.length ≤ 65535 := by decide

/-- C35.  A list of even length (also the empty one) comes back with a zero word appended. -/
theorem versionBitmap_even (ws : List UInt32) (heven : ws.length % 2 = 0)
    (hs : (HelloElem.versionBitmap ws).writeTo.out.length ≤ 65535) :
    Decodes HelloElem.readFrom (HelloElem.versionBitmap ws).writeTo.out (.versionBitmap (ws ++ [0])) := by
  have hc : (HelloElem.versionBitmap ws).canonical = .versionBitmap (ws ++ [0]) := by
    simp [HelloElem.canonical, paddedWords, heven]
  have := fun s => (HelloElem.versionBitmap ws).reads s (by
    rw [HelloElem.Valid, ← HelloElem.bytes_length]; exact hs)
  rw [hc] at this
  exact Reads.decodes this

example : ([0x12, 7] : List UInt32).length % 2 = 0 ∧
    (HelloElem.versionBitmap [0x12, 7]).writeTo.out.length ≤ 65535 := by decide

/-- C35 fails for every list of even length. -/
theorem versionBitmap_roundtrip_false (ws : List UInt32) (heven : ws.length % 2 = 0)
    (hs : (HelloElem.versionBitmap ws).writeTo.out.length ≤ 65535) :
    ¬ Decodes HelloElem.readFrom (HelloElem.versionBitmap ws).writeTo.out (.versionBitmap ws) := by
  intro h
  have h1 := (h (.versionBitmap []) (.src _ [] .eof false) [] rfl (List.append_nil _).symm).1
  have h2 := (versionBitmap_even ws heven hs (.versionBitmap []) (.src _ [] .eof false) [] rfl
    (List.append_nil _).symm).1
  rw [h1] at h2
  simp at h2

/-- C35.  The set of versions survives in every case. -/
theorem versionBitmap_versions (ws : List UInt32)
    (hs : (HelloElem.versionBitmap ws).writeTo.out.length ≤ 65535) :
    ∃ ws', Decodes HelloElem.readFrom (HelloElem.versionBitmap ws).writeTo.out (.versionBitmap ws') ∧
      ∀ v, Supports ws' v ↔ Supports ws v := by
  by_cases h : ws.length % 2 = 0
  · refine ⟨ws ++ [0], versionBitmap_even ws h hs, fun v => ?_⟩
    unfold Supports
    by_cases hv : v / 32 < ws.length
    · rw [List.getElem?_append_left hv]
    · have h1 : (ws ++ [0])[v / 32]?.getD 0 = 0 := by
        rw [List.getElem?_append_right (by omega)]
        cases v / 32 - ws.length <;> simp
      have h2 : ws[v / 32]?.getD 0 = 0 := by
        rw [List.getElem?_eq_none (by omega)]; rfl
      rw [h1, h2]
  · exact ⟨ws, versionBitmap_roundtrip_partial ws (by omega) hs, fun v => Iff.rfl⟩

example : Supports [0x12] 1 ∧ Supports [0x12] 4 ∧ ¬ Supports [0x12] 5 := by
  unfold Supports; decide

/-! ## Hello -/

/-- C34.  Wire format of a hello message: its elements one after another. -/
theorem hello_layout (h : Hello) :
    Encodes h.writeTo ∧ Layout h.writeTo.out [.raw (h.elements.flatMap (fun e => e.writeTo.out))] := by
  have hb : h.elements.flatMap (fun e => e.writeTo.out) = HelloElems.bytes h.elements := rfl
  rw [hb, Hello.writeTo_eq]
  exact ⟨⟨rfl, rfl⟩, by simp [Layout]⟩

/-- C34 fails.  Whatever arrives, decoding leaves the elements of the receiver as they were:
the peer's versions are never visible. -/
theorem hello_loses_elements (s : Hello) (r : Rd) : (Hello.readFrom s r).val = s := by
  have := Hello.keeps s r
  rcases hv : (Hello.readFrom s r).val with ⟨e⟩
  rw [hv] at this
  cases s; simp_all

/-- C34.  Missing: the elements.  The message is read to its end without an error. -/
theorem hello_roundtrip_partial (h s : Hello) (hs : ∀ e ∈ h.elements, e.writeTo.out.length ≤ 65535) :
    DecodesAllFrom Hello.readFrom s h.writeTo.out s :=
  ReadsAll.decodesAllFrom (h.readsAll s fun e he => by
    rw [HelloElem.Valid, ← HelloElem.bytes_length]; exact hs e he)

/-- C34 fails for every hello with elements. -/
theorem hello_roundtrip_false (h : Hello) (he : h.elements ≠ []) :
    ¬ DecodesAllFrom Hello.readFrom ⟨[]⟩ h.writeTo.out h :=
  Hello.keeps.not_decodesAllFrom he

example : ∃ h : Hello, h.elements ≠ [] ∧ ∀ e ∈ h.elements, e.writeTo.out.length ≤ 65535 :=
  ⟨⟨[.versionBitmap [0x12]]⟩, by decide⟩

end Verif.Props
