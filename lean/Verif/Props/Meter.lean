import Verif.Ofp.Meter

/-!
# Property C32 and the meter part of C51
-/

namespace Verif.Props

open Verif

/-! ## Bands -/

/-- C32.  Wire format of the meter bands (OpenFlow 1.3.5, section 7.3.4.5): every band has
16 bytes, says so in its length field and carries its type. -/
theorem meterBandDrop_layout (rate burst : UInt32) :
    Encodes (MeterBand.drop rate burst).writeTo ∧
    Layout (MeterBand.drop rate burst).writeTo.out
      [.num 2 1, .num 2 16, .num 4 rate.toNat, .num 4 burst.toNat, .pad 4] := by
  constructor
  · simp [Encodes, MeterBand.writeTo, Enc.writeTo, Enc.gather, meterBandHeader]
  · simp [MeterBand.writeTo, Enc.writeTo, Enc.gather, meterBandHeader, MeterBand.type]

theorem meterBandDSCPRemark_layout (rate burst : UInt32) (prec : UInt8) :
    Encodes (MeterBand.dscpRemark rate burst prec).writeTo ∧
    Layout (MeterBand.dscpRemark rate burst prec).writeTo.out
      [.num 2 2, .num 2 16, .num 4 rate.toNat, .num 4 burst.toNat, .num 1 prec.toNat, .pad 3] := by
  constructor
  · simp [Encodes, MeterBand.writeTo, Enc.writeTo, Enc.gather, meterBandHeader]
  · simp [MeterBand.writeTo, Enc.writeTo, Enc.gather, meterBandHeader, MeterBand.type]

theorem meterBandExperimenter_layout (rate burst exp : UInt32) :
    Encodes (MeterBand.experimenter rate burst exp).writeTo ∧
    Layout (MeterBand.experimenter rate burst exp).writeTo.out
      [.num 2 0xffff, .num 2 16, .num 4 rate.toNat, .num 4 burst.toNat, .num 4 exp.toNat] := by
  constructor
  · simp [Encodes, MeterBand.writeTo, Enc.writeTo, Enc.gather, meterBandHeader]
  · simp [MeterBand.writeTo, Enc.writeTo, Enc.gather, meterBandHeader, MeterBand.type]

/-- C32.  Round trip of a single band into a receiver of the same Go type. -/
theorem meterBand_roundtrip (b s : MeterBand) (hs : s.type = b.type) :
    DecodesFrom MeterBand.readFrom s b.writeTo.out b := Reads.decodesFrom (b.reads' s hs)

example : (MeterBand.dscpRemark 9 8 7).type = (MeterBand.dscpRemark 1 2 3).type := rfl

/-- C32 fails.  Decoding a list of bands, on any input at all, leaves the caller's list as
it was. -/
theorem meterBands_lost (s : List MeterBand) (r : Rd) : (MeterBands.readFrom s r).val = s := rfl

/-- C32.  Missing: the list itself.  A serialised list of bands is read to its end, every
byte is accounted for and no error is reported. -/
theorem meterBands_roundtrip_partial (bs s : List MeterBand) :
    DecodesAllFrom MeterBands.readFrom s (bs.flatMap (fun b => b.writeTo.out)) s :=
  ReadsAll.decodesAllFrom (MeterBands.readsAll bs s)

/-- C32 fails for every list that is not the receiver's own. -/
theorem meterBands_roundtrip_false (bs s : List MeterBand) (h : bs ≠ s) :
    ¬ DecodesAllFrom MeterBands.readFrom s (bs.flatMap (fun b => b.writeTo.out)) bs := by
  intro hd
  obtain ⟨r, hr, hc⟩ : ∃ r : Rd, r.Ok .eof ∧ r.content = bs.flatMap (fun b => b.writeTo.out) :=
    ⟨.src _ [] .eof true, rfl, rfl⟩
  exact h (hd r hr hc).1.symm

/-! ## Meter modification -/

/-- C32.  Wire format of a meter modification. -/
theorem meterMod_layout (m : MeterMod) :
    Encodes m.writeTo ∧
    Layout m.writeTo.out [.num 2 m.command.toNat, .num 2 m.flags.toNat, .num 4 m.meter.toNat,
      .raw (m.bands.flatMap (fun b => b.writeTo.out))] := by
  have h : m.bands.flatMap (fun b => b.writeTo.out) = MeterBands.bytes m.bands := rfl
  rw [h, MeterMod.out_eq]
  exact ⟨by simp [Encodes]; omega, by simp⟩

/-- C32.  Missing: the bands. -/
theorem meterMod_roundtrip_partial (m s : MeterMod) :
    DecodesAllFrom MeterMod.readFrom s m.writeTo.out { m with bands := s.bands } :=
  ReadsAll.decodesAllFrom (m.readsAll s)

theorem meterMod_loses_bands (s : MeterMod) (r : Rd) :
    (MeterMod.readFrom s r).val.bands = s.bands := MeterMod.keeps s r

theorem meterMod_roundtrip_false (m : MeterMod) (hb : m.bands ≠ []) :
    ¬ DecodesAllFrom MeterMod.readFrom ⟨0, 0, 0, []⟩ m.writeTo.out m :=
  MeterMod.keeps.not_decodesAllFrom hb

example : ∃ m : MeterMod, m.bands ≠ [] := ⟨⟨0, 1, 2, [.drop 1 2, .dscpRemark 3 4 5]⟩, by decide⟩

/-! ## Meter configuration -/

/-- C32.  Wire format of a meter configuration. -/
theorem meterConfig_layout (m : MeterConfig) (hs : m.writeTo.out.length ≤ 65535) :
    Encodes m.writeTo ∧
    Layout m.writeTo.out [.num 2 m.writeTo.out.length, .num 2 m.flags.toNat, .num 4 m.meter.toNat,
      .raw (m.bands.flatMap (fun b => b.writeTo.out))] := by
  have h : m.bands.flatMap (fun b => b.writeTo.out) = MeterBands.bytes m.bands := rfl
  have hl : m.writeTo.out.length = 8 + (MeterBands.bytes m.bands).length := by
    rw [MeterConfig.out_eq]; simp; omega
  rw [hl] at hs
  rw [h, hl]
  have := u16_ofNat_toNat hs
  refine ⟨by rw [Encodes, hl, MeterConfig.out_eq]; simp, ?_⟩
  rw [MeterConfig.out_eq]
  simp [-UInt16.toNat_ofNat', -UInt16.ofNat_add, this]

/-- C32.  Missing: the bands. -/
theorem meterConfig_roundtrip_partial (m s : MeterConfig) (hs : 8 + 16 * m.bands.length ≤ 65535) :
    DecodesFrom MeterConfig.readFrom s m.writeTo.out { m with bands := s.bands } :=
  Reads.decodesFrom (m.reads s hs)

theorem meterConfig_loses_bands (s : MeterConfig) (r : Rd) :
    (MeterConfig.readFrom s r).val.bands = s.bands := MeterConfig.keeps s r

theorem meterConfig_roundtrip_false (m : MeterConfig) (hb : m.bands ≠ []) :
    ¬ DecodesFrom MeterConfig.readFrom ⟨0, 0, []⟩ m.writeTo.out m :=
  MeterConfig.keeps.not_decodesFrom hb

example : ∃ m : MeterConfig, m.bands ≠ [] ∧ 8 + 16 * m.bands.length ≤ 65535 :=
  ⟨⟨1, 2, [.drop 1 2, .experimenter 3 4 5]⟩, by decide⟩

/-- C51 holds here: an entry whose header is not complete is reported. -/
theorem meterConfig_missing (s : MeterConfig) (r : Rd) (hr : r.Ok .eof) (hc : r.content.length < 8) :
    (MeterConfig.readFrom s r).err = some .eof ∨ (MeterConfig.readFrom s r).err = some .unexpectedEOF := by
  have hf : Flat (Enc.readFrom [
      Enc.num (fun v s => (s.1, v)), Enc.num (fun v s => ({ s.1 with flags := v }, s.2)),
      Enc.num (fun v s => ({ s.1 with meter := v }, s.2))] : Step (MeterConfig × UInt16)) 8 :=
    Flat.cons Flat.num <| Flat.cons Flat.num <| Flat.cons Flat.num Flat.nil
  unfold MeterConfig.readFrom
  simp only [Enc.withLocal]
  exact hf.prefix_err (s, 0) r hr hc

/-! ## Meter statistics -/

/-- C32.  Wire format of a meter statistics entry. -/
theorem meterStats_layout (m : MeterStats) (hs : m.writeTo.out.length ≤ 65535) :
    Encodes m.writeTo ∧
    Layout m.writeTo.out [.num 4 m.meter.toNat, .num 2 m.writeTo.out.length, .pad 6,
      .num 4 m.flowCount.toNat, .num 8 m.packetInCount.toNat, .num 8 m.byteInCount.toNat,
      .num 4 m.durationSec.toNat, .num 4 m.durationNSec.toNat,
      .raw (m.bandStats.flatMap (fun b => be b.packetBandCount ++ be b.byteBandCount))] := by
  have h : m.bandStats.flatMap (fun b => be b.packetBandCount ++ be b.byteBandCount) =
      MeterBandStatss.bytes m.bandStats := by
    simp [MeterBandStatss.bytes, MeterBandStats.writeTo, Enc.writeTo, Enc.gather]
  have hl : m.writeTo.out.length = 40 + (MeterBandStatss.bytes m.bandStats).length := by
    rw [MeterStats.out_eq]; simp; omega
  rw [hl] at hs
  rw [h, hl]
  have := u16_ofNat_toNat hs
  refine ⟨by rw [Encodes, hl, MeterStats.out_eq]; simp, ?_⟩
  rw [MeterStats.out_eq]
  simp [-UInt16.toNat_ofNat', -UInt16.ofNat_add, this]

/-- C32.  Missing: the band counters. -/
theorem meterStats_roundtrip_partial (m s : MeterStats) (hs : 40 + 16 * m.bandStats.length ≤ 65535) :
    DecodesFrom MeterStats.readFrom s m.writeTo.out { m with bandStats := s.bandStats } :=
  ReadsC.decodesFrom (m.reads s hs)

theorem meterStats_loses_bands (s : MeterStats) (r : Rd) :
    (MeterStats.readFrom s r).val.bandStats = s.bandStats := MeterStats.keeps s r

theorem meterStats_roundtrip_false (m : MeterStats) (hb : m.bandStats ≠ []) :
    ¬ DecodesFrom MeterStats.readFrom ⟨0, 0, 0, 0, 0, 0, []⟩ m.writeTo.out m :=
  MeterStats.keeps.not_decodesFrom hb

example : ∃ m : MeterStats, m.bandStats ≠ [] ∧ 40 + 16 * m.bandStats.length ≤ 65535 :=
  ⟨⟨1, 2, 3, 4, 5, 6, [⟨7, 8⟩]⟩, by decide⟩

/-- C51 fails: a meter statistics entry that is not there is reported as decoded. -/
theorem meterStats_missing_unreported (s : MeterStats) (r : Rd) (hr : r.Ok .eof)
    (hc : r.content.length < 40) :
    (MeterStats.readFrom s r).err = none ∧ (MeterStats.readFrom s r).n = r.content.length := by
  unfold MeterStats.readFrom
  simp only [Enc.withLocal]
  exact ignored_header (n := fun s => (s.2 - 40).toNat) MeterStats.header_flat MeterBandStats.eof (s, 0) r hr hc

/-- C51.  So a loop that decodes entries until the end of the input is reported never stops. -/
theorem meterStats_never_eof (s : MeterStats) (n : Nat) (r : Rd) (hr : r.Ok .eof)
    (hc : r.content = []) :
    (decodeMany MeterStats.readFrom s n r).1.length = n :=
  decodeMany_never MeterStats.readFrom_safe
    (fun r hr hc => (meterStats_missing_unreported s r hr (by simp [hc])).1) n r hr hc

end Verif.Props
