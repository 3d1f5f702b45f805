import Verif.Ofp.Group

/-!
# ofp/meter.go (without the fixed-size messages)
-/

namespace Verif

/-! ## Model -/

/-- The implementations of `MeterBand`: `MeterBandDrop`, ofp/meter.go:142-148,
`MeterBandDSCPRemark`, 173-183, `MeterBandExperimenter`, 207-216. -/
inductive MeterBand where
  | drop (rate burst : UInt32)
  | dscpRemark (rate burst : UInt32) (prec : UInt8)
  | experimenter (rate burst exp : UInt32)
  deriving DecidableEq, Repr, Inhabited

/-- The `Type` methods, ofp/meter.go:152-154, 187-189, 220-222, with the constants of
65-74 (`1 + iota` on the lines 0 and 1 of the block). -/
def MeterBand.type : MeterBand → UInt16
  | .drop .. => 1
  | .dscpRemark .. => 2
  | .experimenter .. => 0xffff

/-- A `meterBand` header, ofp/meter.go:84-90. -/
def meterBandHeader (t : UInt16) : WElem := .bin (be t ++ be (16 : UInt16))

/-- The `WriteTo` methods of the bands. -/
def MeterBand.writeTo (b : MeterBand) : Wr :=
  match b with
  -- ofp/meter.go:158-161
  | .drop r u => Enc.writeTo [meterBandHeader b.type, .bin (be r), .bin (be u), .bin (zeros 4)]
  -- ofp/meter.go:193-197
  | .dscpRemark r u p =>
    Enc.writeTo [meterBandHeader b.type, .bin (be r), .bin (be u), .bin (be p), .bin (zeros 3)]
  -- ofp/meter.go:226-230
  | .experimenter r u e =>
    Enc.writeTo [meterBandHeader b.type, .bin (be r), .bin (be u), .bin (be e)]

/-- The `ReadFrom` methods of the bands.  The header goes to a temporary that is never
looked at (one `binary.Read` of four bytes). -/
def MeterBand.readFrom : Step MeterBand := fun b r =>
  match b with
  -- ofp/meter.go:165-168
  | .drop r0 u0 => Enc.wrap (fun s : UInt32 × UInt32 => MeterBand.drop s.1 s.2)
      (Enc.readFrom [Enc.skip 4, Enc.num (fun v s => (v, s.2)), Enc.num (fun v s => (s.1, v)),
        Enc.skip 4]) (r0, u0) r
  -- ofp/meter.go:201-204
  | .dscpRemark r0 u0 p0 =>
      Enc.wrap (fun s : UInt32 × UInt32 × UInt8 => MeterBand.dscpRemark s.1 s.2.1 s.2.2)
      (Enc.readFrom [Enc.skip 4, Enc.num (fun v s => (v, s.2)), Enc.num (fun v s => (s.1, v, s.2.2)),
        Enc.num (fun v s => (s.1, s.2.1, v)), Enc.skip 3]) (r0, u0, p0) r
  -- ofp/meter.go:234-237
  | .experimenter r0 u0 e0 =>
      Enc.wrap (fun s : UInt32 × UInt32 × UInt32 => MeterBand.experimenter s.1 s.2.1 s.2.2)
      (Enc.readFrom [Enc.skip 4, Enc.num (fun v s => (v, s.2)), Enc.num (fun v s => (s.1, v, s.2.2)),
        Enc.num (fun v s => (s.1, s.2.1, v))]) (r0, u0, e0) r

/-- `meterBandMap`, ofp/meter.go:76-80, and the reader maker, 125-134. -/
def meterBandMake (code : UInt16) : Except Err MeterBand :=
  match code.toNat with
  | 1 => .ok (.drop 0 0)
  | 2 => .ok (.dscpRemark 0 0 0)
  | 65535 => .ok (.experimenter 0 0 0)
  | _ => .error .unknownType

/-- `(m MeterBands) WriteTo`, ofp/meter.go:104-117: the bands go to the writer one by one.
Here the writer does not fail (see Verif/Dest.lean; all callers pass a buffer). -/
def MeterBands.writeTo (bs : List MeterBand) : Wr := Enc.writeSliceTo (bs.map MeterBand.writeTo)

/-- The body of `(m MeterBands) ReadFrom`, ofp/meter.go:121-138, on the method's own copy of
the list. -/
def MeterBands.scan : Step (List MeterBand) := Enc.scanFrom meterBandMake MeterBand.readFrom

/-- `(m MeterBands) ReadFrom`, ofp/meter.go:121-138, as the caller sees it: the receiver is
a value, so the caller's list is unchanged. -/
def MeterBands.readFrom : Step (List MeterBand) := Enc.subVal id MeterBands.scan

/-- `MeterMod`, ofp/meter.go:256-273. -/
structure MeterMod where
  command : UInt16
  flags : UInt16
  meter : UInt32
  bands : List MeterBand
  deriving DecidableEq, Repr, Inhabited

/-- `(m *MeterMod) WriteTo`, ofp/meter.go:277-279. -/
def MeterMod.writeTo (m : MeterMod) : Wr :=
  Enc.writeTo [.bin (be m.command), .bin (be m.flags), .bin (be m.meter),
    .writer (MeterBands.writeTo m.bands)]

/-- `(m *MeterMod) ReadFrom`, ofp/meter.go:283-285. -/
def MeterMod.readFrom : Step MeterMod :=
  Enc.readFrom [
    Enc.num (fun v s => { s with command := v }), Enc.num (fun v s => { s with flags := v }),
    Enc.num (fun v s => { s with meter := v }),
    Enc.sub (fun s => s.bands) (fun v s => { s with bands := v }) MeterBands.readFrom]

/-- `MeterConfig`, ofp/meter.go:312-321. -/
structure MeterConfig where
  flags : UInt16
  meter : UInt32
  bands : List MeterBand
  deriving DecidableEq, Repr, Inhabited

/-- `(m *MeterConfig) WriteTo`, ofp/meter.go:325-336. -/
def MeterConfig.writeTo (m : MeterConfig) : Wr :=
  let buf := MeterBands.writeTo m.bands
  match buf.err with
  | some e => ⟨[], 0, some e⟩
  | none => Enc.writeTo [.bin (be (UInt16.ofNat (8 + buf.out.length))), .bin (be m.flags),
      .bin (be m.meter), .bin buf.out]

/-- `(m *MeterConfig) ReadFrom`, ofp/meter.go:340-354. -/
def MeterConfig.readFrom : Step MeterConfig :=
  Enc.withLocal (0 : UInt16) <| Enc.readFrom [
    Enc.num (fun v s => (s.1, v)), Enc.num (fun v s => ({ s.1 with flags := v }, s.2)),
    Enc.num (fun v s => ({ s.1 with meter := v }, s.2)),
    Enc.dyn (fun s => Enc.limited (s.2 - 8).toNat
      (Enc.sub (fun s => s.1.bands) (fun v s => ({ s.1 with bands := v }, s.2)) MeterBands.readFrom))]

/-- `MeterStats`, ofp/meter.go:441-463. -/
structure MeterStats where
  meter : UInt32
  flowCount : UInt32
  packetInCount : UInt64
  byteInCount : UInt64
  durationSec : UInt32
  durationNSec : UInt32
  bandStats : List MeterBandStats
  deriving DecidableEq, Repr, Inhabited

/-- `(m *MeterStats) WriteTo`, ofp/meter.go:467-483. -/
def MeterStats.writeTo (m : MeterStats) : Wr :=
  let buf := Enc.writeSliceTo (m.bandStats.map MeterBandStats.writeTo)
  match buf.err with
  | some e => ⟨[], 0, some e⟩
  | none => Enc.writeTo [.bin (be m.meter), .bin (be (UInt16.ofNat (40 + buf.out.length))),
      .bin (zeros 6), .bin (be m.flowCount), .bin (be m.packetInCount), .bin (be m.byteInCount),
      .bin (be m.durationSec), .bin (be m.durationNSec), .bin buf.out]

/-- The header of `(m *MeterStats) ReadFrom`, ofp/meter.go:492-494. -/
def MeterStats.header : Step (MeterStats × UInt16) := Enc.readFrom [
  Enc.num (fun v s => ({ s.1 with meter := v }, s.2)), Enc.num (fun v s => (s.1, v)),
  Enc.skip 6, Enc.num (fun v s => ({ s.1 with flowCount := v }, s.2)),
  Enc.num (fun v s => ({ s.1 with packetInCount := v }, s.2)),
  Enc.num (fun v s => ({ s.1 with byteInCount := v }, s.2)),
  Enc.num (fun v s => ({ s.1 with durationSec := v }, s.2)),
  Enc.num (fun v s => ({ s.1 with durationNSec := v }, s.2))]

/-- `(m *MeterStats) ReadFrom`, ofp/meter.go:487-501: the error of the header is overwritten
by that of the list. -/
def MeterStats.readFrom : Step MeterStats :=
  Enc.withLocal (0 : UInt16) <| Enc.readFrom [
    Enc.ignoreErr MeterStats.header,
    Enc.dyn (fun s => Enc.limited (s.2 - 40).toNat
      (Enc.sub (fun s => s.1.bandStats) (fun v s => ({ s.1 with bandStats := v }, s.2))
        (Enc.readSliceFrom ⟨0, 0⟩ MeterBandStats.readFrom)))]

/-! ## Helper lemmas -/

def MeterBand.bytes (b : MeterBand) : Bytes := b.writeTo.out

def MeterBand.zero : MeterBand → MeterBand
  | .drop .. => .drop 0 0
  | .dscpRemark .. => .dscpRemark 0 0 0
  | .experimenter .. => .experimenter 0 0 0

theorem MeterBand.writeTo_eq (b : MeterBand) : b.writeTo = ⟨b.bytes, 16, none⟩ := by
  cases b <;> simp [MeterBand.bytes, MeterBand.writeTo, Enc.writeTo, Enc.gather, meterBandHeader]

theorem MeterBand.bytes_length (b : MeterBand) : b.bytes.length = 16 := by
  cases b <;> simp [MeterBand.bytes, MeterBand.writeTo, Enc.writeTo, Enc.gather, meterBandHeader]

theorem MeterBand.bytes_type (b : MeterBand) : ∃ t, b.bytes = be b.type ++ t := by
  cases b <;> simp [MeterBand.bytes, MeterBand.writeTo, Enc.writeTo, Enc.gather, meterBandHeader,
    MeterBand.type]

theorem meterBandMake_type (b : MeterBand) : meterBandMake b.type = .ok b.zero := by cases b <;> rfl

theorem MeterBand.reads' (b s : MeterBand) (hs : s.type = b.type) :
    Reads MeterBand.readFrom s b.bytes b := by
  cases b with
  | drop x y =>
    obtain ⟨p, q, rfl⟩ : ∃ p q, s = .drop p q := by cases s <;> simp_all [MeterBand.type]
    have h := Reads.cons (Reads.skip (s := ((p, q) : UInt32 × UInt32)) (k := 4)
        (b := be (1 : UInt16) ++ be (16 : UInt16)) (by simp))
      (Reads.cons (Reads.num (set := fun v s => (v, s.2)) x)
        (Reads.cons (Reads.num (set := fun v s => (s.1, v)) y)
          (Reads.last (Reads.skip (k := 4) (zeros_length 4)))))
    have := Reads.wrap (dec := MeterBand.readFrom) (s := .drop p q)
      (f := fun s : UInt32 × UInt32 => MeterBand.drop s.1 s.2) h (fun r => rfl)
    simpa [MeterBand.bytes, MeterBand.writeTo, Enc.writeTo, Enc.gather, meterBandHeader, MeterBand.type] using this
  | dscpRemark x y z =>
    obtain ⟨p, q, o, rfl⟩ : ∃ p q o, s = .dscpRemark p q o := by cases s <;> simp_all [MeterBand.type]
    have h := Reads.cons (Reads.skip (s := ((p, q, o) : UInt32 × UInt32 × UInt8)) (k := 4)
        (b := be (2 : UInt16) ++ be (16 : UInt16)) (by simp))
      (Reads.cons (Reads.num (set := fun v s => (v, s.2)) x)
        (Reads.cons (Reads.num (set := fun v s => (s.1, v, s.2.2)) y)
          (Reads.cons (Reads.num (set := fun v s => (s.1, s.2.1, v)) z)
            (Reads.last (Reads.skip (k := 3) (zeros_length 3))))))
    have := Reads.wrap (dec := MeterBand.readFrom) (s := .dscpRemark p q o)
      (f := fun s : UInt32 × UInt32 × UInt8 => MeterBand.dscpRemark s.1 s.2.1 s.2.2) h (fun r => rfl)
    simpa [MeterBand.bytes, MeterBand.writeTo, Enc.writeTo, Enc.gather, meterBandHeader, MeterBand.type] using this
  | experimenter x y z =>
    obtain ⟨p, q, o, rfl⟩ : ∃ p q o, s = .experimenter p q o := by cases s <;> simp_all [MeterBand.type]
    have h := Reads.cons (Reads.skip (s := ((p, q, o) : UInt32 × UInt32 × UInt32)) (k := 4)
        (b := be (65535 : UInt16) ++ be (16 : UInt16)) (by simp))
      (Reads.cons (Reads.num (set := fun v s => (v, s.2)) x)
        (Reads.cons (Reads.num (set := fun v s => (s.1, v, s.2.2)) y)
          (Reads.last (Reads.num (set := fun v s => (s.1, s.2.1, v)) z))))
    have := Reads.wrap (dec := MeterBand.readFrom) (s := .experimenter p q o)
      (f := fun s : UInt32 × UInt32 × UInt32 => MeterBand.experimenter s.1 s.2.1 s.2.2) h (fun r => rfl)
    simpa [MeterBand.bytes, MeterBand.writeTo, Enc.writeTo, Enc.gather, meterBandHeader, MeterBand.type] using this

theorem MeterBand.flat : Flat MeterBand.readFrom 16 := by
  intro b r hr
  cases b with
  | drop p q =>
    exact (Flat.cons Flat.skip <| Flat.cons Flat.num <| Flat.cons Flat.num <| Flat.cons Flat.skip Flat.nil :
      Flat _ 16) (p, q) r hr
  | dscpRemark p q o =>
    exact (Flat.cons Flat.skip <| Flat.cons Flat.num <| Flat.cons Flat.num <| Flat.cons Flat.num <|
      Flat.cons Flat.skip Flat.nil : Flat _ 16) (p, q, o) r hr
  | experimenter p q o =>
    exact (Flat.cons Flat.skip <| Flat.cons Flat.num <| Flat.cons Flat.num <| Flat.cons Flat.num Flat.nil :
      Flat _ 16) (p, q, o) r hr

def MeterBands.bytes (bs : List MeterBand) : Bytes := bs.flatMap MeterBand.bytes

theorem MeterBands.writeTo_eq (bs : List MeterBand) :
    MeterBands.writeTo bs = ⟨MeterBands.bytes bs, (MeterBands.bytes bs).length, none⟩ :=
  writeSliceTo_map MeterBand.writeTo MeterBand.bytes bs
    (fun x _ => by rw [x.writeTo_eq, x.bytes_length])

theorem MeterBands.bytes_length (bs : List MeterBand) :
    (MeterBands.bytes bs).length = 16 * bs.length := by
  induction bs with
  | nil => rfl
  | cons b bs ih =>
    have : MeterBands.bytes (b :: bs) = b.bytes ++ MeterBands.bytes bs := rfl
    rw [this, List.length_append, ih, List.length_cons, b.bytes_length]; omega

theorem MeterBands.scan_readsAll (bs s : List MeterBand) :
    ReadsAll MeterBands.scan s (MeterBands.bytes bs) (s ++ bs) :=
  ReadsAll.scanFrom (enc := MeterBand.bytes) (zero := MeterBand.zero) (code := MeterBand.type) s bs
    (fun b _ => b.reads' _ (by cases b <;> rfl)) (fun b _ => meterBandMake_type b)
    (fun b _ => b.bytes_type)

theorem MeterBands.readsAll (bs s : List MeterBand) :
    ReadsAll MeterBands.readFrom s (MeterBands.bytes bs) s :=
  ReadsAll.subVal (MeterBands.scan_readsAll bs _)

theorem meterBandMake_err (c : UInt16) (e : Err) (h : meterBandMake c = .error e) :
    e = .unknownType := by
  unfold meterBandMake at h
  split at h <;> simp at h
  exact h.symm

theorem MeterBands.readFrom_safe : Safe DecErr MeterBands.readFrom :=
  Safe.subVal (Safe.scanFrom MeterBand.flat.safe (MeterBand.flat.moves (by omega))
    (fun c e h => by simp [DecErr, meterBandMake_err c e h]))

theorem MeterMod.out_eq (m : MeterMod) : m.writeTo =
    ⟨be m.command ++ (be m.flags ++ (be m.meter ++ MeterBands.bytes m.bands)),
      8 + (MeterBands.bytes m.bands).length, none⟩ := by
  simp [MeterMod.writeTo, Enc.writeTo, Enc.gather, MeterBands.writeTo_eq]; omega

theorem MeterMod.readsAll (m s : MeterMod) :
    ReadsAll MeterMod.readFrom s m.writeTo.out { m with bands := s.bands } := by
  rw [MeterMod.out_eq]
  unfold MeterMod.readFrom
  reads
  exact ReadsAll.last (ReadsAll.sub (MeterBands.readsAll _ _))

theorem MeterMod.readFrom_safe : Safe DecErr MeterMod.readFrom := by
  have h := MeterBands.readFrom_safe
  unfold MeterMod.readFrom; safe

theorem MeterMod.keeps : Keeps (fun m : MeterMod => m.bands) MeterMod.readFrom :=
  Keeps.cons (Keeps.num fun _ _ => rfl) <| Keeps.cons (Keeps.num fun _ _ => rfl) <|
  Keeps.cons (Keeps.num fun _ _ => rfl) <| Keeps.cons (Keeps.sub fun _ _ => rfl) Keeps.nil

theorem MeterConfig.out_eq (m : MeterConfig) : m.writeTo =
    ⟨be (UInt16.ofNat (8 + (MeterBands.bytes m.bands).length)) ++ (be m.flags ++ (be m.meter ++
      MeterBands.bytes m.bands)), 8 + (MeterBands.bytes m.bands).length, none⟩ := by
  simp [MeterConfig.writeTo, Enc.writeTo, Enc.gather, MeterBands.writeTo_eq]; omega

theorem MeterConfig.reads (m s : MeterConfig) (hs : 8 + 16 * m.bands.length ≤ 65535) :
    Reads MeterConfig.readFrom s m.writeTo.out { m with bands := s.bands } := by
  rw [← MeterBands.bytes_length] at hs
  rw [MeterConfig.out_eq]
  unfold MeterConfig.readFrom
  refine Reads.withLocal (l' := UInt16.ofNat (8 + (MeterBands.bytes m.bands).length)) ?_
  reads
  exact Reads.last (Reads.dyn (Reads.limited (ReadsAll.sub (MeterBands.readsAll _ _))
    (u16_ofNat_sub (c := 8) hs)))

theorem MeterConfig.readFrom_safe : Safe DecErr MeterConfig.readFrom := by
  have h := MeterBands.readFrom_safe
  unfold MeterConfig.readFrom; safe

theorem MeterConfig.keeps : Keeps (fun m : MeterConfig => m.bands) MeterConfig.readFrom :=
  Keeps.withLocal <|
  Keeps.cons (Keeps.num fun _ _ => rfl) <| Keeps.cons (Keeps.num fun _ _ => rfl) <|
  Keeps.cons (Keeps.num fun _ _ => rfl) <|
  Keeps.cons (Keeps.dyn fun _ => Keeps.limited (Keeps.sub fun _ _ => rfl)) Keeps.nil

def MeterBandStatss.bytes (bs : List MeterBandStats) : Bytes := bs.flatMap (fun b => b.writeTo.out)

theorem MeterBandStatss.writeTo_eq (bs : List MeterBandStats) :
    Enc.writeSliceTo (bs.map MeterBandStats.writeTo) =
    ⟨MeterBandStatss.bytes bs, (MeterBandStatss.bytes bs).length, none⟩ :=
  writeSliceTo_map MeterBandStats.writeTo (fun b => b.writeTo.out) bs
    (fun x _ => by simp [MeterBandStats.writeTo, Enc.writeTo, Enc.gather])

theorem MeterBandStatss.bytes_length (bs : List MeterBandStats) :
    (MeterBandStatss.bytes bs).length = 16 * bs.length := by
  induction bs with
  | nil => rfl
  | cons b bs ih =>
    have : (MeterBandStatss.bytes (b :: bs)) = b.writeTo.out ++ MeterBandStatss.bytes bs := rfl
    rw [this, List.length_append, ih, List.length_cons]
    simp [MeterBandStats.writeTo, Enc.writeTo, Enc.gather]
    omega

theorem MeterBandStats.eof : EndsEmpty MeterBandStats.readFrom ⟨0, 0⟩ :=
  readFrom_eof (k := 8) (by omega) _

theorem MeterBandStatss.readsAll (s bs : List MeterBandStats) :
    ReadsAll (Enc.readSliceFrom ⟨0, 0⟩ MeterBandStats.readFrom) s (MeterBandStatss.bytes bs) s :=
  ReadsAll.readSliceFrom s bs (fun b _ => b.reads _)
    (fun b _ => by simp [MeterBandStats.writeTo, Enc.writeTo, Enc.gather]) MeterBandStats.eof

theorem MeterStats.out_eq (m : MeterStats) : m.writeTo =
    ⟨(be m.meter ++ (be (UInt16.ofNat (40 + (MeterBandStatss.bytes m.bandStats).length)) ++ (zeros 6 ++
      (be m.flowCount ++ (be m.packetInCount ++ (be m.byteInCount ++ (be m.durationSec ++
        be m.durationNSec))))))) ++ MeterBandStatss.bytes m.bandStats,
      40 + (MeterBandStatss.bytes m.bandStats).length, none⟩ := by
  simp [MeterStats.writeTo, Enc.writeTo, Enc.gather, MeterBandStatss.writeTo_eq]; omega

theorem MeterStats.reads (m s : MeterStats) (hs : 40 + 16 * m.bandStats.length ≤ 65535) :
    ReadsC MeterStats.readFrom s m.writeTo.out { m with bandStats := s.bandStats } := by
  rw [← MeterBandStatss.bytes_length] at hs
  rw [MeterStats.out_eq]
  unfold MeterStats.readFrom
  refine ReadsC.withLocal (l' := UInt16.ofNat (40 + (MeterBandStatss.bytes m.bandStats).length)) ?_
  refine ReadsC.ignoreErr (Reads.cons (s1 := ({ m with bandStats := s.bandStats },
    UInt16.ofNat (40 + (MeterBandStatss.bytes m.bandStats).length))) ?_ ?_)
  · unfold MeterStats.header
    reads
  · exact Reads.last (Reads.dyn (Reads.limited (ReadsAll.sub (MeterBandStatss.readsAll _ _))
      (u16_ofNat_sub (c := 40) hs)))

theorem MeterStats.header_flat : Flat MeterStats.header 40 :=
  Flat.cons Flat.num <| Flat.cons Flat.num <| Flat.cons Flat.skip <| Flat.cons Flat.num <|
  Flat.cons Flat.num <| Flat.cons Flat.num <| Flat.cons Flat.num <| Flat.cons Flat.num Flat.nil

theorem MeterStats.readFrom_safe : Safe ShortErr MeterStats.readFrom := by
  have h : Safe ShortErr (Enc.readSliceFrom ⟨0, 0⟩ MeterBandStats.readFrom) :=
    Safe.readSliceFrom MeterBandStats.flat.safe (MeterBandStats.flat.moves (by omega))
  unfold MeterStats.readFrom
  refine Safe.withLocal (Safe.cons (Safe.ignoreErr (E' := ShortErr) MeterStats.header_flat.safe) ?_)
  safe

theorem MeterStats.keeps : Keeps (fun m : MeterStats => m.bandStats) MeterStats.readFrom :=
  Keeps.withLocal <| Keeps.cons (Keeps.ignoreErr <|
    Keeps.cons (Keeps.num fun _ _ => rfl) <| Keeps.cons (Keeps.num fun _ _ => rfl) <|
    Keeps.cons Keeps.skip <| Keeps.cons (Keeps.num fun _ _ => rfl) <|
    Keeps.cons (Keeps.num fun _ _ => rfl) <| Keeps.cons (Keeps.num fun _ _ => rfl) <|
    Keeps.cons (Keeps.num fun _ _ => rfl) <| Keeps.cons (Keeps.num fun _ _ => rfl) Keeps.nil) <|
  Keeps.cons (Keeps.dyn fun _ => Keeps.limited (Keeps.sub fun _ _ => rfl)) Keeps.nil

end Verif
