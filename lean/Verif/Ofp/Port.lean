import Verif.Ofp.Raw

/-!
# ofp/port.go (without the fixed-size statistics)
-/

namespace Verif

/-! ## Model -/

/-- `Port`, ofp/port.go:265-291. -/
structure Port where
  portNo : UInt32
  hwAddr : Bytes
  name : Bytes
  config : UInt32
  state : UInt32
  curr : UInt32
  advertised : UInt32
  supported : UInt32
  peer : UInt32
  currSpeed : UInt32
  maxSpeed : UInt32
  deriving DecidableEq, Repr, Inhabited

/-- The zero value. -/
def Port.zero : Port := ⟨0, [], [], 0, 0, 0, 0, 0, 0, 0, 0⟩

/-- `(p *Port) WriteTo`, ofp/port.go:295-303: the hardware address is written as it is,
whatever its length. -/
def Port.writeTo (p : Port) : Wr :=
  Enc.writeTo [.bin (be p.portNo), .bin (zeros 4), .bin p.hwAddr, .bin (zeros 2),
    .bin (copyTo p.name 16), .bin (be p.config), .bin (be p.state), .bin (be p.curr),
    .bin (be p.advertised), .bin (be p.supported), .bin (be p.peer), .bin (be p.currSpeed),
    .bin (be p.maxSpeed)]

/-- The fields that `(p *Port) ReadFrom` reads, ofp/port.go:308-313, with the local array
for the name. -/
def Port.fields : Step (Port × Bytes) :=
  Enc.readFrom [
    Enc.assign (fun s => ({ s.1 with hwAddr := zeros 6 }, s.2)),
    Enc.num (fun v s => ({ s.1 with portNo := v }, s.2)), Enc.skip 4,
    Enc.bin 6 (fun v s => ({ s.1 with hwAddr := v }, s.2)), Enc.skip 2,
    Enc.bin 16 (fun v s => (s.1, v)),
    Enc.num (fun v s => ({ s.1 with config := v }, s.2)),
    Enc.num (fun v s => ({ s.1 with state := v }, s.2)),
    Enc.num (fun v s => ({ s.1 with curr := v }, s.2)),
    Enc.num (fun v s => ({ s.1 with advertised := v }, s.2)),
    Enc.num (fun v s => ({ s.1 with supported := v }, s.2)),
    Enc.num (fun v s => ({ s.1 with peer := v }, s.2)),
    Enc.num (fun v s => ({ s.1 with currSpeed := v }, s.2)),
    Enc.num (fun v s => ({ s.1 with maxSpeed := v }, s.2))]

/-- `(p *Port) ReadFrom`, ofp/port.go:307-318: the name is set also on errors. -/
def Port.readFrom : Step Port :=
  Enc.withLocal (zeros 16) <| Enc.always (fun s => ({ s.1 with name := s.2 }, s.2)) Port.fields

/-- The loop of `(p *Ports) ReadFrom`, ofp/port.go:325-342.  Every successful round takes
64 bytes, so the fuel is never exhausted. -/
def Ports.loop : Nat → List Port → Nat → Rd → Out (List Port)
  | 0, acc, n, r => ⟨acc, n, some .noProgress, r⟩
  | fuel + 1, acc, n, r =>
    match Port.readFrom Port.zero r with
    | ⟨_, k, some .eof, r'⟩ => ⟨acc, n + k, none, r'⟩
    | ⟨p, k, some e, r'⟩ => ⟨acc ++ [p], n + k, some e, r'⟩
    | ⟨p, k, none, r'⟩ => Ports.loop fuel (acc ++ [p]) (n + k) r'

/-- `(p *Ports) ReadFrom`, ofp/port.go:325-342: appends to what the receiver holds. -/
def Ports.readFrom : Step (List Port) := fun s r => Ports.loop (r.content.length + 1) s 0 r

/-- `PortMod`, ofp/port.go:360-378. -/
structure PortMod where
  portNo : UInt32
  hwAddr : Bytes
  config : UInt32
  mask : UInt32
  advertise : UInt32
  deriving DecidableEq, Repr, Inhabited

/-- The zero value. -/
def PortMod.zero : PortMod := ⟨0, [], 0, 0, 0⟩

/-- `(p *PortMod) WriteTo`, ofp/port.go:382-386. -/
def PortMod.writeTo (p : PortMod) : Wr :=
  Enc.writeTo [.bin (be p.portNo), .bin (zeros 4), .bin p.hwAddr, .bin (zeros 2),
    .bin (be p.config), .bin (be p.mask), .bin (be p.advertise), .bin (zeros 4)]

/-- `(p *PortMod) ReadFrom`, ofp/port.go:390-394: `binary.Read` into `&p.HWAddr` reads as
many bytes as the slice of the receiver has, so none for a nil slice. -/
def PortMod.readFrom : Step PortMod :=
  Enc.readFrom [
    Enc.num (fun v s => { s with portNo := v }), Enc.skip 4,
    Enc.dyn (fun s => Enc.bin s.hwAddr.length (fun v s => { s with hwAddr := v })), Enc.skip 2,
    Enc.num (fun v s => { s with config := v }), Enc.num (fun v s => { s with mask := v }),
    Enc.num (fun v s => { s with advertise := v }), Enc.skip 4]

/-- `PortStatus`, ofp/port.go:413-419. -/
structure PortStatus where
  reason : UInt8
  port : Port
  deriving DecidableEq, Repr, Inhabited

/-- `(p *PortStatus) WriteTo`, ofp/port.go:423-425. -/
def PortStatus.writeTo (p : PortStatus) : Wr :=
  Enc.writeTo [.bin (be p.reason), .bin (zeros 7), .writer p.port.writeTo]

/-- `(p *PortStatus) ReadFrom`, ofp/port.go:429-431. -/
def PortStatus.readFrom : Step PortStatus :=
  Enc.readFrom [
    Enc.num (fun v s => { s with reason := v }), Enc.skip 7,
    Enc.sub (fun s => s.port) (fun v s => { s with port := v }) Port.readFrom]

/-! ## Helper lemmas -/

/-- The port as the receiver sees it: the name fills its field. -/
def Port.canonical (p : Port) : Port := { p with name := copyTo p.name 16 }

def Port.bytes (p : Port) : Bytes := p.writeTo.out

theorem Port.out_eq (p : Port) : p.writeTo =
    ⟨be p.portNo ++ (zeros 4 ++ (p.hwAddr ++ (zeros 2 ++ (copyTo p.name 16 ++ (be p.config ++
      (be p.state ++ (be p.curr ++ (be p.advertised ++ (be p.supported ++ (be p.peer ++
      (be p.currSpeed ++ be p.maxSpeed))))))))))), 58 + p.hwAddr.length, none⟩ := by
  simp [Port.writeTo, Enc.writeTo, Enc.gather]; omega

theorem Port.bytes_length (p : Port) : p.bytes.length = 58 + p.hwAddr.length := by
  rw [Port.bytes, Port.out_eq]; simp; omega

theorem Port.reads (p : Port) (hw : p.hwAddr.length = 6) (s : Port) :
    Reads Port.readFrom s p.bytes p.canonical := by
  rw [Port.bytes, Port.out_eq]
  unfold Port.readFrom
  refine Reads.withLocal (l' := copyTo p.name 16) ?_
  refine Reads.always (f := fun s : Port × Bytes => ({ s.1 with name := s.2 }, s.2))
    (s' := ({ p with name := s.name }, copyTo p.name 16)) ?_
  unfold Port.fields
  reads
  refine Reads.cons (Reads.bin hw) ?_
  reads
  refine Reads.cons (Reads.bin (by simp)) ?_
  reads

theorem Port.fieldSizes : Fields Port.readFrom [4, 4, 6, 2, 16, 4, 4, 4, 4, 4, 4, 4, 4] := by
  unfold Port.readFrom Port.fields
  exact Fields.withLocal <| Fields.always <| Fields.cons Fields.assign <| Fields.cons Fields.num <|
    Fields.cons Fields.skip <| Fields.cons Fields.bin <| Fields.cons Fields.skip <| Fields.cons Fields.bin <|
    Fields.cons Fields.num <| Fields.cons Fields.num <| Fields.cons Fields.num <| Fields.cons Fields.num <|
    Fields.cons Fields.num <| Fields.cons Fields.num <| Fields.cons Fields.num <|
    Fields.cons Fields.num Fields.nil

theorem Port.flat : Flat Port.readFrom 64 := Port.fieldSizes.1

theorem Port.readsAny (bs : Bytes) (h : bs.length = 64) :
    ∃ x, ∀ s, Reads Port.readFrom s bs x := by
  have hx : ∃ a b c d e f g i j k l, ∀ s : Port,
      Reads Port.fields (s, zeros 16) bs (⟨a, b, s.name, d, e, f, g, i, j, k, l⟩, c) :=
    ⟨_, _, _, _, _, _, _, _, _, _, _, fun s => by
      unfold Port.fields
      refine Reads.assignCons ?_
      readsAny⟩
  obtain ⟨a, b, c, d, e, f, g, i, j, k, l, hx⟩ := hx
  exact ⟨⟨a, b, c, d, e, f, g, i, j, k, l⟩, fun s => Reads.withLocal (l' := c) (Reads.always (hx s))⟩

theorem PortStatus.out_eq (p : PortStatus) : p.writeTo =
    ⟨be p.reason ++ (zeros 7 ++ p.port.bytes), 8 + p.port.bytes.length, none⟩ := by
  simp only [PortStatus.writeTo, Enc.writeTo, Enc.gather, Port.bytes]
  rw [Port.out_eq]
  simp; omega

theorem PortStatus.reads (p : PortStatus) (hw : p.port.hwAddr.length = 6) (s : PortStatus) :
    Reads PortStatus.readFrom s p.writeTo.out { p with port := p.port.canonical } := by
  rw [PortStatus.out_eq]
  unfold PortStatus.readFrom
  reads
  exact Reads.last (Reads.sub (p.port.reads hw _))

theorem PortStatus.flat : Flat PortStatus.readFrom 72 :=
  Flat.cons Flat.num <| Flat.cons Flat.skip <| Flat.cons (Flat.sub Port.flat) Flat.nil

theorem PortMod.out_eq (p : PortMod) : p.writeTo =
    ⟨be p.portNo ++ (zeros 4 ++ (p.hwAddr ++ (zeros 2 ++ (be p.config ++ (be p.mask ++
      (be p.advertise ++ zeros 4)))))), 26 + p.hwAddr.length, none⟩ := by
  simp [PortMod.writeTo, Enc.writeTo, Enc.gather]; omega

theorem PortMod.reads (p : PortMod) (s : PortMod) (hw : s.hwAddr.length = p.hwAddr.length) :
    Reads PortMod.readFrom s p.writeTo.out p := by
  rw [PortMod.out_eq]
  unfold PortMod.readFrom
  reads
  refine Reads.cons (Reads.dyn (Reads.bin hw.symm)) ?_
  reads

theorem PortMod.readFrom_safe : Safe ShortErr PortMod.readFrom := by
  unfold PortMod.readFrom; safe

theorem Port.eof : EndsEmpty Port.readFrom Port.zero :=
  EndsEmpty.withLocal (EndsEmpty.always (EndsEmpty.assignCons (readFrom_eof (k := 4) (by omega) _)))

theorem Ports.loop_reads (ps : List Port) (hw : ∀ p ∈ ps, p.hwAddr.length = 6) (F : Err) :
    ∀ (fuel : Nat) (acc : List Port) (n : Nat) (r : Rd), r.OkB F →
      r.FitsAll (ps.flatMap Port.bytes) → r.content.length < fuel →
      (F ≠ .eof ∧ (Ports.loop fuel acc n r).err = some F) ∨
      ∃ r', Ports.loop fuel acc n r =
        ⟨acc ++ ps.map Port.canonical, n + (ps.flatMap Port.bytes).length, none, r'⟩ ∧
        Rd.Adv (ps.flatMap Port.bytes).length r r' ∧ r'.OkB F := by
  induction ps with
  | nil =>
    intro fuel acc n r hr hf hl
    cases fuel with
    | zero => omega
    | succ fuel =>
      have hc : r.content = [] := by
        rcases hf with h | h
        · exact h.1
        · simpa using h.1
      obtain ⟨s, e, r', h1, h2, h3, h4⟩ := Port.eof F r hr hc
      rcases hf.end hr h2 with ⟨hF, he⟩ | ⟨_, he⟩
      · have : e = F := by
          unfold skipEOF at he; split at he <;> simp_all
        subst this
        exact .inl ⟨hF, by cases e <;> simp_all [Ports.loop]⟩
      · have : e = .eof := by
          unfold skipEOF at he; split at he <;> simp_all
        subst this
        exact .inr ⟨r', by simp [Ports.loop, h1], by simpa using h3, h4⟩
  | cons p ps ih =>
    intro fuel acc n r hr hf hl
    cases fuel with
    | zero => omega
    | succ fuel =>
      rw [List.flatMap_cons] at hf
      have hpl : p.bytes.length = 64 := by rw [Port.bytes_length, hw p (by simp)]
      rcases (p.reads (hw p (by simp)) Port.zero).run F r hr hf.fits.left with
        ⟨hF, he⟩ | ⟨r1, e1, a1, o1⟩
      · rcases hst : Port.readFrom Port.zero r with ⟨v, k, e, r1⟩
        rw [hst] at he
        simp only at he; subst he
        exact .inl ⟨hF, by cases F <;> simp_all [Ports.loop]⟩
      · have hl1 : r1.content.length < fuel := by
          have := a1.content.1
          rw [a1.content.2, List.length_drop]; omega
        rcases ih (fun q hq => hw q (by simp [hq])) fuel (acc ++ [p.canonical])
          (n + p.bytes.length) r1 o1 (hf.right a1) hl1 with ⟨hF, he⟩ | ⟨r2, e2, a2, o2⟩
        · exact .inl ⟨hF, by simp only [Ports.loop, e1, he]⟩
        · refine .inr ⟨r2, ?_, ?_, o2⟩
          · simp only [Ports.loop, e1, e2]
            rw [List.flatMap_cons, List.length_append, Nat.add_assoc]; simp
          · have := a1.trans a2
            rwa [List.flatMap_cons, List.length_append]

theorem Ports.readsAll (ps : List Port) (hw : ∀ p ∈ ps, p.hwAddr.length = 6) (s : List Port) :
    ReadsAll Ports.readFrom s (ps.flatMap Port.bytes) (s ++ ps.map Port.canonical) :=
  ⟨fun F r hr hf => by
    simpa [Out.Gets, Ports.readFrom] using
      Ports.loop_reads ps hw F (r.content.length + 1) s 0 r hr hf (by omega)⟩

theorem Ports.loop_safe : ∀ (fuel : Nat) (acc : List Port) (n m0 : Nat) (r0 r : Rd),
    r.Ok .eof → Rd.Adv m0 r0 r → n ≤ m0 → r.content.length < fuel →
    SafeAt ShortErr r0 (Ports.loop fuel acc n r) := by
  intro fuel
  induction fuel with
  | zero => intro acc n m0 r0 r _ _ _ h; omega
  | succ fuel ih =>
    intro acc n m0 r0 r hr ha hn hf
    obtain ⟨h1, h2, h3, h4⟩ := Port.flat Port.zero r hr
    rcases ho : Port.readFrom Port.zero r with ⟨v, k, ee, r'⟩
    rw [ho] at h1 h2 h3 h4
    simp only at h1 h2 h3 h4
    by_cases hk : 64 ≤ r.content.length
    · obtain ⟨h5, h6⟩ := h3 hk
      subst h5
      have hl : r'.content.length = r.content.length - k := by rw [h2.content.2]; simp
      have := ih (acc ++ [v]) (n + k) (m0 + k) r0 r' h1 (ha.trans h2) (by omega) (by omega)
      simpa [Ports.loop, ho] using this
    · obtain ⟨⟨e, h5, h6⟩, h7⟩ := h4 (by omega)
      subst h5
      have ha' := ha.trans h2
      rcases h6 with h6 | h6 <;> subst h6
      · simp only [Ports.loop, ho]
        exact ⟨⟨m0 + k, by simp only; omega, ha'⟩, h1, by simp⟩
      · simp only [Ports.loop, ho]
        exact ⟨⟨m0 + k, by simp only; omega, ha'⟩, h1, by simp [ShortErr]⟩

theorem Ports.loop_err : ∀ (fuel : Nat) (acc : List Port) (n : Nat) (r : Rd),
    r.Ok .eof → r.content.length < fuel →
    ((Ports.loop fuel acc n r).err = none ↔
      r.content.length % 64 ∈ [0, 4, 8, 14, 16, 32, 36, 40, 44, 48, 52, 56, 60]) ∧
    ((Ports.loop fuel acc n r).err = none ∨ (Ports.loop fuel acc n r).err = some .unexpectedEOF) := by
  intro fuel
  induction fuel with
  | zero => intro acc n r _ h; omega
  | succ fuel ih =>
    intro acc n r hr hf
    obtain ⟨h1, h2, h3, h4⟩ := Port.flat Port.zero r hr
    have h8 := Port.fieldSizes.2 Port.zero r hr
    rcases ho : Port.readFrom Port.zero r with ⟨v, k, ee, r'⟩
    rw [ho] at h1 h2 h3 h4 h8
    simp only at h1 h2 h3 h4 h8
    by_cases hk : 64 ≤ r.content.length
    · obtain ⟨h5, h6⟩ := h3 hk
      subst h5 h6
      have hl : r'.content.length = r.content.length - 64 := by rw [h2.content.2]; simp
      have := ih (acc ++ [v]) (n + 64) r' h1 (by omega)
      rw [hl, show (r.content.length - 64) % 64 = r.content.length % 64 by omega] at this
      simpa only [Ports.loop, ho] using this
    · obtain ⟨⟨e, h5, h6⟩, h7⟩ := h4 (by omega)
      subst h5
      have h9 := h8 (by have : [4, 4, 6, 2, 16, 4, 4, 4, 4, 4, 4, 4, 4].sum = 64 := by decide
                        omega)
      rw [show cuts [4, 4, 6, 2, 16, 4, 4, 4, 4, 4, 4, 4, 4] =
        [0, 4, 8, 14, 16, 32, 36, 40, 44, 48, 52, 56, 60] by decide] at h9
      rw [Nat.mod_eq_of_lt (by omega), ← h9]
      rcases h6 with h6 | h6 <;> subst h6 <;> simp [Ports.loop, ho]

theorem Ports.readFrom_safe : Safe ShortErr Ports.readFrom := fun s r hr =>
  Ports.loop_safe _ s 0 0 r r hr (Rd.Adv.refl r) (Nat.le_refl _) (by omega)

end Verif
