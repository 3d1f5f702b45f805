import Verif.Ofp.Port
import Verif.Props.Raw

/-!
# Properties C37 (ports), C38 (port names) and the port part of C40 and C42
-/

namespace Verif.Props

open Verif

/-! ## C37, C38 -/

/-- C37, C38.  Wire format of a port description (OpenFlow 1.3.5, section 7.2.1): the
hardware address at offset 8, the name NUL padded or truncated to 16 bytes at offset 16. -/
theorem port_layout (p : Port) : ∃ name, FieldText 16 p.name name ∧
    Layout p.writeTo.out [.num 4 p.portNo.toNat, .pad 4, .raw p.hwAddr, .pad 2, .raw name,
      .num 4 p.config.toNat, .num 4 p.state.toNat, .num 4 p.curr.toNat, .num 4 p.advertised.toNat,
      .num 4 p.supported.toNat, .num 4 p.peer.toNat, .num 4 p.currSpeed.toNat,
      .num 4 p.maxSpeed.toNat] := by
  refine ⟨_, copyTo_fieldText 16 p.name, ?_⟩
  rw [Port.out_eq]; simp

/-- C37.  Round trip of a port with a 6-byte hardware address.  The name comes back as the
16 bytes of its field. -/
theorem port_roundtrip (p : Port) (hw : p.hwAddr.length = 6) : ∃ p' : Port,
    Encodes p.writeTo ∧ p.writeTo.out.length = 64 ∧ Decodes Port.readFrom p.writeTo.out p' ∧
    FieldText 16 p.name p'.name ∧ p' = { p with name := p'.name } := by
  refine ⟨p.canonical, ?_, ?_, Reads.decodes (p.reads hw), copyTo_fieldText 16 _, rfl⟩
  · rw [Port.out_eq]; simp [Encodes]; omega
  · have := p.bytes_length; rw [Port.bytes] at this; omega

/-- C37.  A port whose name fills its field comes back unchanged. -/
theorem port_roundtrip_exact (p : Port) (hw : p.hwAddr.length = 6) (hn : p.name.length = 16) :
    Decodes Port.readFrom p.writeTo.out p := by
  have h := Reads.decodes (dec := Port.readFrom) (p.reads hw)
  rwa [show p.canonical = p by simp [Port.canonical, copyTo_full _ _ hn]] at h

example : ∃ p : Port, p.hwAddr.length = 6 ∧ p.name.length = 16 :=
  ⟨⟨1, [1, 2, 3, 4, 5, 6], zeros 16, 1, 2, 3, 4, 5, 6, 7, 8⟩, by decide⟩

/-- C38.  A shorter name does not come back as it was: the padding is kept. -/
theorem port_name_padded (p : Port) (hw : p.hwAddr.length = 6) (hn : p.name.length < 16) :
    ¬ Decodes Port.readFrom p.writeTo.out p := by
  intro h
  let r : Rd := .src p.writeTo.out [] .eof false
  have hr : r.Ok .eof := rfl
  have h1 := h Port.zero r [] hr (by simp [r, Rd.content])
  have h2 := Reads.decodes (dec := Port.readFrom) (p.reads hw) Port.zero r [] hr
    (by simp [r, Rd.content, Port.bytes])
  have h3 : p = p.canonical := h1.1.symm.trans h2.1
  have h4 := congrArg (fun q : Port => q.name.length) h3
  simp [Port.canonical] at h4
  omega

/-- C37.  A port is 64 bytes: with fewer the decoder reports the end of the input, with
more it leaves the rest. -/
theorem port_fixed : FixedSize Port.readFrom 64 := Port.flat.fixed

/-- C37.  Whatever 64 bytes are decoded, the result does not depend on the receiver. -/
theorem port_overwrites : Overwrites Port.readFrom 64 := fun bs h =>
  let ⟨x, hx⟩ := Port.readsAny bs h
  ⟨x, Reads.decodes hx⟩

/-- C37.  Wire format of a port status message. -/
theorem portStatus_layout (p : PortStatus) :
    Layout p.writeTo.out [.num 1 p.reason.toNat, .pad 7, .raw p.port.writeTo.out] := by
  rw [PortStatus.out_eq]; simp [Port.bytes]

theorem portStatus_roundtrip (p : PortStatus) (hw : p.port.hwAddr.length = 6) :
    Encodes p.writeTo ∧ ∃ port : Port, FieldText 16 p.port.name port.name ∧
      port = { p.port with name := port.name } ∧
      Decodes PortStatus.readFrom p.writeTo.out ⟨p.reason, port⟩ := by
  refine ⟨?_, p.port.canonical, copyTo_fieldText 16 _, rfl, Reads.decodes (p.reads hw)⟩
  rw [PortStatus.out_eq]; simp [Encodes]; omega

theorem portStatus_fixed : FixedSize PortStatus.readFrom 72 := PortStatus.flat.fixed

/-- C37.  Wire format of a port modification. -/
theorem portMod_layout (p : PortMod) :
    Layout p.writeTo.out [.num 4 p.portNo.toNat, .pad 4, .raw p.hwAddr, .pad 2,
      .num 4 p.config.toNat, .num 4 p.mask.toNat, .num 4 p.advertise.toNat, .pad 4] := by
  rw [PortMod.out_eq]; simp

/-- C37.  Missing: decoding into a receiver whose hardware address is not already 6 bytes
long, in particular into the zero value (see `portMod_zero_fails`). -/
theorem portMod_roundtrip_partial (p s : PortMod) (hw : p.hwAddr.length = 6)
    (hs : s.hwAddr.length = 6) (r : Rd) (tail : Bytes) (hr : r.Ok .eof)
    (hc : r.content = p.writeTo.out ++ tail) :
    Encodes p.writeTo ∧ (PortMod.readFrom s r).val = p ∧ (PortMod.readFrom s r).err = none ∧
      (PortMod.readFrom s r).n = 32 ∧ (PortMod.readFrom s r).rd.content = tail := by
  obtain ⟨r', h1, h2, _⟩ := p.reads s (hs.trans hw.symm) r tail hr hc
  have hl : p.writeTo.out.length = 32 := by rw [PortMod.out_eq]; simp; omega
  refine ⟨?_, ?_⟩
  · rw [PortMod.out_eq]; simp [Encodes]; omega
  · rw [h1]
    refine ⟨rfl, rfl, hl, ?_⟩
    simp only
    rw [h2.content.2, hc]; simp

example : ∃ p s : PortMod, p.hwAddr.length = 6 ∧ s.hwAddr.length = 6 ∧ p ≠ s :=
  ⟨⟨1, [1, 2, 3, 4, 5, 6], 1, 2, 3⟩, ⟨0, zeros 6, 0, 0, 0⟩, by decide⟩

/-- C37.  Decoding a port modification into the zero value: the hardware address is not
read, six bytes stay in the stream and what is reported as the configuration is taken from
the address: bytes 2 to 5 of it. -/
theorem portMod_zero_fails (p : PortMod) (a b c d e f : UInt8) (hw : p.hwAddr = [a, b, c, d, e, f])
    (r : Rd) (tail : Bytes) (hr : r.Ok .eof) (hc : r.content = p.writeTo.out ++ tail) :
    (PortMod.readFrom PortMod.zero r).err = none ∧
    (PortMod.readFrom PortMod.zero r).n = 26 ∧
    (PortMod.readFrom PortMod.zero r).val.hwAddr = [] ∧
    (PortMod.readFrom PortMod.zero r).val.config = ofBE UInt32 [c, d, e, f] ∧
    (PortMod.readFrom PortMod.zero r).rd.content =
      (be p.advertise).drop 2 ++ (zeros 4 ++ tail) := by
  let q : PortMod := ⟨p.portNo, [], ofBE UInt32 [c, d, e, f], ofBE UInt32 (zeros 2 ++ (be p.config).take 2),
    ofBE UInt32 ((be p.config).drop 2 ++ (be p.mask).take 2)⟩
  have hadv : (be p.advertise).length = 4 := by simp
  have hcfg : (be p.config).length = 4 := by simp
  have hmsk : (be p.mask).length = 4 := by simp
  have hp : r.content = (be p.portNo ++ (zeros 4 ++ ([] ++ ([a, b] ++ ([c, d, e, f] ++
      ((zeros 2 ++ (be p.config).take 2) ++ (((be p.config).drop 2 ++ (be p.mask).take 2) ++
      ((be p.mask).drop 2 ++ (be p.advertise).take 2)))))))) ++
      ((be p.advertise).drop 2 ++ (zeros 4 ++ tail)) := by
    rw [hc, PortMod.out_eq]
    simp only [hw]
    have e : ∀ x t : Bytes, x.take 2 ++ (x.drop 2 ++ t) = x ++ t := fun x t => by
      rw [← List.append_assoc, List.take_append_drop]
    simp [e]
  have hreads : Reads PortMod.readFrom PortMod.zero (be p.portNo ++ (zeros 4 ++ ([] ++ ([a, b] ++ ([c, d, e, f] ++
      ((zeros 2 ++ (be p.config).take 2) ++ (((be p.config).drop 2 ++ (be p.mask).take 2) ++
      ((be p.mask).drop 2 ++ (be p.advertise).take 2)))))))) q := by
    unfold PortMod.readFrom
    refine Reads.cons (Reads.num _) ?_
    refine Reads.cons (Reads.skip (by simp)) ?_
    refine Reads.cons (Reads.dyn (Reads.bin rfl)) ?_
    refine Reads.cons (Reads.skip (by simp)) ?_
    refine Reads.cons (Reads.bin (k := 4) (by simp)) ?_
    refine Reads.cons (Reads.bin (k := 4) (by simp)) ?_
    refine Reads.cons (Reads.bin (k := 4) (by simp)) ?_
    exact Reads.last (Reads.skip (by simp))
  obtain ⟨r', h1, h2, _⟩ := hreads r _ hr hp
  rw [h1]
  refine ⟨rfl, by simp, rfl, rfl, ?_⟩
  simp only
  rw [h2.content.2, hp, List.drop_left]

/-- C37.  So a port modification does not survive a decode into the zero value. -/
theorem portMod_roundtrip_false : ¬ ∀ p : PortMod, p.hwAddr.length = 6 →
    Decodes PortMod.readFrom p.writeTo.out p := by
  intro h
  let p : PortMod := ⟨1, [1, 2, 3, 4, 5, 6], 7, 8, 9⟩
  have h1 := h p rfl PortMod.zero (.src p.writeTo.out [] .eof false) [] rfl (by simp [Rd.content])
  have h2 := portMod_zero_fails p 1 2 3 4 5 6 rfl (.src p.writeTo.out [] .eof false) [] rfl
    (by simp [Rd.content])
  have h3 := h2.2.2.1
  rw [h1.1] at h3
  exact absurd h3 (by decide)

/-! ## Port lists -/

/-- C37.  The body of a port description reply, decoded into an empty list. -/
theorem ports_roundtrip (ps : List Port) (hw : ∀ p ∈ ps, p.hwAddr.length = 6 ∧ p.name.length = 16)
    (r : Rd) (hr : r.Ok .eof) (hc : r.content = ps.flatMap (fun p => p.writeTo.out)) :
    (Ports.readFrom [] r).val = ps ∧ (Ports.readFrom [] r).err = none ∧
      (Ports.readFrom [] r).n = 64 * ps.length ∧ (Ports.readFrom [] r).rd.content = [] := by
  obtain ⟨r', h1, h2, _⟩ := Ports.readsAll ps (fun p hp => (hw p hp).1) [] r hr hc
  have hm : ps.map Port.canonical = ps := by
    conv => rhs; rw [← List.map_id ps]
    exact List.map_congr_left fun p hp => by
      simp [Port.canonical, copyTo_full _ _ (hw p hp).2]
  have hl : ∀ qs : List Port, (∀ p ∈ qs, p.hwAddr.length = 6) →
      (qs.flatMap Port.bytes).length = 64 * qs.length := by
    intro qs
    induction qs with
    | nil => simp
    | cons q qs ih =>
      intro h
      have := ih (fun p hp => h p (by simp [hp]))
      rw [List.flatMap_cons, List.length_append, this, Port.bytes_length, h q (by simp),
        List.length_cons]
      omega
  rw [h1]
  refine ⟨by simp [hm], rfl, hl ps (fun p hp => (hw p hp).1), ?_⟩
  simp only
  rw [h2.content.2, hc]
  simp only [List.drop_eq_nil_iff]
  exact Nat.le_refl _

example : ∃ ps : List Port, 2 ≤ ps.length ∧ ∀ p ∈ ps, p.hwAddr.length = 6 ∧ p.name.length = 16 :=
  ⟨[⟨1, [1, 2, 3, 4, 5, 6], zeros 16, 1, 2, 3, 4, 5, 6, 7, 8⟩, ⟨2, zeros 6, zeros 16, 0, 0, 0, 0, 0, 0, 0, 0⟩],
    by decide⟩

/-- C42.  Decoding a port list into a list that is not empty appends to it. -/
theorem ports_append (s ps : List Port) (hw : ∀ p ∈ ps, p.hwAddr.length = 6 ∧ p.name.length = 16)
    (r : Rd) (hr : r.Ok .eof) (hc : r.content = ps.flatMap (fun p => p.writeTo.out)) :
    (Ports.readFrom s r).val = s ++ ps ∧ (Ports.readFrom s r).err = none := by
  obtain ⟨r', h1, h2, _⟩ := Ports.readsAll ps (fun p hp => (hw p hp).1) s r hr hc
  have hm : ps.map Port.canonical = ps := by
    conv => rhs; rw [← List.map_id ps]
    exact List.map_congr_left fun p hp => by
      simp [Port.canonical, copyTo_full _ _ (hw p hp).2]
  rw [h1]
  exact ⟨by simp [hm], rfl⟩

/-- C40.  A port list that ends inside a port, at the boundary of two fields, is accepted;
the incomplete port is dropped without an error. -/
theorem ports_truncated_accepted : ∃ bs : Bytes, bs.length % 64 ≠ 0 ∧
    ∃ r : Rd, r.Ok .eof ∧ r.content = bs ∧
      (Ports.readFrom [] r).err = none ∧ (Ports.readFrom [] r).val = [] := by
  refine ⟨zeros 14, by decide, .src (zeros 14) [] .eof false, rfl, rfl, ?_, ?_⟩ <;> decide +kernel

/-- C40.  Missing: truncation at the boundary of two fields (`ports_truncated_accepted`).
Exactly which lengths are accepted as a port list: whole ports, and a last port that is cut
between two of its fields.  Any other length is rejected with `io.ErrUnexpectedEOF`. -/
theorem ports_truncated_partial (s : List Port) (r : Rd) (hr : r.Ok .eof) :
    ((Ports.readFrom s r).err = none ↔
      r.content.length % 64 ∈ [0, 4, 8, 14, 16, 32, 36, 40, 44, 48, 52, 56, 60]) ∧
    ((Ports.readFrom s r).err = none ∨ (Ports.readFrom s r).err = some .unexpectedEOF) :=
  Ports.loop_err (r.content.length + 1) s 0 r hr (by omega)

/-- C41.  The loop over the ports ends on any input, takes at least the bytes it reports and
never more than there are, and reports no other error than `io.ErrUnexpectedEOF`. -/
theorem ports_terminate (s : List Port) (r : Rd) (hr : r.Ok .eof) :
    (Ports.readFrom s r).n ≤ r.content.length ∧
    ∃ m, (Ports.readFrom s r).n ≤ m ∧ (Ports.readFrom s r).rd.content = r.content.drop m := by
  obtain ⟨⟨m, h1, h2⟩, _, _⟩ := Ports.readFrom_safe s r hr
  have := h2.content
  exact ⟨by omega, m, h1, h2.content.2⟩

end Verif.Props
