import Verif.CutsFlow
import Verif.Ofp.Meter
import Verif.Ofp.Hello
import Verif.Ofp.Queue

/-!
# Where the other decoders stop on a truncated input
-/

namespace Verif

variable {σ τ : Type}

theorem Stops.scanCut {mk : UInt16 → Except Err τ} {st : Step τ} {enc : τ → Bytes} {zero : τ → τ}
    {code : τ → UInt16} (s xs : List τ) (h : ∀ x ∈ xs, Reads st (zero x) (enc x) x)
    (hmk : ∀ x, mk (code x) = .ok (zero x)) (hcode : ∀ x, ∃ t, enc x = be (code x) ++ t)
    {x : τ} {k : Nat} {eo : Option Err} {V : τ → Prop}
    (hS : Stops st (zero x) ((enc x).take k) eo V 0) :
    Stops (Enc.scanFrom mk st) s (xs.flatMap enc ++ (enc x).take k)
      (if k < 2 then none else eo.bind skipEOF)
      (fun l => ∃ t, l = s ++ xs ++ t ∧ t.length = if k < 2 then 0 else 1) := by
  by_cases h2 : k < 2
  · rw [if_pos h2]
    refine (Stops.scanOne (enc := enc) (zero := zero) (code := code)
      ((enc x).take k) (by rw [List.length_take]; omega) s xs h (fun x _ => hmk x) (fun x _ => hcode x)).mono ?_
    rintro _ rfl
    exact ⟨[], by simp, by simp [h2]⟩
  · rw [if_neg h2]
    obtain ⟨t, ht⟩ := hcode x
    refine (Stops.scanFrom (enc := enc) (zero := zero) (code := code)
      (b0 := (enc x).take k) (c := code x) (z := zero x) (t := t.take (k - 2))
      (by rw [ht, take_append_ge (by simp; omega)]; simp) (hmk x) hS s xs h (fun x _ => hmk x)
      (fun x _ => hcode x)).mono ?_
    rintro _ ⟨v, _, rfl⟩
    exact ⟨[v], by simp, by simp [h2]⟩

/-- One error of two, by a list of lengths. -/
def eofIn (cs : List Nat) (k : Nat) : Err := if k ∈ cs then .eof else .unexpectedEOF

theorem Fields.stopsWrap {d : Nat} {st : Step τ} {dec : Step σ} {ks : List Nat} {t : τ} {b : Bytes} {k : Nat}
    (f : τ → σ) (z : σ) (hF : Fields st ks) (hl : b.length = k) (hs : k < ks.sum)
    (hd : ∀ r, dec z r = Enc.wrap f st t r) :
    Stops dec z b (some (eofIn (cuts ks) k)) (fun _ => True) d := by
  have h := hF.stops (d := d) (s := t) (b := b) (by omega)
  rw [hl] at h
  exact (Stops.wrap h hd).mono fun _ _ => trivial

/-! ## Meter bands -/

/-- Where the fields of a band begin. -/
def MeterBand.cuts : MeterBand → List Nat
  | .dscpRemark .. => [0, 4, 8, 12, 13]
  | _ => [0, 4, 8, 12]

theorem MeterBand.stops {d : Nat} (b : MeterBand) (k : Nat) (hk : k < 16) :
    Stops MeterBand.readFrom b.zero (b.bytes.take k) (some (eofIn b.cuts k)) (fun _ => True) d := by
  have hlen : (b.bytes.take k).length = k := by rw [List.length_take, b.bytes_length]; omega
  cases b with
  | drop p q =>
    exact Fields.stopsWrap (fun s : UInt32 × UInt32 => MeterBand.drop s.1 s.2) _ (ks := [4, 4, 4, 4])
      (Fields.cons Fields.skip (Fields.cons Fields.num (Fields.cons Fields.num
        (Fields.cons Fields.skip Fields.nil)))) hlen hk (fun r => rfl)
  | dscpRemark p q o =>
    exact Fields.stopsWrap (fun s : UInt32 × UInt32 × UInt8 => MeterBand.dscpRemark s.1 s.2.1 s.2.2) _
      (ks := [4, 4, 4, 1, 3]) (Fields.cons Fields.skip (Fields.cons Fields.num (Fields.cons Fields.num
        (Fields.cons Fields.num (Fields.cons Fields.skip Fields.nil))))) hlen hk (fun r => rfl)
  | experimenter p q o =>
    exact Fields.stopsWrap (fun s : UInt32 × UInt32 × UInt32 => MeterBand.experimenter s.1 s.2.1 s.2.2) _
      (ks := [4, 4, 4, 4]) (Fields.cons Fields.skip (Fields.cons Fields.num (Fields.cons Fields.num
        (Fields.cons Fields.num Fields.nil)))) hlen hk (fun r => rfl)

theorem MeterBands.stops (bs : List MeterBand) (b : MeterBand) (k : Nat) (hk : k < 16) (s : List MeterBand) :
    Stops MeterBands.readFrom s (MeterBands.bytes bs ++ b.bytes.take k)
      (if k < 2 then none else skipEOF (eofIn b.cuts k)) (· = s) :=
  Stops.subVal (get := id) (Stops.scanCut (enc := MeterBand.bytes) (zero := MeterBand.zero)
    (code := MeterBand.type) s bs (fun b _ => b.reads' _ (by cases b <;> rfl)) meterBandMake_type
    MeterBand.bytes_type (b.stops k hk))

/-! ## Properties of queues -/

/-- Where the fields of a property begin. -/
def QueueProp.cuts : QueueProp → List Nat
  | .experimenter .. => [0, 4, 8, 12]
  | _ => [0, 8, 10]

theorem QueueProp.readRate_fields : Fields QueueProp.readRate [8, 2, 6] :=
  Fields.cons Fields.skip (Fields.cons Fields.num (Fields.cons Fields.skip Fields.nil))

theorem QueueProp.stops {n : Nat} (q : QueueProp) (hv : q.Valid) (k : Nat) (hk : k < q.size) :
    Stops QueueProp.readFrom q.zero (q.bytes.take k) (if 16 ≤ k then none else some (eofIn q.cuts k))
      (fun _ => True) n := by
  have hlen : (q.bytes.take k).length = k := by rw [List.length_take, q.bytes_length]; omega
  cases q with
  | minRate x =>
    rw [if_neg (by simp only [QueueProp.size] at hk; omega)]
    exact Fields.stopsWrap QueueProp.minRate _ QueueProp.readRate_fields hlen hk (fun r => rfl)
  | maxRate x =>
    rw [if_neg (by simp only [QueueProp.size] at hk; omega)]
    exact Fields.stopsWrap QueueProp.maxRate _ QueueProp.readRate_fields hlen hk (fun r => rfl)
  | experimenter e d =>
    refine (Stops.wrap (f := fun s : UInt32 × Bytes => QueueProp.experimenter s.1 s.2)
      (dec := QueueProp.readFrom) (st := QueueProp.readExperimenter) (t := (0, []))
      (V := fun _ => True) ?_ (fun r => rfl)).mono fun _ _ => trivial
    by_cases h16 : 16 ≤ k
    · rw [if_pos h16]
      simp only [QueueProp.Valid, QueueProp.size] at hv hk
      have hsub : ((16 + UInt16.ofNat d.length) - 16 : UInt16).toNat = d.length := by
        have : ((16 + UInt16.ofNat d.length) - 16 : UInt16) = UInt16.ofNat d.length := by
          rw [UInt16.add_comm, UInt16.add_sub_cancel]
        rw [this]; exact u16_ofNat_toNat (by omega)
      have hb : (QueueProp.experimenter e d).bytes.take k =
          (be (0xffff : UInt16) ++ be (16 + UInt16.ofNat d.length)) ++ (zeros 4 ++ (be e ++
            (zeros 4 ++ d.take (k - 16)))) := by
        have : (QueueProp.experimenter e d).bytes = (be (0xffff : UInt16) ++ be (16 + UInt16.ofNat d.length)) ++
            (zeros 4 ++ (be e ++ (zeros 4 ++ d))) := by
          simp [QueueProp.bytes, QueueProp.writeTo, Enc.writeTo, Enc.gather, QueueProp.type]
        rw [this]
        rw [take_append_ge (by simp; omega), take_append_ge (by simp; omega),
          take_append_ge (by simp; omega), take_append_ge (by simp; omega)]
        simp [Nat.sub_sub]
      rw [hb]
      refine (Stops.withLocal (V := fun _ => True) ?_).mono fun _ _ => trivial
      refine Stops.cons (s1 := ((0, []), 16 + UInt16.ofNat d.length)) ?_ ?_
      · have := Reads.bin (s := (((0 : UInt32), ([] : Bytes)), (0 : UInt16))) (k := 4)
          (b := be (0xffff : UInt16) ++ be (16 + UInt16.ofNat d.length))
          (set := fun b s => (s.1, ofBE UInt16 (b.drop 2))) (by simp)
        rw [List.drop_left' (by simp), ofBE_be] at this
        exact this
      refine Stops.cons (Reads.skip (by simp)) ?_
      refine Stops.cons (Reads.num _) ?_
      refine Stops.cons (Reads.skip (by simp)) ?_
      refine (Stops.last (Stops.dyn (Stops.limited (ReadsAll.rest (d.take (k - 16))).stops ?_))).mono
        fun _ _ => trivial
      simp only [hsub, List.length_take]; omega
    · rw [if_neg h16]
      have hF : Fields (Enc.readFrom [Enc.bin 4 (fun b (s : (UInt32 × Bytes) × UInt16) =>
          (s.1, ofBE UInt16 (b.drop 2))), Enc.skip 4, Enc.num (fun v s => ((v, s.1.2), s.2)), Enc.skip 4])
          [4, 4, 4, 4] :=
        Fields.cons Fields.bin (Fields.cons Fields.skip (Fields.cons Fields.num
          (Fields.cons Fields.skip Fields.nil)))
      have h := hF.stops (d := n) (s := ((0, []), 0)) (b := (QueueProp.experimenter e d).bytes.take k)
        (by rw [hlen]; simp; omega)
      rw [hlen] at h
      exact (Stops.withLocal (Stops.pre h)).mono fun _ _ => trivial

theorem QueueProps.stops (qs : List QueueProp) (q : QueueProp) (hv : ∀ q ∈ qs, q.Valid) (hq : q.Valid)
    (k : Nat) (hk : k < q.size) (s : List QueueProp) :
    Stops QueueProps.readFrom s (QueueProps.bytes qs ++ q.bytes.take k)
      (if k < 2 ∨ 16 ≤ k then none else skipEOF (eofIn q.cuts k)) (· = s) := by
  have h := Stops.subVal (get := id) (Stops.scanCut (enc := QueueProp.bytes) (zero := QueueProp.zero)
    (code := QueueProp.type) s qs (fun b hb => b.reads' _ (hv b hb) (by cases b <;> rfl)) queuePropMake_type
    QueueProp.bytes_type (q.stops hq k hk))
  have he : (if k < 2 ∨ 16 ≤ k then none else skipEOF (eofIn q.cuts k)) =
      if k < 2 then none else (if 16 ≤ k then none else some (eofIn q.cuts k)).bind skipEOF := by
    by_cases h2 : k < 2
    · simp [h2]
    · by_cases h16 : 16 ≤ k
      · simp [h16]
      · simp [h2, h16]
  rw [he]
  exact h

/-! ## Hello elements -/

theorem HelloElem.bytes_type (h : HelloElem) : ∃ t, h.bytes = be h.type ++ t := by
  cases h; exact ⟨_, HelloElem.bytes_eq _⟩

theorem HelloElem.stops {d : Nat} (h : HelloElem) (hv : h.Valid) (s : HelloElem) (k : Nat) (hk : k < h.size) :
    Stops HelloElem.readFrom s (h.bytes.take k) (some (eofIn [0, 4] k)) (fun _ => True) d := by
  cases h with
  | versionBitmap ws =>
  cases s with
  | versionBitmap s =>
  have hlen : ((HelloElem.versionBitmap ws).bytes.take k).length = k := by
    rw [List.length_take, HelloElem.bytes_length]; omega
  refine (Stops.wrap (f := HelloElem.versionBitmap) (dec := HelloElem.readFrom) (st := HelloElem.readBitmap)
    (t := s) (V := fun _ => True) ?_ (fun r => rfl)).mono fun _ _ => trivial
  refine (Stops.withLocal (V := fun _ => True) ?_).mono fun _ _ => trivial
  by_cases h4 : k < 4
  · have := Stops.bin (d := d) (k := 4) (set := fun b (s : List UInt32 × UInt16) => (s.1, ofBE UInt16 (b.drop 2)))
      (s := (s, (0 : UInt16))) (b := (HelloElem.versionBitmap ws).bytes.take k) (by rw [hlen]; exact h4)
    have he : (if (HelloElem.versionBitmap ws).bytes.take k = [] then Err.eof else .unexpectedEOF) =
        eofIn [0, 4] k := by
      unfold eofIn
      have : ((HelloElem.versionBitmap ws).bytes.take k = []) ↔ k ∈ [0, 4] := by
        rw [← List.length_eq_zero_iff, hlen]
        simp only [List.mem_cons, List.not_mem_nil, or_false]; omega
      simp only [this]
    rw [he] at this
    exact (Stops.here this).mono fun _ _ => trivial
  · simp only [HelloElem.Valid, HelloElem.size] at hv hk
    have hsub : (UInt16.ofNat (4 + 4 * (paddedWords ws).length) - 4 : UInt16).toNat =
      4 * (paddedWords ws).length := u16_ofNat_sub (c := 4) hv
    have hb : (HelloElem.versionBitmap ws).bytes.take k =
        (be (1 : UInt16) ++ be (UInt16.ofNat (4 + 4 * (paddedWords ws).length))) ++
          (be32s (paddedWords ws)).take (k - 4) := by
      rw [HelloElem.bytes_eq, take_append_ge (by simp; omega), take_append_ge (by simp; omega)]
      simp [Nat.sub_sub]
    rw [hb]
    refine Stops.cons (s1 := (s, UInt16.ofNat (4 + 4 * (paddedWords ws).length))) ?_ ?_
    · have := Reads.bin (s := (s, (0 : UInt16))) (k := 4)
        (b := be (1 : UInt16) ++ be (UInt16.ofNat (4 + 4 * (paddedWords ws).length)))
        (set := fun b s => (s.1, ofBE UInt16 (b.drop 2))) (by simp)
      rw [List.drop_left' (by simp), ofBE_be] at this
      exact this
    · refine Stops.assignCons (Stops.last (Stops.dyn ?_))
      have hl : ((be32s (paddedWords ws)).take (k - 4)).length = k - 4 := by
        rw [List.length_take, be32s_length]; omega
      have he : (if (be32s (paddedWords ws)).take (k - 4) = [] then Err.eof else .unexpectedEOF) =
          eofIn [0, 4] k := by
        unfold eofIn
        have : ((be32s (paddedWords ws)).take (k - 4) = []) ↔ k ∈ [0, 4] := by
          rw [← List.length_eq_zero_iff, hl]
          simp only [List.mem_cons, List.not_mem_nil, or_false]; omega
        simp only [this]
      rw [← he]
      simp only [hsub]
      exact (Stops.limited (Stops.bin (by rw [hl]; omega)) (by rw [hl]; omega)).mono fun _ _ => trivial

theorem HelloElems.stops (hs : List HelloElem) (h : HelloElem) (hv : ∀ h ∈ hs, h.Valid) (hh : h.Valid)
    (k : Nat) (hk : k < h.size) (s : List HelloElem) :
    Stops HelloElems.readFrom s (hs.flatMap HelloElem.bytes ++ h.bytes.take k)
      (if k < 2 then none else skipEOF (eofIn [0, 4] k)) (· = s) := by
  have hb : hs.flatMap HelloElem.bytes = (hs.map HelloElem.canonical).flatMap HelloElem.bytes := by
    induction hs with
    | nil => rfl
    | cons a hs ih =>
      simp only [List.flatMap_cons, List.map_cons, HelloElem.canonical_bytes]
      rw [ih (fun x hx => hv x (by simp [hx]))]
  rw [hb]
  have := Stops.scanCut (mk := helloElemMake) (enc := HelloElem.bytes)
    (zero := fun _ => HelloElem.versionBitmap []) (code := HelloElem.type) s (hs.map HelloElem.canonical)
    (by
      intro x hx
      obtain ⟨y, hy, rfl⟩ := List.mem_map.1 hx
      have := y.canonical.reads (.versionBitmap []) (by
        have := hv y hy; unfold HelloElem.Valid at this ⊢; rw [HelloElem.canonical_size]; exact this)
      rw [HelloElem.canonical_idem] at this
      exact this)
    (by intro x; cases x; rfl) HelloElem.bytes_type (h.stops hh (.versionBitmap []) k hk)
  exact Stops.subVal (get := id) this

/-! ## Packets -/

def PacketIn.head : List (Step PacketIn) := [
  Enc.num (fun v s => { s with buffer := v }), Enc.num (fun v s => { s with length := v }),
  Enc.num (fun v s => { s with reason := v }), Enc.num (fun v s => { s with table := v }),
  Enc.num (fun v s => { s with cookie := v })]

def PacketIn.tail : List (Step PacketIn) := [
  Enc.sub (fun s => s.mtch) (fun v s => { s with mtch := v }) Match.readFrom, Enc.skip 2,
  Enc.rest (fun b s => { s with data := b })]

theorem PacketIn.readFrom_eq : PacketIn.readFrom = Enc.readFrom (PacketIn.head ++ PacketIn.tail) := rfl

def PacketIn.headBytes (p : PacketIn) : Bytes :=
  be p.buffer ++ (be p.length ++ (be p.reason ++ (be p.table ++ be p.cookie)))

theorem PacketIn.headBytes_length (p : PacketIn) : p.headBytes.length = 16 := by simp [PacketIn.headBytes]

theorem PacketIn.head_fields : Fields (Enc.readFrom PacketIn.head) [4, 2, 1, 1, 8] :=
  Fields.cons Fields.num (Fields.cons Fields.num (Fields.cons Fields.num (Fields.cons Fields.num
    (Fields.cons Fields.num Fields.nil))))

theorem PacketIn.head_reads (p s : PacketIn) :
    Reads (Enc.readFrom PacketIn.head) s p.headBytes { p with mtch := s.mtch, data := s.data } := by
  unfold PacketIn.head PacketIn.headBytes
  reads

/-- Before the data of the packet, every truncation is noticed. -/
theorem PacketIn.stops (p : PacketIn) (hm : p.mtch.Valid) (s : PacketIn) (k : Nat)
    (hk : k < 18 + p.mtch.bytes.length) :
    ∃ e, ShortErr e ∧ Stops PacketIn.readFrom s (p.writeTo.out.take k) (some e) (fun _ => True) := by
  have hout : p.writeTo.out = p.headBytes ++ (p.mtch.bytes ++ (zeros 2 ++ p.data)) := by
    rw [PacketIn.out_eq]; simp [PacketIn.headBytes]
  have hshort : ∀ {q : Prop} [Decidable q], ShortErr (if q then Err.eof else .unexpectedEOF) := by
    intro q _; split
    · exact .inl rfl
    · exact .inr rfl
  have htwo : ∀ (s1 : PacketIn) (b1 : Bytes), b1.length < 2 → Stops (Enc.readFrom
      [Enc.skip 2, Enc.rest (fun b s => { s with data := b })]) s1 b1
      (some (if b1 = [] then .eof else .unexpectedEOF)) (fun _ => True) := fun s1 b1 hb1 =>
    (Stops.here (Stops.skip hb1)).mono fun _ _ => trivial
  by_cases h16 : k < 16
  · have hlen : (p.writeTo.out.take k).length = k := by
      rw [List.length_take, hout, List.length_append, p.headBytes_length]; omega
    have h := PacketIn.head_fields.stops (d := 1) (s := s) (b := p.writeTo.out.take k) (by rw [hlen]; simpa using h16)
    rw [PacketIn.readFrom_eq]
    exact ⟨_, hshort, Stops.pre h⟩
  · rw [PacketIn.readFrom_eq, hout, take_append_ge (by rw [p.headBytes_length]; omega), p.headBytes_length]
    by_cases hmk : k < 16 + p.mtch.bytes.length
    · rw [take_append_lt (by omega)]
      have h := Stops.sub (d := 1) (get := fun s : PacketIn => s.mtch) (set := fun v s => { s with mtch := v })
        (s := { p with mtch := s.mtch, data := s.data }) (p.mtch.stops hm s.mtch (k - 16) (by omega))
      cases hc : p.mtch.cut (k - 16) with
      | some e =>
        rw [hc] at h
        refine ⟨e, ?_, Stops.append (p.head_reads s) ((Stops.here h).mono fun _ _ => trivial)⟩
        obtain ⟨_, _, he⟩ := Match.readFrom_safe (E := ShortErr) s.mtch
          (.src (p.mtch.bytes.take (k - 16)) [] .eof false) rfl
        have := ((p.mtch.stops (d := 0) hm s.mtch (k - 16) (by omega)) (.src (p.mtch.bytes.take (k - 16)) [] .eof false)
          rfl rfl).1
        exact he e (by rw [this, hc])
      | none =>
        rw [hc] at h
        -- nothing is left, the padding after the match is missing
        have : ∃ e, ShortErr e ∧ Stops (Enc.readFrom PacketIn.tail) { p with mtch := s.mtch, data := s.data }
            (p.mtch.bytes.take (k - 16)) (some e) (fun _ => True) := by
          obtain ⟨xs, _, hR⟩ := p.mtch.readsAll_cut hm s.mtch (k - 16) (by omega) hc
          exact ⟨_, hshort, Stops.consAll (ReadsAll.sub (get := fun s : PacketIn => s.mtch)
            (set := fun v s => { s with mtch := v }) hR) (htwo _ [] (by simp))⟩
        obtain ⟨e, he, h2⟩ := this
        exact ⟨e, he, Stops.append (p.head_reads s) h2⟩
    · rw [take_append_ge (by omega)]
      have h2 := htwo { p with data := s.data } ((zeros 2 ++ p.data).take (k - 16 - p.mtch.bytes.length))
        (by rw [List.length_take]; omega)
      exact ⟨_, hshort, Stops.append (p.head_reads s) (Stops.cons (Reads.sub (p.mtch.reads hm _)) h2)⟩

/-- The first fields of a packet-out. -/
def PacketOut.head : List (Step (PacketOut × UInt16)) := [
  Enc.num (fun v s => ({ s.1 with buffer := v }, s.2)),
  Enc.num (fun v s => ({ s.1 with inPort := v }, s.2)),
  Enc.num (fun v s => (s.1, v)), Enc.skip 6]

def PacketOut.tail : List (Step (PacketOut × UInt16)) := [
  Enc.assign (fun s => ({ s.1 with actions := [] }, s.2)),
  Enc.dyn (fun s => Enc.limited s.2.toNat
    (Enc.sub (fun s => s.1.actions) (fun v s => ({ s.1 with actions := v }, s.2)) Actions.readFrom)),
  Enc.rest (fun b s => ({ s.1 with data := b }, s.2))]

theorem PacketOut.readFrom_eq :
    PacketOut.readFrom = Enc.withLocal 0 (Enc.readFrom (PacketOut.head ++ PacketOut.tail)) := rfl

def PacketOut.headBytes (p : PacketOut) : Bytes :=
  be p.buffer ++ (be p.inPort ++ (be (UInt16.ofNat (Actions.bytes p.actions).length) ++ zeros 6))

theorem PacketOut.headBytes_length (p : PacketOut) : p.headBytes.length = 16 := by simp [PacketOut.headBytes]

theorem PacketOut.out_head (p : PacketOut) :
    p.writeTo.out = p.headBytes ++ (Actions.bytes p.actions ++ p.data) := by
  rw [PacketOut.out_eq]; simp [PacketOut.headBytes]

theorem PacketOut.head_fields : Fields (Enc.readFrom PacketOut.head) [4, 4, 2, 6] :=
  Fields.cons Fields.num (Fields.cons Fields.num (Fields.cons Fields.num (Fields.cons Fields.skip Fields.nil)))

theorem PacketOut.head_reads (p : PacketOut) (s : PacketOut × UInt16) :
    Reads (Enc.readFrom PacketOut.head) s p.headBytes
      ({ p with actions := s.1.actions, data := s.1.data },
        UInt16.ofNat (Actions.bytes p.actions).length) := by
  unfold PacketOut.head PacketOut.headBytes
  reads

/-- The error of the decoder of a packet-out on the first `k` bytes, before the packet. -/
def PacketOut.cut (p : PacketOut) (k : Nat) : Option Err :=
  if k < 16 then some (eofIn [0, 4, 8, 10] k) else Actions.cut p.actions (k - 16)

theorem PacketOut.stops (p : PacketOut) (hv : ∀ a ∈ p.actions, a.Valid)
    (hl : (Actions.bytes p.actions).length ≤ 65535) (s : PacketOut) (k : Nat)
    (hk : k < 16 + (Actions.bytes p.actions).length) :
    Stops PacketOut.readFrom s (p.writeTo.out.take k) (p.cut k) (fun _ => True) := by
  rw [PacketOut.readFrom_eq]
  refine (Stops.withLocal (V := fun _ => True) ?_).mono fun _ _ => trivial
  unfold PacketOut.cut
  by_cases h16 : k < 16
  · rw [if_pos h16]
    have hlen : (p.writeTo.out.take k).length = k := by
      rw [List.length_take, p.out_head, List.length_append, p.headBytes_length]; omega
    have h := PacketOut.head_fields.stops (d := 1) (s := (s, 0)) (b := p.writeTo.out.take k)
      (by rw [hlen]; simpa using h16)
    rw [hlen] at h
    exact Stops.pre h
  · rw [if_neg h16, p.out_head, take_append_ge (by rw [p.headBytes_length]; omega), p.headBytes_length,
      take_append_lt (by omega)]
    refine Stops.append (p.head_reads (s, 0)) ?_
    refine Stops.assignCons ?_
    have hlen := u16_ofNat_toNat hl
    have h := Stops.dyn (d := 1) (f := fun s : PacketOut × UInt16 => Enc.limited s.2.toNat
      (Enc.sub (fun s => s.1.actions) (fun v s => ({ s.1 with actions := v }, s.2)) Actions.readFrom))
      (s := ({ p with actions := [], data := s.data }, UInt16.ofNat (Actions.bytes p.actions).length))
      (Stops.limited (Stops.sub (Actions.stops_take p.actions hv (k - 16) (by omega) []))
        (by simp only [hlen, List.length_take]; omega))
    cases hc : Actions.cut p.actions (k - 16) with
    | some e =>
      rw [hc] at h
      exact (Stops.here h).mono fun _ _ => trivial
    | none =>
      rw [hc] at h
      refine Stops.consNone h ?_
      intro s1 b1 _ _
      exact (Stops.last (ReadsAll.rest b1).stops).mono fun _ _ => trivial

/-! ## Buckets -/

def Bucket.head : List (Step (Bucket × UInt16)) := [
  Enc.num (fun v s => (s.1, v)), Enc.num (fun v s => ({ s.1 with weight := v }, s.2)),
  Enc.num (fun v s => ({ s.1 with watchPort := v }, s.2)),
  Enc.num (fun v s => ({ s.1 with watchGroup := v }, s.2)), Enc.skip 4]

def Bucket.tail : List (Step (Bucket × UInt16)) := [
  Enc.assign (fun s => ({ s.1 with actions := [] }, s.2)),
  Enc.dyn (fun s => Enc.limited (s.2 - 16).toNat
    (Enc.sub (fun s => s.1.actions) (fun v s => ({ s.1 with actions := v }, s.2)) Actions.readFrom))]

theorem Bucket.readFrom_eq :
    Bucket.readFrom = Enc.withLocal 0 (Enc.readFrom (Bucket.head ++ Bucket.tail)) := rfl

def Bucket.headBytes (b : Bucket) : Bytes :=
  be (UInt16.ofNat (16 + (Actions.bytes b.actions).length)) ++ (be b.weight ++ (be b.watchPort ++
    (be b.watchGroup ++ zeros 4)))

theorem Bucket.headBytes_length (p : Bucket) : p.headBytes.length = 16 := by simp [Bucket.headBytes]

theorem Bucket.out_head (b : Bucket) : b.bytes = b.headBytes ++ Actions.bytes b.actions := by
  rw [Bucket.bytes_eq]; simp [Bucket.headBytes]

theorem Bucket.head_fields : Fields (Enc.readFrom Bucket.head) [2, 2, 4, 4, 4] :=
  Fields.cons Fields.num (Fields.cons Fields.num (Fields.cons Fields.num (Fields.cons Fields.num
    (Fields.cons Fields.skip Fields.nil))))

theorem Bucket.head_reads (b : Bucket) (s : Bucket × UInt16) :
    Reads (Enc.readFrom Bucket.head) s b.headBytes
      ({ b with actions := s.1.actions }, UInt16.ofNat (16 + (Actions.bytes b.actions).length)) := by
  unfold Bucket.head Bucket.headBytes
  reads

/-- The error of the decoder of a bucket on the first `k` bytes. -/
def Bucket.cut (b : Bucket) (k : Nat) : Option Err :=
  if k < 16 then some (eofIn [0, 2, 4, 8, 12] k) else Actions.cut b.actions (k - 16)

theorem Bucket.stops {d : Nat} (b : Bucket) (hv : b.Valid) (s : Bucket) (k : Nat) (hk : k < b.bytes.length) :
    Stops Bucket.readFrom s (b.bytes.take k) (b.cut k) (fun _ => True) d := by
  obtain ⟨h1, h2⟩ := hv
  rw [Bucket.size, ← Actions.bytes_length] at h2
  have hkl := hk
  rw [b.out_head, List.length_append, b.headBytes_length] at hkl
  rw [Bucket.readFrom_eq]
  refine (Stops.withLocal (V := fun _ => True) ?_).mono fun _ _ => trivial
  unfold Bucket.cut
  by_cases h16 : k < 16
  · rw [if_pos h16]
    have hlen : (b.bytes.take k).length = k := by rw [List.length_take]; omega
    have h := Bucket.head_fields.stops (d := d) (s := (s, 0)) (b := b.bytes.take k) (by rw [hlen]; simpa using h16)
    rw [hlen] at h
    exact Stops.pre h
  · rw [if_neg h16, b.out_head, take_append_ge (by rw [b.headBytes_length]; omega), b.headBytes_length]
    refine Stops.append (b.head_reads (s, 0)) ?_
    refine Stops.assignCons (Stops.last (Stops.dyn ?_))
    refine (Stops.limited (Stops.sub (Actions.stops_take b.actions h1 (k - 16) (by omega) []))
      ?_).mono fun _ _ => trivial
    have hsub : (UInt16.ofNat (16 + (Actions.bytes b.actions).length) - 16).toNat =
      (Actions.bytes b.actions).length := u16_ofNat_sub (c := 16) h2
    simp only [hsub, List.length_take]; omega

/-- Buckets after a header: a bucket that fails with an error other than `io.EOF` is noticed. -/
theorem Buckets.stops (bs : List Bucket) (b : Bucket) (hv : ∀ b ∈ bs, b.Valid) (hb : b.Valid) (k : Nat)
    (hk : k < b.bytes.length) (e : Err) (hc : b.cut k = some e) (s : List Bucket) (r : Rd) (hr : r.Ok .eof)
    (hcon : r.content = Buckets.bytes bs ++ b.bytes.take k) :
    (Enc.readSliceFrom Bucket.zero Bucket.readFrom s r).err = skipEOF e := by
  have := readFuncLoop_stops (zero := Bucket.zero) (st := Bucket.readFrom) (enc := Bucket.bytes) (val := id)
    (b.bytes.take k) e (by have := b.stops (d := 0) hb Bucket.zero k hk; rw [hc] at this; exact this.failsAll) bs
    (fun x hx => x.reads (hv x hx) _) (fun x _ => by rw [x.bytes_length, Bucket.size]; omega)
    (r.content.length + 1) [] 0 r hr hcon (by omega)
  exact this.2

end Verif
