import Verif.Spec.Wire
import Verif.EncodingSafe

/-!
# ofp/match.go and ofp/pad.go
-/

namespace Verif

/-- `padLen`, ofp/pad.go:28-30. -/
def padLen (n : Nat) : Nat := (n + 7) / 8 * 8 - n

theorem padLen_lt (n : Nat) : padLen n < 8 := by unfold padLen; omega

theorem padLen_dvd (n : Nat) : (n + padLen n) % 8 = 0 := by unfold padLen; omega

/-! ## Model -/

/-- `XM`, ofp/match.go:302-313.  A nil and an empty slice are the same list. -/
structure XM where
  cls : UInt16
  type : UInt8
  value : Bytes
  mask : Bytes
  deriving DecidableEq, Repr, Inhabited

/-- The zero value of `XM`. -/
def XM.zero : XM := ⟨0, 0, [], []⟩

/-- `(xm *XM) WriteTo`, ofp/match.go:389-401. -/
def XM.writeTo (x : XM) : Wr :=
  let hasmask : UInt8 := if 0 < x.mask.length then 1 else 0
  let field : UInt8 := (x.type <<< 1) ||| hasmask
  Enc.writeTo [.bin (be x.cls), .bin (be field),
    .bin (be (UInt8.ofNat (x.mask.length + x.value.length))), .bin x.value, .bin x.mask]

/-- Local variables of `readFrom`: `length` and `hasmask`. -/
abbrev XMLocal := UInt8 × Bool

/-- `(xm *XM) readFrom`, ofp/match.go:353-385. -/
def XM.read (hasPayload : Bool) : Step XM :=
  Enc.withLocal ((0, false) : XMLocal) <| Enc.readFrom [
    Enc.num (fun v s => ({ s.1 with cls := v }, s.2)),
    Enc.num (fun v s => ({ s.1 with type := v }, s.2)),
    Enc.num (fun v s => (s.1, (v, s.2.2))),
    Enc.assign (fun s =>
      ({ s.1 with type := s.1.type >>> 1, value := zeros s.2.1.toNat, mask := [] },
        (s.2.1, s.1.type &&& 1 == 1))),
    if hasPayload then
      Enc.dyn (fun s => Enc.bin s.2.1.toNat (fun b s => ({ s.1 with value := b }, s.2)))
    else Enc.assign id,
    Enc.assign (fun s =>
      if s.2.2 then
        let length := s.2.1.toNat / 2
        ({ s.1 with mask := (s.1.value.drop length).take length,
                    value := s.1.value.take length }, s.2)
      else s)]

/-- `(xm *XM) ReadFrom`, ofp/match.go:346-348. -/
def XM.readFrom : Step XM := XM.read true

/-- The loop of `readAllXM`, ofp/match.go:330-339, on the `bytes.Buffer` with the bytes
read.  Each iteration consumes at least four bytes, so `fuel` is never exhausted. -/
def readAllXMLoop (hasPayload : Bool) : Nat → List XM → Rd → List XM × Option Err
  | 0, acc, _ => (acc, some .noProgress)
  | fuel + 1, acc, r =>
    if 4 ≤ r.content.length then
      match XM.read hasPayload XM.zero r with
      | ⟨_, _, some e, _⟩ => (acc, some e)
      | ⟨x, _, none, r'⟩ => readAllXMLoop hasPayload fuel (acc ++ [x]) r'
    else (acc, none)

/-- `readAllXM`, ofp/match.go:319-342. -/
def readAllXM (hasPayload : Bool) : Step (List XM) := fun s r =>
  match readAll r with
  | (b, some e, r') => ⟨s, b.length, some e, r'⟩
  | (b, none, r') =>
    match readAllXMLoop hasPayload (b.length + 1) s (.src b [] .eof false) with
    | (xs, e) => ⟨xs, b.length, e, r'⟩

/-- `Match`, ofp/match.go:441-449. -/
structure Match where
  type : UInt16
  fields : List XM
  deriving DecidableEq, Repr, Inhabited

def Match.zero : Match := ⟨0, []⟩

/-- `(m *Match) WriteTo`, ofp/match.go:497-513. -/
def Match.writeTo (m : Match) : Wr :=
  let buf := Enc.writeSliceTo (m.fields.map XM.writeTo)
  match buf.err with
  | some e => ⟨[], 0, some e⟩
  | none =>
    let length := buf.out.length + 4
    Enc.writeTo [.bin (be m.type), .bin (be (UInt16.ofNat length)), .bin buf.out,
      .bin (zeros (padLen length))]

/-- `(m *Match) ReadFrom`, ofp/match.go:464-493. -/
def Match.readFrom : Step Match :=
  Enc.withLocal (0 : UInt16) <| Enc.readFrom [
    Enc.assign (fun s => ({ type := 0, fields := [] }, s.2)),
    Enc.num (fun v s => ({ s.1 with type := v }, s.2)),
    Enc.num (fun v s => (s.1, v)),
    Enc.dyn (fun s => Enc.limited (s.2.toNat - 4)
      (Enc.sub (fun s => s.1.fields) (fun xs s => ({ s.1 with fields := xs }, s.2))
        (readAllXM true))),
    Enc.dyn (fun s => Enc.skip (padLen s.2.toNat))]

/-- `(m *Match) Field`, ofp/match.go:452-460. -/
def Match.field (m : Match) (t : UInt8) : Option XM := m.fields.find? (fun x => x.type == t)

/-- `XMValue.UInt32/UInt16/UInt8`, ofp/match.go:407-422: `encoding.ReadFrom` from a buffer
with the error ignored, so a short value gives zero. -/
def xmValueNum (α : Type) [Wire α] (zero : α) (v : Bytes) : α :=
  (Enc.readFrom [Enc.num (fun (x : α) _ => x)] zero (.src v [] .eof false)).val

/-! ## Helper lemmas -/

/-- What the wire format can represent: seven-bit type, at most 255 bytes of value and
mask, and a mask (if any) as long as the value. -/
def XM.Valid (x : XM) : Prop :=
  x.type.toNat < 128 ∧ x.value.length + x.mask.length ≤ 255 ∧
    (x.mask = [] ∨ x.mask.length = x.value.length)

instance (x : XM) : Decidable x.Valid := by unfold XM.Valid; infer_instance

/-- The bytes of an extensible match. -/
def XM.bytes (x : XM) : Bytes := x.writeTo.out

theorem XM.writeTo_eq (x : XM) : x.writeTo = ⟨x.bytes, x.bytes.length, none⟩ := by
  simp [XM.bytes, XM.writeTo, Enc.writeTo, Enc.gather]

theorem XM.bytes_eq (x : XM) : x.bytes =
    be x.cls ++ (be ((x.type <<< 1) ||| (if 0 < x.mask.length then 1 else 0)) ++
      (be (UInt8.ofNat (x.mask.length + x.value.length)) ++ (x.value ++ x.mask))) := by
  simp [XM.bytes, XM.writeTo, Enc.writeTo, Enc.gather]

theorem XM.bytes_length (x : XM) : x.bytes.length = 4 + x.value.length + x.mask.length := by
  rw [XM.bytes_eq]; simp; omega

theorem xm_type_shift : ∀ n < 128,
    (((UInt8.ofNat n) <<< 1) ||| 1) >>> 1 = UInt8.ofNat n ∧
    ((((UInt8.ofNat n) <<< 1) ||| 1) &&& 1 == 1) = true ∧
    (((UInt8.ofNat n) <<< 1) ||| 0) >>> 1 = UInt8.ofNat n ∧
    ((((UInt8.ofNat n) <<< 1) ||| 0) &&& 1 == 1) = false ∧
    (((UInt8.ofNat n) <<< 1) ||| 1).toNat = 2 * n + 1 ∧
    (((UInt8.ofNat n) <<< 1) ||| 0).toNat = 2 * n := by decide

theorem XM.reads (x : XM) (hv : x.Valid) (s : XM) : Reads XM.readFrom s x.bytes x := by
  obtain ⟨ht, hl, hm⟩ := hv
  obtain ⟨c1, c2, c3, c4, _⟩ := xm_type_shift x.type.toNat ht
  simp only [UInt8.ofNat_toNat] at c1 c2 c3 c4
  rw [XM.bytes_eq]
  have hlen : (UInt8.ofNat (x.mask.length + x.value.length)).toNat =
      x.value.length + x.mask.length := by
    rw [UInt8.toNat_ofNat']; omega
  by_cases hmask : 0 < x.mask.length
  · have hm' : x.mask.length = x.value.length := by
      rcases hm with h | h
      · simp [h] at hmask
      · exact h
    simp only [hmask, if_true]
    refine Reads.withLocal (l' := (UInt8.ofNat (x.mask.length + x.value.length), true)) ?_
    refine Reads.cons (Reads.num _) ?_
    refine Reads.cons (Reads.num _) ?_
    refine Reads.cons (Reads.num _) ?_
    refine Reads.assignCons ?_
    simp only [if_true, c1, c2]
    refine Reads.consNil (Reads.dyn (Reads.bin (by simp only [hlen, List.length_append]))) ?_
    refine Reads.last ?_
    have h2 : (UInt8.ofNat (x.mask.length + x.value.length)).toNat / 2 = x.value.length := by
      rw [hlen]; omega
    have := Reads.assign (f := fun s : XM × XMLocal =>
      if s.2.2 then
        let length := s.2.1.toNat / 2
        ({ s.1 with mask := (s.1.value.drop length).take length,
                    value := s.1.value.take length }, s.2)
      else s) (s := (⟨x.cls, x.type, x.value ++ x.mask, []⟩,
        (UInt8.ofNat (x.mask.length + x.value.length), true)))
    simp only [h2, if_true] at this
    simpa [← hm'] using this
  · have hmn : x.mask = [] := by
      cases h : x.mask with
      | nil => rfl
      | cons a t => simp [h] at hmask
    simp only [hmask, if_false]
    refine Reads.withLocal (l' := (UInt8.ofNat (x.mask.length + x.value.length), false)) ?_
    refine Reads.cons (Reads.num _) ?_
    refine Reads.cons (Reads.num _) ?_
    refine Reads.cons (Reads.num _) ?_
    refine Reads.assignCons ?_
    simp only [if_true, c3, c4]
    refine Reads.consNil (Reads.dyn (Reads.bin (by simp only [hlen, List.length_append]))) ?_
    refine Reads.last ?_
    have := Reads.assign (f := fun s : XM × XMLocal =>
      if s.2.2 then
        let length := s.2.1.toNat / 2
        ({ s.1 with mask := (s.1.value.drop length).take length,
                    value := s.1.value.take length }, s.2)
      else s) (s := (x, (UInt8.ofNat (x.mask.length + x.value.length), false)))
    simp only [Bool.false_eq_true, if_false] at this
    have hx : (⟨x.cls, x.type, x.value ++ x.mask, []⟩ : XM) = x := by
      cases x; simp_all
    rw [show (({cls := x.cls, type := x.type, value := x.value ++ x.mask, mask := []} : XM)) = x from hx]
    exact this

theorem XM.read_safe {E : Err → Prop} [ErrSet E] (p : Bool) : Safe E (XM.read p) := by
  refine Safe.withLocal ?_
  refine Safe.cons Flat.num.safe ?_
  refine Safe.cons Flat.num.safe ?_
  refine Safe.cons Flat.num.safe ?_
  refine Safe.cons Safe.assign ?_
  refine Safe.cons ?_ ?_
  · cases p
    · exact Safe.assign
    · simp only [if_true]; exact Safe.dyn fun s => Flat.bin.safe
  · exact Safe.cons Safe.assign Safe.nil

theorem XM.read_moves (p : Bool) : Moves (XM.read p) :=
  Moves.withLocal (Moves.cons (Flat.num.moves (by simp)))

theorem readAllXMLoop_err (p : Bool) : ∀ (fuel : Nat) (acc : List XM) (r : Rd), r.Ok .eof →
    r.content.length < fuel → ∀ e, (readAllXMLoop p fuel acc r).2 = some e → ShortErr e := by
  intro fuel
  induction fuel with
  | zero => intro acc r hr hf; omega
  | succ fuel ih =>
    intro acc r hr hf e he
    obtain ⟨⟨m1, hm1, a1⟩, o1, e1⟩ := XM.read_safe (E := ShortErr) p XM.zero r hr
    have hmv := XM.read_moves p XM.zero r hr
    rcases hst : XM.read p XM.zero r with ⟨v, n1, ee, r1⟩
    rw [hst] at hm1 a1 o1 e1 hmv
    simp only at hm1 a1 o1 e1 hmv
    by_cases h4 : 4 ≤ r.content.length
    · cases ee with
      | some ee =>
        simp only [readAllXMLoop, h4, if_true, hst] at he
        exact e1 e he
      | none =>
        simp only [readAllXMLoop, h4, if_true, hst] at he
        have hl : r1.content.length = r.content.length - m1 := by rw [a1.content.2]; simp
        exact ih _ r1 o1 (by have := hmv rfl; have := a1.content.1; omega) e he
    · simp only [readAllXMLoop, h4, if_false] at he; cases he

theorem readAllXM_safe {E : Err → Prop} [ErrSet E] (p : Bool) : Safe E (readAllXM p) := by
  refine Safe.mono (E := ShortErr) ?_ ErrSet.short
  intro s r hr
  obtain ⟨r', h1, h2, h3⟩ := readAll_spec .eof r hr
  simp only [readAllXM, h1, skipEOF]
  refine ⟨⟨_, Nat.le_refl _, h2⟩, h3, ?_⟩
  intro e he
  exact readAllXMLoop_err p _ _ _ (by simp [Rd.Ok]) (by simp [Rd.content]) e he

theorem Match.readFrom_safe {E : Err → Prop} [ErrSet E] : Safe E Match.readFrom := by
  refine Safe.withLocal ?_
  refine Safe.cons Safe.assign ?_
  refine Safe.cons Flat.num.safe ?_
  refine Safe.cons Flat.num.safe ?_
  refine Safe.cons (Safe.dyn fun s => Safe.limited (Safe.sub (readAllXM_safe true))) ?_
  exact Safe.cons (Safe.dyn fun s => Flat.skip.safe) Safe.nil

theorem Match.readFrom_moves : Moves Match.readFrom :=
  Moves.withLocal (Moves.tail (E := ShortErr) (Safe.assign) (Moves.cons (Flat.num.moves (by simp))))

theorem readAllXMLoop_reads' {ι : Type} (p : Bool) (enc : ι → Bytes) (val : ι → XM) (xs : List ι)
    (h : ∀ x ∈ xs, ∀ s, Reads (XM.read p) s (enc x) (val x)) (hl : ∀ x ∈ xs, 4 ≤ (enc x).length) :
    ∀ (fuel : Nat) (acc : List XM) (r : Rd), r.Ok .eof → r.content = xs.flatMap enc →
      r.content.length < fuel → readAllXMLoop p fuel acc r = (acc ++ xs.map val, none) := by
  induction xs with
  | nil =>
    intro fuel acc r hr hc hf
    cases fuel with
    | zero => omega
    | succ fuel =>
      have : r.content = [] := by simpa using hc
      simp [readAllXMLoop, this]
  | cons x xs ih =>
    intro fuel acc r hr hc hf
    cases fuel with
    | zero => omega
    | succ fuel =>
      have h4 := hl x (by simp)
      have hcl : r.content.length = (enc x).length + (xs.flatMap enc).length := by rw [hc]; simp
      obtain ⟨r1, e1, a1, o1⟩ := h x (by simp) XM.zero r (xs.flatMap enc) hr (by simpa using hc)
      have hc1 : r1.content = xs.flatMap enc := by rw [a1.content.2, hc]; simp
      have := ih (fun y hy => h y (by simp [hy])) (fun y hy => hl y (by simp [hy])) fuel
        (acc ++ [val x]) r1 o1 hc1 (by rw [hc1]; omega)
      have hge : 4 ≤ r.content.length := by omega
      simp [readAllXMLoop, hge, e1, this]

theorem readAllXM_reads' {ι : Type} (p : Bool) (enc : ι → Bytes) (val : ι → XM) (s : List XM)
    (xs : List ι) (h : ∀ x ∈ xs, ∀ s, Reads (XM.read p) s (enc x) (val x))
    (hl : ∀ x ∈ xs, 4 ≤ (enc x).length) :
    ReadsAll (readAllXM p) s (xs.flatMap enc) (s ++ xs.map val) := by
  refine ⟨fun F r hr hf => ?_⟩
  obtain ⟨e, r', h1, h0, h2, h3⟩ := readAll_specB F r hr
  have := readAllXMLoop_reads' p enc val xs h hl ((xs.flatMap enc).length + 1) s
    (.src (xs.flatMap enc) [] .eof false) (by simp [Rd.Ok]) rfl (by simp [Rd.content])
  rcases hf.end hr h0 with ⟨hF, he⟩ | ⟨hc, he⟩
  · exact .inl ⟨hF, by simp only [readAllXM, h1, he]⟩
  · refine .inr ⟨r', ?_, by rw [← hc]; exact h2, h3⟩
    simp only [readAllXM, h1, he, hc, this]

theorem readAllXM_reads (p : Bool) (enc : XM → Bytes) (s xs : List XM)
    (h : ∀ x ∈ xs, ∀ s, Reads (XM.read p) s (enc x) x) (hl : ∀ x ∈ xs, 4 ≤ (enc x).length) :
    ReadsAll (readAllXM p) s (xs.flatMap enc) (s ++ xs) := by
  simpa using readAllXM_reads' p enc (fun x => x) s xs h hl

/-- The bytes of a list of matches. -/
theorem writeSliceTo_map {α : Type} (f : α → Wr) (g : α → Bytes) (xs : List α)
    (h : ∀ x ∈ xs, f x = ⟨g x, (g x).length, none⟩) :
    Enc.writeSliceTo (xs.map f) = ⟨xs.flatMap g, (xs.flatMap g).length, none⟩ := by
  induction xs with
  | nil => rfl
  | cons x xs ih =>
    have := ih (fun y hy => h y (by simp [hy]))
    simp [Enc.writeSliceTo, this, h x (by simp)]

/-- The bytes of a `Match`. -/
def Match.bytes (m : Match) : Bytes := m.writeTo.out

/-- The fields part. -/
def Match.fieldBytes (m : Match) : Bytes := m.fields.flatMap XM.bytes

theorem Match.bytes_eq (m : Match) : m.bytes =
    be m.type ++ (be (UInt16.ofNat (m.fieldBytes.length + 4)) ++ (m.fieldBytes ++
      zeros (padLen (m.fieldBytes.length + 4)))) := by
  simp [Match.bytes, Match.writeTo, writeSliceTo_map XM.writeTo XM.bytes m.fields
    (fun x _ => x.writeTo_eq), Enc.writeTo, Enc.gather, Match.fieldBytes]

theorem Match.writeTo_eq (m : Match) : m.writeTo = ⟨m.bytes, m.bytes.length, none⟩ := by
  simp [Match.bytes, Match.writeTo, writeSliceTo_map XM.writeTo XM.bytes m.fields
    (fun x _ => x.writeTo_eq), Enc.writeTo, Enc.gather]

theorem Match.bytes_length (m : Match) : m.bytes.length =
    m.fieldBytes.length + 4 + padLen (m.fieldBytes.length + 4) := by
  rw [Match.bytes_eq]; simp; omega

/-- What the wire format can represent. -/
def Match.Valid (m : Match) : Prop :=
  (∀ x ∈ m.fields, x.Valid) ∧ 4 + (m.fields.map (fun x => 4 + x.value.length + x.mask.length)).sum ≤ 65535

instance (m : Match) : Decidable m.Valid := by unfold Match.Valid; infer_instance

theorem Match.fieldBytes_length (m : Match) : m.fieldBytes.length =
    (m.fields.map (fun x => 4 + x.value.length + x.mask.length)).sum := by
  simp only [Match.fieldBytes, List.length_flatMap, XM.bytes_length]

theorem u16_ofNat_toNat {n : Nat} (h : n ≤ 65535) : (UInt16.ofNat n).toNat = n := by
  rw [UInt16.toNat_ofNat']; omega

theorem Match.reads (m : Match) (hv : m.Valid) (s : Match) : Reads Match.readFrom s m.bytes m := by
  obtain ⟨h1, h2⟩ := hv
  rw [← Match.fieldBytes_length] at h2
  rw [Match.bytes_eq]
  have hlen := u16_ofNat_toNat (n := m.fieldBytes.length + 4) (by omega)
  refine Reads.withLocal (l' := UInt16.ofNat (m.fieldBytes.length + 4)) ?_
  refine Reads.assignCons ?_
  refine Reads.cons (Reads.num _) ?_
  refine Reads.cons (Reads.num _) ?_
  refine Reads.cons (Reads.dyn (Reads.limited (ReadsAll.sub
    (readAllXM_reads true XM.bytes [] m.fields (fun x hx s => x.reads (h1 x hx) s)
      (fun x _ => by rw [XM.bytes_length]; omega))) ?_)) ?_
  · simp only [hlen]; simp [Match.fieldBytes]
  · refine Reads.last (Reads.dyn (Reads.skip ?_))
    simp only [hlen, zeros_length]

end Verif
