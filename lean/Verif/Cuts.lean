import Verif.Fails
import Verif.Ofp.Flow
import Verif.Ofp.Packet
import Verif.Ofp.Group

/-!
# Where the decoders stop on a truncated input
-/

namespace Verif

variable {σ τ : Type}

theorem Fields.subVal {get : σ → τ} {st : Step τ} {ks : List Nat} (h : Fields st ks) :
    Fields (Enc.subVal get st) ks :=
  ⟨fun s r hr => h.1 (get s) r hr, fun s r hr => h.2 (get s) r hr⟩

theorem actionHeader.fields : Fields actionHeader.readFrom [2, 2] :=
  Fields.cons Fields.num (Fields.cons Fields.num Fields.nil)

theorem skipActionHeader_fields {σ : Type} : Fields (skipActionHeader (σ := σ)) [2, 2] :=
  Fields.subVal actionHeader.fields

theorem instructionHeader.fields : Fields instructionHeader.readFrom [2, 2] :=
  Fields.cons Fields.num (Fields.cons Fields.num Fields.nil)

theorem skipInstructionHeader_fields {σ : Type} : Fields (skipInstructionHeader (σ := σ)) [2, 2] :=
  Fields.subVal instructionHeader.fields

/-- `take` in the second part of an append. -/
theorem take_append_ge {a b : Bytes} {k : Nat} (h : a.length ≤ k) :
    (a ++ b).take k = a ++ b.take (k - a.length) := by
  rw [List.take_append, List.take_of_length_le h]

theorem take_append_lt {a b : Bytes} {k : Nat} (h : k ≤ a.length) : (a ++ b).take k = a.take k :=
  List.take_append_of_le_length h

/-! ## Extensible matches -/

/-- The error of the `XM` decoder on the first `k` bytes of an encoding. -/
def XM.cutErr (k : Nat) : Err := if k ∈ [0, 2, 3, 4] then .eof else .unexpectedEOF

theorem XM.stops {d : Nat} (x : XM) (hv : x.Valid) (s : XM) (k : Nat) (hk : k < x.bytes.length) :
    Stops XM.readFrom s (x.bytes.take k) (some (XM.cutErr k)) (fun _ => True) d := by
  have hl := XM.bytes_length x
  by_cases h4 : k < 4
  · have hF : Fields (Enc.readFrom [Enc.num (fun (v : UInt16) (s : XM × XMLocal) => ({ s.1 with cls := v }, s.2)),
        Enc.num (fun (v : UInt8) s => ({ s.1 with type := v }, s.2)),
        Enc.num (fun (v : UInt8) s => (s.1, (v, s.2.2)))]) [2, 1, 1] :=
      Fields.cons Fields.num (Fields.cons Fields.num (Fields.cons Fields.num Fields.nil))
    have hlen : (x.bytes.take k).length = k := by rw [List.length_take]; omega
    have h := hF.stops (d := d) (s := (s, (0, false))) (b := x.bytes.take k) (by rw [hlen]; simpa using h4)
    rw [hlen, show cuts [2, 1, 1] = [0, 2, 3] from rfl] at h
    have he : (if k ∈ [0, 2, 3] then Err.eof else .unexpectedEOF) = XM.cutErr k := by
      unfold XM.cutErr
      have : k ≠ 4 := by omega
      simp [this]
    rw [he] at h
    exact (Stops.withLocal (Stops.pre h)).mono fun _ _ => trivial
  · have h4 : 4 ≤ k := by omega
    have hlen : (UInt8.ofNat (x.mask.length + x.value.length)).toNat = x.value.length + x.mask.length := by
      have := hv.2.1; rw [UInt8.toNat_ofNat']; omega
    have hb : x.bytes.take k = be x.cls ++ (be ((x.type <<< 1) ||| (if 0 < x.mask.length then 1 else 0)) ++
      (be (UInt8.ofNat (x.mask.length + x.value.length)) ++ (x.value ++ x.mask).take (k - 4))) := by
      rw [XM.bytes_eq, take_append_ge (by simp; omega), take_append_ge (by simp; omega),
        take_append_ge (by simp; omega)]
      simp [Nat.sub_sub]
    have hpl : ((x.value ++ x.mask).take (k - 4)).length = k - 4 := by
      rw [List.length_take, List.length_append]; omega
    have he : (if (x.value ++ x.mask).take (k - 4) = [] then Err.eof else .unexpectedEOF) = XM.cutErr k := by
      unfold XM.cutErr
      by_cases h : k = 4
      · simp [h]
      · rw [if_neg (by intro h0; rw [h0] at hpl; simp at hpl; omega), if_neg (by simp; omega)]
    rw [hb]
    refine (Stops.withLocal (V := fun _ => True) ?_).mono fun _ _ => trivial
    refine Stops.cons (Reads.num _) ?_
    refine Stops.cons (Reads.num _) ?_
    refine Stops.cons (Reads.num _) ?_
    refine Stops.assignCons ?_
    rw [← he]
    simp only [if_true]
    exact (Stops.here (Stops.dyn (Stops.bin (by simp only [hlen, hpl]; omega)))).mono fun _ _ => trivial

/-! ## Actions -/

/-- The error of an action decoder on the first `k` bytes of an encoding. -/
def Action.cutErr : Action → Nat → Option Err
  | .setField f, k =>
    if 8 + f.value.length + f.mask.length ≤ k then none
    else if k ∈ [0, 2, 4, 6, 7, 8] then some .eof else some .unexpectedEOF
  | .output .., k => if k ∈ [0, 2, 4, 8, 10] then some .eof else some .unexpectedEOF
  | .setMPLSTTL .., k => if k ∈ [0, 2, 4, 5] then some .eof else some .unexpectedEOF
  | .setNwTTL .., k => if k ∈ [0, 4, 5] then some .eof else some .unexpectedEOF
  | .pushVLAN .., k | .pushMPLS .., k | .popMPLS .., k | .pushPBB .., k =>
    if k ∈ [0, 4, 6] then some .eof else some .unexpectedEOF
  | .setQueue .., k | .group .., k | .experimenter .., k =>
    if k ∈ [0, 4] then some .eof else some .unexpectedEOF
  | _, k => if k ∈ [0] then some .eof else some .unexpectedEOF

theorem setField.stops {d : Nat} (f : XM) (hv : f.Valid) (s : XM) (k : Nat) (hk : k < (Action.setField f).size) :
    Stops setField.readFrom s ((Action.setField f).bytes.take k) ((Action.setField f).cutErr k)
      (fun _ => True) d := by
  have hl := XM.bytes_length f
  have hsz : (Action.setField f).size = 4 + f.bytes.length + padLen (4 + f.bytes.length) := by
    simp only [Action.size, padLen, hl]; omega
  by_cases h4 : k < 4
  · have hlen : ((Action.setField f).bytes.take k).length = k := by
      rw [List.length_take, Action.bytes_length]; omega
    have h := actionHeader.fields.stops (d := d) (s := (0, 0)) (b := (Action.setField f).bytes.take k)
      (by rw [hlen]; simpa using h4)
    rw [hlen, show cuts [2, 2] = [0, 2] from rfl] at h
    have he : some (if k ∈ [0, 2] then Err.eof else .unexpectedEOF) = (Action.setField f).cutErr k := by
      simp only [Action.cutErr]
      rw [if_neg (show ¬ 8 + f.value.length + f.mask.length ≤ k by omega)]
      have h6 : k ≠ 6 := by omega
      have h7 : k ≠ 7 := by omega
      have h8 : k ≠ 8 := by omega
      have h4' : k ≠ 4 := by omega
      simp only [List.mem_cons, h6, h7, h8, h4', List.not_mem_nil, or_false]
      split <;> rfl
    rw [← he]
    exact (Stops.withLocal (Stops.here (Stops.sub (set := fun h s => (s.1, h)) (s := (s, (0, 0)))
      (get := fun s => s.2) h))).mono fun _ _ => trivial
  · have h4 : 4 ≤ k := by omega
    have hle : 4 + f.bytes.length + padLen (4 + f.bytes.length) ≤ 65535 := by
      have := hv.2.1
      have := padLen_lt (4 + f.bytes.length)
      rw [XM.bytes_length] at *; omega
    have hlen := u16_ofNat_toNat hle
    have hsub : (UInt16.ofNat (4 + f.bytes.length + padLen (4 + f.bytes.length)) - 4).toNat =
        f.bytes.length + padLen (4 + f.bytes.length) := by
      rw [UInt16.toNat_sub_of_le]
      · rw [hlen]; simp; omega
      · rw [UInt16.le_iff_toNat_le, hlen]; simp; omega
    have hb : (Action.setField f).bytes.take k = (be (25 : UInt16) ++
        be (UInt16.ofNat (4 + f.bytes.length + padLen (4 + f.bytes.length)))) ++
        (f.bytes ++ zeros (padLen (4 + f.bytes.length))).take (k - 4) := by
      rw [setField_bytes, ← List.append_assoc, take_append_ge (by simp; omega)]
      simp
    rw [hb]
    refine (Stops.withLocal (V := fun _ => True) ?_).mono fun _ _ => trivial
    refine Stops.cons (Reads.sub (actionHeader.reads _ _ _)) ?_
    refine Stops.last (Stops.dyn (Stops.limited ?_ ?_))
    · by_cases hx : k < 4 + f.bytes.length
      · rw [take_append_lt (by omega)]
        have he : some (XM.cutErr (k - 4)) = (Action.setField f).cutErr k := by
          simp only [Action.cutErr, XM.cutErr]
          rw [if_neg (show ¬ 8 + f.value.length + f.mask.length ≤ k by omega)]
          have : (k - 4 ∈ [0, 2, 3, 4]) ↔ (k ∈ [0, 2, 4, 6, 7, 8]) := by
            simp only [List.mem_cons, List.not_mem_nil, or_false]; omega
          simp only [this]
          split <;> rfl
        rw [← he]
        exact (Stops.here (Stops.sub (set := fun x s => (x, s.2)) (get := fun s => s.1)
          (f.stops hv _ (k - 4) (by omega)))).mono fun _ _ => trivial
      · rw [take_append_ge (by omega)]
        have he : (Action.setField f).cutErr k = none := by
          simp only [Action.cutErr]; rw [if_pos (show 8 + f.value.length + f.mask.length ≤ k by omega)]
        rw [he]
        have := ReadsAll.cons (Reads.sub (get := fun s : XM × UInt16 × UInt16 => s.1) (set := fun x s => (x, s.2))
          (s := (s, (25, UInt16.ofNat (4 + f.bytes.length + padLen (4 + f.bytes.length))))) (f.reads hv s))
          (ReadsAll.last (ReadsAll.rest (set := fun _ s => s)
            ((zeros (padLen (4 + f.bytes.length))).take (k - 4 - f.bytes.length))))
        exact this.stops.mono fun _ _ => trivial
    · simp only [hsub, List.length_take, List.length_append, zeros_length]; omega

theorem Action.stops {d : Nat} (a : Action) (hv : a.Valid) (k : Nat) (hk : k < a.size) :
    Stops Action.readFrom a.zero (a.bytes.take k) (a.cutErr k) (fun _ => True) d := by
  have hlen : (a.bytes.take k).length = k := by
    rw [List.length_take, Action.bytes_length]; omega
  have key : ∀ {τ : Type} {st : Step τ} {ks cs : List Nat} {t : τ} {b : Bytes} (f : τ → Action) (z : Action)
      (_ : Fields st ks) (_ : b.length = k) (_ : k < ks.sum) (_ : cuts ks = cs)
      (_ : ∀ r, Action.readFrom z r = Enc.wrap f st t r),
      Stops Action.readFrom z b (if k ∈ cs then some .eof else some .unexpectedEOF) (fun _ => True) d := by
    intro τ st ks cs t b f z hF hl hs hcs hd
    have h := hF.stops (d := d) (s := t) (b := b) (by omega)
    rw [hl, hcs] at h
    have : (if k ∈ cs then some Err.eof else some .unexpectedEOF) = some (if k ∈ cs then .eof else .unexpectedEOF) := by
      split <;> rfl
    rw [this]
    exact (Stops.wrap h hd).mono fun _ _ => trivial
  have h8 : ∀ {σ : Type}, Fields (Enc.readFrom [Enc.skip (σ := σ) 8]) [8] := Fields.cons Fields.skip Fields.nil
  have hpush : Fields (Enc.readFrom [Enc.skip 4, Enc.num (fun (v : UInt16) _ => v), Enc.skip 2]) [4, 2, 2] :=
    Fields.cons Fields.skip (Fields.cons Fields.num (Fields.cons Fields.skip Fields.nil))
  have h32 : Fields (Enc.readFrom [Enc.skip 4, Enc.num (fun (v : UInt32) _ => v)]) [4, 4] :=
    Fields.cons Fields.skip (Fields.cons Fields.num Fields.nil)
  cases a with
  | output p m =>
    exact key (fun s : UInt32 × UInt16 => Action.output s.1 s.2) _ (ks := [2, 2, 4, 2, 6])
      (Fields.cons skipActionHeader_fields (Fields.cons Fields.num (Fields.cons Fields.num
        (Fields.cons Fields.skip Fields.nil)))) hlen hk rfl (fun r => rfl)
  | copyTTLOut => exact key (fun _ : Unit => .copyTTLOut) _ h8 hlen hk rfl (fun r => rfl)
  | copyTTLIn => exact key (fun _ : Unit => .copyTTLIn) _ h8 hlen hk rfl (fun r => rfl)
  | decMPLSTTL => exact key (fun _ : Unit => .decMPLSTTL) _ h8 hlen hk rfl (fun r => rfl)
  | popVLAN => exact key (fun _ : Unit => .popVLAN) _ h8 hlen hk rfl (fun r => rfl)
  | decNwTTL => exact key (fun _ : Unit => .decNwTTL) _ h8 hlen hk rfl (fun r => rfl)
  | setMPLSTTL t =>
    exact key Action.setMPLSTTL _ (ks := [2, 2, 1, 3]) (Fields.cons skipActionHeader_fields
      (Fields.cons Fields.num (Fields.cons Fields.skip Fields.nil))) hlen hk rfl (fun r => rfl)
  | setNwTTL t =>
    exact key Action.setNwTTL _ (ks := [4, 1, 3]) (Fields.cons Fields.skip
      (Fields.cons Fields.num (Fields.cons Fields.skip Fields.nil))) hlen hk rfl (fun r => rfl)
  | pushVLAN t => exact key Action.pushVLAN _ hpush hlen hk rfl (fun r => rfl)
  | pushMPLS t => exact key Action.pushMPLS _ hpush hlen hk rfl (fun r => rfl)
  | popMPLS t => exact key Action.popMPLS _ hpush hlen hk rfl (fun r => rfl)
  | pushPBB t => exact key Action.pushPBB _ hpush hlen hk rfl (fun r => rfl)
  | setQueue t => exact key Action.setQueue _ h32 hlen hk rfl (fun r => rfl)
  | group t => exact key Action.group _ h32 hlen hk rfl (fun r => rfl)
  | experimenter t => exact key Action.experimenter _ h32 hlen hk rfl (fun r => rfl)
  | setField f => exact (Stops.wrap (f := Action.setField) (dec := Action.readFrom) (s := (Action.setField f).zero)
      (setField.stops f hv _ k hk) (fun r => rfl)).mono fun _ _ => trivial

/-- The error of the decoder of a list of actions that ends with the first `k` bytes of `a`. -/
def Actions.cutErr (a : Action) (k : Nat) : Option Err := if k < 2 then none else (a.cutErr k).bind skipEOF

theorem Actions.stops (as : List Action) (a : Action) (hv : ∀ a ∈ as, a.Valid) (ha : a.Valid) (k : Nat)
    (hk : k < a.size) (s : List Action) :
    Stops Actions.readFrom s (Actions.bytes as ++ a.bytes.take k) (Actions.cutErr a k)
      (fun l => ∃ t, l = as ++ t ∧ t.length = if k < 2 then 0 else 1) := by
  refine Stops.assignCons (Stops.last ?_)
  by_cases h2 : k < 2
  · rw [Actions.cutErr, if_pos h2]
    refine (Stops.scanOne (enc := Action.bytes) (zero := Action.zero) (code := Action.type) (a.bytes.take k)
      (by rw [List.length_take]; omega) [] as
      (fun a ha => a.reads (hv a ha)) (fun a _ => actionMake_type a) (fun a _ => a.bytes_type)).mono ?_
    rintro _ rfl
    exact ⟨[], by simp, by simp [h2]⟩
  · rw [Actions.cutErr, if_neg h2]
    obtain ⟨t, ht⟩ := a.bytes_type
    refine (Stops.scanFrom (enc := Action.bytes) (zero := Action.zero) (code := Action.type)
      (b0 := a.bytes.take k) (c := a.type) (z := a.zero) (t := t.take (k - 2))
      (by rw [ht, take_append_ge (by simp; omega)]; simp) (actionMake_type a) (a.stops ha k hk) [] as
      (fun a ha => a.reads (hv a ha)) (fun a _ => actionMake_type a) (fun a _ => a.bytes_type)).mono ?_
    rintro _ ⟨v, _, rfl⟩
    exact ⟨[v], by simp, by simp [h2]⟩

/-- The error of the decoder of a list of actions on the first `k` bytes. -/
def Actions.cut : List Action → Nat → Option Err
  | [], _ => none
  | a :: as, k => if k < a.size then Actions.cutErr a k else Actions.cut as (k - a.size)

theorem Actions.cut_split (as : List Action) (k : Nat) (hk : k < (Actions.bytes as).length) :
    ∃ as1 a as2 j, as = as1 ++ a :: as2 ∧ k = (Actions.bytes as1).length + j ∧ j < a.size ∧
      (Actions.bytes as).take k = Actions.bytes as1 ++ a.bytes.take j ∧
      Actions.cut as k = Actions.cutErr a j := by
  induction as generalizing k with
  | nil => simp [Actions.bytes] at hk
  | cons a as ih =>
    have hb : Actions.bytes (a :: as) = a.bytes ++ Actions.bytes as := rfl
    have hl := a.bytes_length
    by_cases h : k < a.size
    · refine ⟨[], a, as, k, rfl, by simp [Actions.bytes], h, ?_, by simp [Actions.cut, h]⟩
      rw [hb, take_append_lt (by omega)]
      simp [Actions.bytes]
    · obtain ⟨as1, a', as2, j, h1, h2, h3, h4, h5⟩ := ih (k - a.size)
        (by rw [hb, List.length_append] at hk; omega)
      refine ⟨a :: as1, a', as2, j, by rw [h1]; rfl, ?_, h3, ?_, by simp [Actions.cut, h, h5]⟩
      · have : Actions.bytes (a :: as1) = a.bytes ++ Actions.bytes as1 := rfl
        rw [this, List.length_append]; omega
      · have : Actions.bytes (a :: as1) = a.bytes ++ Actions.bytes as1 := rfl
        rw [this, hb, take_append_ge (by omega), hl, h4, List.append_assoc]

theorem Actions.stops_take (as : List Action) (hv : ∀ a ∈ as, a.Valid) (k : Nat)
    (hk : k < (Actions.bytes as).length) (s : List Action) :
    Stops Actions.readFrom s ((Actions.bytes as).take k) (Actions.cut as k)
      (fun l => ∃ as1 t, l = as1 ++ t ∧ t.length ≤ 1 ∧ as1 <+: as) := by
  obtain ⟨as1, a, as2, j, rfl, h2, h3, h4, h5⟩ := Actions.cut_split as k hk
  rw [h4, h5]
  refine (Actions.stops as1 a (fun x hx => hv x (by simp [hx])) (hv a (by simp)) j h3 s).mono ?_
  rintro l ⟨t, rfl, ht⟩
  exact ⟨as1, t, rfl, by rw [ht]; split <;> omega, List.prefix_append _ _⟩

/-! ## Instructions -/

/-- The error of an instruction decoder on the first `k` bytes of an encoding. -/
def Instruction.cutErr : Instruction → Nat → Option Err
  | .gotoTable .., k => if k ∈ [0, 2, 4, 5] then some .eof else some .unexpectedEOF
  | .writeMetadata .., k => if k ∈ [0, 2, 4, 8, 16] then some .eof else some .unexpectedEOF
  | .clearActions, k => if k ∈ [0] then some .eof else some .unexpectedEOF
  | .meter .., k => if k ∈ [0, 2, 4] then some .eof else some .unexpectedEOF
  | .writeActions as, k | .applyActions as, k =>
    if k < 8 then (if k ∈ [0, 2, 4] then some .eof else some .unexpectedEOF) else Actions.cut as (k - 8)

theorem readInstructionActions_stops {d : Nat} (t : UInt16) (as : List Action) (hv : ∀ a ∈ as, a.Valid)
    (hl : 8 + (as.map Action.size).sum ≤ 65535) (s : List Action) (k : Nat)
    (hk : k < (writeInstructionActions t as).out.length) :
    Stops readInstructionActions s ((writeInstructionActions t as).out.take k)
      (if k < 8 then (if k ∈ [0, 2, 4] then some .eof else some .unexpectedEOF) else Actions.cut as (k - 8))
      (fun _ => True) d := by
  rw [← Actions.bytes_length] at hl
  have hlen : ((writeInstructionActions t as).out.take k).length = k := by rw [List.length_take]; omega
  by_cases h8 : k < 8
  · rw [if_pos h8]
    have hF : Fields (Enc.readFrom [
        Enc.sub (fun s : List Action × UInt16 × UInt16 => s.2) (fun h s => (s.1, h)) instructionHeader.readFrom,
        Enc.skip 4]) [2, 2, 4] :=
      Fields.cons (Fields.sub instructionHeader.fields) (Fields.cons Fields.skip Fields.nil)
    have h := hF.stops (d := d) (s := (s, (0, 0))) (b := (writeInstructionActions t as).out.take k)
      (by rw [hlen]; simpa using h8)
    rw [hlen, show cuts [2, 2, 4] = [0, 2, 4] from rfl] at h
    have : (if k ∈ [0, 2, 4] then some Err.eof else some .unexpectedEOF) =
        some (if k ∈ [0, 2, 4] then .eof else .unexpectedEOF) := by split <;> rfl
    rw [this]
    exact (Stops.withLocal (Stops.pre h)).mono fun _ _ => trivial
  · rw [if_neg h8]
    rw [instructionActions_bytes] at hk
    have hkl : k < 8 + (Actions.bytes as).length := by
      simp at hk; omega
    have hlen16 := u16_ofNat_toNat hl
    have hsub : (UInt16.ofNat (8 + (Actions.bytes as).length) - 8).toNat = (Actions.bytes as).length := by
      rw [UInt16.toNat_sub_of_le]
      · rw [hlen16]; simp
      · rw [UInt16.le_iff_toNat_le, hlen16]; simp
    have hb : (writeInstructionActions t as).out.take k =
        (be t ++ be (UInt16.ofNat (8 + (Actions.bytes as).length))) ++
          (zeros 4 ++ (Actions.bytes as).take (k - 8)) := by
      rw [instructionActions_bytes, take_append_ge (by simp; omega), take_append_ge (by simp; omega)]
      simp [Nat.sub_sub]
    rw [hb]
    refine (Stops.withLocal (V := fun _ => True) ?_).mono fun _ _ => trivial
    refine Stops.cons (Reads.sub (instructionHeader.reads _ _ _)) ?_
    refine Stops.cons (Reads.skip (by simp)) ?_
    refine (Stops.last (Stops.dyn (Stops.limited (Stops.sub
      (Actions.stops_take as hv (k - 8) (by omega) _)) ?_))).mono fun _ _ => trivial
    simp only [hsub, List.length_take]; omega

theorem Instruction.stops {d : Nat} (i : Instruction) (hv : i.Valid) (k : Nat) (hk : k < i.size) :
    Stops Instruction.readFrom i.zero (i.bytes.take k) (i.cutErr k) (fun _ => True) d := by
  have hlen : (i.bytes.take k).length = k := by
    rw [List.length_take, Instruction.bytes_length]; omega
  have key : ∀ {τ : Type} {st : Step τ} {ks cs : List Nat} {t : τ} {b : Bytes} (f : τ → Instruction)
      (z : Instruction) (_ : Fields st ks) (_ : b.length = k) (_ : k < ks.sum) (_ : cuts ks = cs)
      (_ : ∀ r, Instruction.readFrom z r = Enc.wrap f st t r),
      Stops Instruction.readFrom z b (if k ∈ cs then some .eof else some .unexpectedEOF) (fun _ => True) d := by
    intro τ st ks cs t b f z hF hl hs hcs hd
    have h := hF.stops (d := d) (s := t) (b := b) (by omega)
    rw [hl, hcs] at h
    have : (if k ∈ cs then some Err.eof else some .unexpectedEOF) = some (if k ∈ cs then .eof else .unexpectedEOF) := by
      split <;> rfl
    rw [this]
    exact (Stops.wrap h hd).mono fun _ _ => trivial
  cases i with
  | gotoTable t =>
    exact key Instruction.gotoTable _ (ks := [2, 2, 1, 3]) (Fields.cons skipInstructionHeader_fields
      (Fields.cons Fields.num (Fields.cons Fields.skip Fields.nil))) hlen hk rfl (fun r => rfl)
  | writeMetadata m n =>
    exact key (fun s : UInt64 × UInt64 => Instruction.writeMetadata s.1 s.2) _ (ks := [2, 2, 4, 8, 8])
      (Fields.cons skipInstructionHeader_fields (Fields.cons Fields.skip (Fields.cons Fields.num
        (Fields.cons Fields.num Fields.nil)))) hlen hk rfl (fun r => rfl)
  | clearActions =>
    exact key (fun _ : Unit => Instruction.clearActions) _ (ks := [8]) (Fields.cons Fields.skip Fields.nil)
      hlen hk rfl (fun r => rfl)
  | meter m =>
    exact key Instruction.meter _ (ks := [2, 2, 4]) (Fields.cons skipInstructionHeader_fields
      (Fields.cons Fields.num Fields.nil)) hlen hk rfl (fun r => rfl)
  | writeActions as =>
    rw [← Instruction.bytes_length] at hk
    exact (Stops.wrap (f := Instruction.writeActions) (dec := Instruction.readFrom)
      (s := (Instruction.writeActions as).zero)
      (readInstructionActions_stops _ as hv.1 hv.2 _ k hk) (fun r => rfl)).mono fun _ _ => trivial
  | applyActions as =>
    rw [← Instruction.bytes_length] at hk
    exact (Stops.wrap (f := Instruction.applyActions) (dec := Instruction.readFrom)
      (s := (Instruction.applyActions as).zero)
      (readInstructionActions_stops _ as hv.1 hv.2 _ k hk) (fun r => rfl)).mono fun _ _ => trivial

/-- The error of the decoder of a list of instructions that ends with the first `k` bytes of `i`. -/
def Instructions.cutErr (i : Instruction) (k : Nat) : Option Err :=
  if k < 2 then none else (i.cutErr k).bind skipEOF

theorem Instructions.stops (is : List Instruction) (i : Instruction) (hv : ∀ i ∈ is, i.Valid) (hi : i.Valid)
    (k : Nat) (hk : k < i.size) (s : List Instruction) :
    Stops Instructions.readFrom s (Instructions.bytes is ++ i.bytes.take k) (Instructions.cutErr i k)
      (fun l => ∃ t, l = s ++ is ++ t ∧ t.length = if k < 2 then 0 else 1) := by
  by_cases h2 : k < 2
  · rw [Instructions.cutErr, if_pos h2]
    refine (Stops.scanOne (enc := Instruction.bytes) (zero := Instruction.zero) (code := Instruction.type)
      (i.bytes.take k) (by rw [List.length_take]; omega) s is
      (fun a ha => a.reads (hv a ha)) (fun a _ => instructionMake_type a) (fun a _ => a.bytes_type)).mono ?_
    rintro _ rfl
    exact ⟨[], by simp, by simp [h2]⟩
  · rw [Instructions.cutErr, if_neg h2]
    obtain ⟨t, ht⟩ := i.bytes_type
    refine (Stops.scanFrom (enc := Instruction.bytes) (zero := Instruction.zero) (code := Instruction.type)
      (b0 := i.bytes.take k) (c := i.type) (z := i.zero) (t := t.take (k - 2))
      (by rw [ht, take_append_ge (by simp; omega)]; simp) (instructionMake_type i) (i.stops hi k hk) s is
      (fun a ha => a.reads (hv a ha)) (fun a _ => instructionMake_type a) (fun a _ => a.bytes_type)).mono ?_
    rintro _ ⟨v, _, rfl⟩
    exact ⟨[v], by simp, by simp [h2]⟩

/-- The error of the decoder of a list of instructions on the first `k` bytes. -/
def Instructions.cut : List Instruction → Nat → Option Err
  | [], _ => none
  | i :: is, k => if k < i.size then Instructions.cutErr i k else Instructions.cut is (k - i.size)

theorem Instructions.cut_split (is : List Instruction) (k : Nat) (hk : k < (Instructions.bytes is).length) :
    ∃ is1 i is2 j, is = is1 ++ i :: is2 ∧ k = (Instructions.bytes is1).length + j ∧ j < i.size ∧
      (Instructions.bytes is).take k = Instructions.bytes is1 ++ i.bytes.take j ∧
      Instructions.cut is k = Instructions.cutErr i j := by
  induction is generalizing k with
  | nil => simp [Instructions.bytes] at hk
  | cons a as ih =>
    have hb : Instructions.bytes (a :: as) = a.bytes ++ Instructions.bytes as := rfl
    have hl := a.bytes_length
    by_cases h : k < a.size
    · refine ⟨[], a, as, k, rfl, by simp [Instructions.bytes], h, ?_, by simp [Instructions.cut, h]⟩
      rw [hb, take_append_lt (by omega)]
      simp [Instructions.bytes]
    · obtain ⟨as1, a', as2, j, h1, h2, h3, h4, h5⟩ := ih (k - a.size)
        (by rw [hb, List.length_append] at hk; omega)
      have hb1 : Instructions.bytes (a :: as1) = a.bytes ++ Instructions.bytes as1 := rfl
      refine ⟨a :: as1, a', as2, j, by rw [h1]; rfl, ?_, h3, ?_, by simp [Instructions.cut, h, h5]⟩
      · rw [hb1, List.length_append]; omega
      · rw [hb1, hb, take_append_ge (by omega), hl, h4, List.append_assoc]

theorem Instructions.stops_take (is : List Instruction) (hv : ∀ i ∈ is, i.Valid) (k : Nat)
    (hk : k < (Instructions.bytes is).length) (s : List Instruction) :
    Stops Instructions.readFrom s ((Instructions.bytes is).take k) (Instructions.cut is k)
      (fun l => ∃ is1 t, l = s ++ is1 ++ t ∧ t.length ≤ 1 ∧ is1 <+: is) := by
  obtain ⟨as1, a, as2, j, rfl, h2, h3, h4, h5⟩ := Instructions.cut_split is k hk
  rw [h4, h5]
  refine (Instructions.stops as1 a (fun x hx => hv x (by simp [hx])) (hv a (by simp)) j h3 s).mono ?_
  rintro l ⟨t, rfl, ht⟩
  exact ⟨as1, t, rfl, by rw [ht]; split <;> omega, List.prefix_append _ _⟩

/-! ## Matches -/

theorem readAllXMLoop_stops (xs : List XM) (hv : ∀ x ∈ xs, x.Valid) (b0 : Bytes) (eo : Option Err)
    (h0 : (b0.length < 4 ∧ eo = none) ∨ (4 ≤ b0.length ∧ ∃ e, eo = some e ∧ FailsAll XM.readFrom XM.zero b0 e)) :
    ∀ (fuel : Nat) (acc : List XM) (r : Rd), r.Ok .eof → r.content = xs.flatMap XM.bytes ++ b0 →
      r.content.length < fuel → readAllXMLoop true fuel acc r = (acc ++ xs, eo) := by
  induction xs with
  | nil =>
    intro fuel acc r hr hc hf
    cases fuel with
    | zero => omega
    | succ fuel =>
      have hc : r.content = b0 := by simpa using hc
      rcases h0 with ⟨h4, rfl⟩ | ⟨h4, e, rfl, hF⟩
      · simp [readAllXMLoop, hc, show ¬ 4 ≤ List.length b0 by omega]
      · have := hF r hr hc
        rcases hst : XM.read true XM.zero r with ⟨v, n, ee, r1⟩
        have h' : XM.readFrom XM.zero r = ⟨v, n, ee, r1⟩ := hst
        rw [h'] at this; simp only at this; subst this
        simp [readAllXMLoop, hc, h4, hst]
  | cons x xs ih =>
    intro fuel acc r hr hc hf
    cases fuel with
    | zero => omega
    | succ fuel =>
      have h4 : 4 ≤ x.bytes.length := by rw [XM.bytes_length]; omega
      have hcl : r.content.length = x.bytes.length + (xs.flatMap XM.bytes ++ b0).length := by rw [hc]; simp
      obtain ⟨r1, e1, a1, o1⟩ := x.reads (hv x (by simp)) XM.zero r (xs.flatMap XM.bytes ++ b0) hr
        (by rw [hc]; simp)
      have hc1 : r1.content = xs.flatMap XM.bytes ++ b0 := by rw [a1.content.2, hc]; simp
      have := ih (fun y hy => hv y (by simp [hy])) fuel (acc ++ [x]) r1 o1 hc1 (by rw [hc1]; omega)
      have hge : 4 ≤ r.content.length := by omega
      have e1' : XM.read true XM.zero r = ⟨x, x.bytes.length, none, r1⟩ := e1
      simp [readAllXMLoop, hge, e1', this]

theorem readAllXM_stops {d : Nat} (xs : List XM) (hv : ∀ x ∈ xs, x.Valid) (b0 : Bytes) (eo : Option Err)
    (h0 : (b0.length < 4 ∧ eo = none) ∨ (4 ≤ b0.length ∧ ∃ e, eo = some e ∧ FailsAll XM.readFrom XM.zero b0 e))
    (s : List XM) : Stops (readAllXM true) s (xs.flatMap XM.bytes ++ b0) eo (· = s ++ xs) d := by
  intro r hr hc
  obtain ⟨r', h1, h2, h3⟩ := readAll_spec .eof r hr
  have := readAllXMLoop_stops xs hv b0 eo h0 ((xs.flatMap XM.bytes ++ b0).length + 1) s
    (.src (xs.flatMap XM.bytes ++ b0) [] .eof false) (by simp [Rd.Ok]) rfl (by simp [Rd.content])
  simp only [readAllXM, h1, skipEOF, hc, this]
  exact ⟨trivial, trivial, h3, _, h2, by rw [← hc]; omega, fun _ => by rw [← hc]; omega⟩

theorem readAllXM_readsAll (xs : List XM) (hv : ∀ x ∈ xs, x.Valid) (b0 : Bytes) (h0 : b0.length < 4)
    (s : List XM) : ReadsAll (readAllXM true) s (xs.flatMap XM.bytes ++ b0) (s ++ xs) := by
  refine ⟨fun F r hr hf => ?_⟩
  obtain ⟨e, r', h1, hm, h2, h3⟩ := readAll_specB F r hr
  have := readAllXMLoop_stops xs hv b0 none (.inl ⟨h0, rfl⟩) ((xs.flatMap XM.bytes ++ b0).length + 1) s
    (.src (xs.flatMap XM.bytes ++ b0) [] .eof false) (by simp [Rd.Ok]) rfl (by simp [Rd.content])
  rcases hf.end hr hm with ⟨hF, he⟩ | ⟨hc, he⟩
  · exact .inl ⟨hF, by simp only [readAllXM, h1, he]⟩
  · refine .inr ⟨r', ?_, by rw [← hc]; exact h2, h3⟩
    simp only [readAllXM, h1, he, hc, this]

/-- The error of `readAllXM` on the first `k` bytes. -/
def XMs.cut : List XM → Nat → Option Err
  | [], _ => none
  | x :: xs, k =>
    if k < x.bytes.length then (if k < 4 then none else some (XM.cutErr k)) else XMs.cut xs (k - x.bytes.length)

theorem XMs.cut_split (xs : List XM) (k : Nat) (hk : k < (xs.flatMap XM.bytes).length) :
    ∃ xs1 x xs2 j, xs = xs1 ++ x :: xs2 ∧ k = (xs1.flatMap XM.bytes).length + j ∧ j < x.bytes.length ∧
      (xs.flatMap XM.bytes).take k = xs1.flatMap XM.bytes ++ x.bytes.take j ∧
      XMs.cut xs k = if j < 4 then none else some (XM.cutErr j) := by
  induction xs generalizing k with
  | nil => simp at hk
  | cons a as ih =>
    by_cases h : k < a.bytes.length
    · refine ⟨[], a, as, k, rfl, by simp, h, ?_, by simp [XMs.cut, h]⟩
      rw [List.flatMap_cons, take_append_lt (by omega)]
      simp
    · obtain ⟨as1, a', as2, j, h1, h2, h3, h4, h5⟩ := ih (k - a.bytes.length)
        (by rw [List.flatMap_cons, List.length_append] at hk; omega)
      refine ⟨a :: as1, a', as2, j, by rw [h1]; rfl, ?_, h3, ?_, by simp [XMs.cut, h, h5]⟩
      · rw [List.flatMap_cons, List.length_append]; omega
      · rw [List.flatMap_cons, List.flatMap_cons, take_append_ge (by omega), h4, List.append_assoc]

/-- After a decoder that took everything. -/
theorem Stops.consAll {d : Nat} {st : Step σ} {t : List (Step σ)} {s s1 : σ} {b : Bytes} {eo : Option Err}
    {V : σ → Prop} (h1 : ReadsAll st s b s1) (h2 : Stops (Enc.readFrom t) s1 [] eo V d) :
    Stops (Enc.readFrom (st :: t)) s b eo V d := by
  intro r hr hc
  obtain ⟨r1, e1, a1, o1⟩ := h1 r hr hc
  obtain ⟨h3, h4, h5, m, h6, h7, -⟩ := h2 r1 o1 (by rw [a1.content.2, hc]; simp)
  simp only [Enc.readFrom, e1]
  exact ⟨h3, h4, h5, _, a1.trans h6, by omega, fun _ => by omega⟩

theorem ReadsAll.consAll {st : Step σ} {t : List (Step σ)} {s s1 s2 : σ} {b : Bytes}
    (h1 : ReadsAll st s b s1) (h2 : ReadsAll (Enc.readFrom t) s1 [] s2) :
    ReadsAll (Enc.readFrom (st :: t)) s b s2 := by
  refine ⟨fun F r hr hf => ?_⟩
  have := Out.Gets.seq (p := fun _ => Enc.readFrom t) (h1.run F r hr hf)
    fun r1 a1 o1 => h2.run F r1 o1 (Rd.FitsAll.right (by rw [List.append_nil]; exact hf) a1)
  rw [List.append_nil] at this
  exact this

theorem ReadsAll.limitedAll {n : Nat} {st : Step σ} {s s' : σ} {b : Bytes}
    (h : ReadsAll st s b s') (hn : b.length ≤ n) : ReadsAll (Enc.limited n st) s b s' := by
  refine ⟨fun F r hr hf => (h.run F (.lim n r) hr ?_).unlimit⟩
  have hl : r.content.length ≤ b.length := by
    rcases hf with h | h
    · rw [h.1]; exact Nat.le_refl _
    · exact h.1.length_le
  have hc : (Rd.lim n r).content = r.content := by
    simp only [Rd.content]; exact List.take_of_length_le (by omega)
  rcases hf with h | h
  · exact .inl ⟨by rw [hc, h.1], .inr h.2⟩
  · by_cases hnl : n ≤ r.content.length
    · exact .inl ⟨by rw [hc]; exact h.1.eq_of_length_le (by omega), .inl hnl⟩
    · exact .inr ⟨by rw [hc]; exact h.1, fun he => he.elim hnl h.2⟩

/-- The error of the decoder of a match on the first `k` bytes. -/
def Match.cut (m : Match) (k : Nat) : Option Err :=
  let n := m.fieldBytes.length + 4
  if k < 4 then (if k ∈ [0, 2] then some .eof else some .unexpectedEOF)
  else if k < n then
    match XMs.cut m.fields (k - 4) with
    | some e => some e
    | none => if padLen n = 0 then none else some .eof
  else if k = n then some .eof else some .unexpectedEOF

theorem Match.stops {d : Nat} (m : Match) (hv : m.Valid) (s : Match) (k : Nat) (hk : k < m.bytes.length) :
    Stops Match.readFrom s (m.bytes.take k) (m.cut k) (fun _ => True) d := by
  obtain ⟨h1, h2⟩ := hv
  rw [← Match.fieldBytes_length] at h2
  have hlen := u16_ofNat_toNat (n := m.fieldBytes.length + 4) (by omega)
  have hkl := hk
  rw [Match.bytes_length] at hkl
  unfold Match.cut
  simp only
  by_cases h4 : k < 4
  · rw [if_pos h4]
    have hF : Fields (Enc.readFrom [
        Enc.assign (fun s : Match × UInt16 => ({ type := 0, fields := [] }, s.2)),
        Enc.num (fun v s => ({ s.1 with type := v }, s.2)), Enc.num (fun v s => (s.1, v))]) [2, 2] :=
      Fields.cons Fields.assign (Fields.cons Fields.num (Fields.cons Fields.num Fields.nil))
    have hl : (m.bytes.take k).length = k := by rw [List.length_take]; omega
    have h := hF.stops (d := d) (s := (s, 0)) (b := m.bytes.take k) (by rw [hl]; simpa using h4)
    rw [hl, show cuts [2, 2] = [0, 2] from rfl] at h
    have : (if k ∈ [0, 2] then some Err.eof else some .unexpectedEOF) =
        some (if k ∈ [0, 2] then .eof else .unexpectedEOF) := by split <;> rfl
    rw [this]
    exact (Stops.withLocal (Stops.pre h)).mono fun _ _ => trivial
  · rw [if_neg h4]
    have hb : m.bytes.take k = be m.type ++ (be (UInt16.ofNat (m.fieldBytes.length + 4)) ++
        (m.fieldBytes ++ zeros (padLen (m.fieldBytes.length + 4))).take (k - 4)) := by
      rw [Match.bytes_eq, take_append_ge (by simp; omega), take_append_ge (by simp; omega)]
      simp [Nat.sub_sub]
    rw [hb]
    refine (Stops.withLocal (V := fun _ => True) ?_).mono fun _ _ => trivial
    refine Stops.assignCons ?_
    refine Stops.cons (Reads.num _) ?_
    refine Stops.cons (Reads.num _) ?_
    by_cases hn : k < m.fieldBytes.length + 4
    · rw [if_pos hn, take_append_lt (by omega)]
      obtain ⟨xs1, x, xs2, j, e1, e2, e3, e4, e5⟩ := XMs.cut_split m.fields (k - 4)
        (show k - 4 < m.fieldBytes.length by omega)
      have hmem : x ∈ m.fields := by rw [e1]; simp
      have hmem1 : ∀ y ∈ xs1, y.Valid := fun y hy => h1 y (by rw [e1]; simp [hy])
      have hjl : (x.bytes.take j).length = j := by rw [List.length_take]; omega
      have hfit : (xs1.flatMap XM.bytes ++ x.bytes.take j).length ≤
          (UInt16.ofNat (m.fieldBytes.length + 4)).toNat - 4 := by
        rw [hlen, List.length_append, hjl]; omega
      rw [show m.fieldBytes.take (k - 4) = _ from e4, e5]
      by_cases hj : j < 4
      · simp only [hj, if_true]
        refine Stops.consAll (ReadsAll.dyn (ReadsAll.limitedAll (ReadsAll.sub
          (readAllXM_readsAll xs1 hmem1 _ (by omega) _)) hfit)) ?_
        refine Stops.last (Stops.dyn ?_)
        simp only [hlen]
        by_cases hp : padLen (m.fieldBytes.length + 4) = 0
        · simp only [hp, if_true]
          have : ReadsAll (Enc.skip (σ := Match × UInt16) 0)
              ({ type := m.type, fields := [] ++ xs1 }, UInt16.ofNat (m.fieldBytes.length + 4)) [] _ :=
            (Reads.skip (b := []) rfl).all
          exact this.stops.mono fun _ _ => trivial
        · simp only [hp, if_false]
          exact (Stops.skip (b := []) (by simp; omega)).mono fun _ _ => trivial
      · simp only [hj, if_false]
        refine (Stops.here (Stops.dyn (Stops.limited (Stops.sub (readAllXM_stops xs1 hmem1 _ _
          (.inr ⟨by omega, _, rfl, (x.stops (d := 0) (h1 x hmem) XM.zero j e3).failsAll⟩) _)) hfit))).mono
            fun _ _ => trivial
    · rw [if_neg hn, take_append_ge (by omega)]
      have hz : ((zeros (padLen (m.fieldBytes.length + 4))).take (k - 4 - m.fieldBytes.length)).length =
          k - 4 - m.fieldBytes.length := by rw [List.length_take, zeros_length]; omega
      refine Stops.cons (Reads.dyn (Reads.limited (ReadsAll.sub
        (readAllXM_reads true XM.bytes [] m.fields (fun x hx s => x.reads (h1 x hx) s)
          (fun x _ => by rw [XM.bytes_length]; omega))) ?_)) ?_
      · simp only [hlen]; simp [Match.fieldBytes]
      · refine Stops.last (Stops.dyn ?_)
        · have : (if k = m.fieldBytes.length + 4 then some Err.eof else some .unexpectedEOF) =
              some (if (zeros (padLen (m.fieldBytes.length + 4))).take (k - 4 - m.fieldBytes.length) = []
                then .eof else .unexpectedEOF) := by
            by_cases h : k = m.fieldBytes.length + 4
            · rw [if_pos h, if_pos (List.length_eq_zero_iff.1 (by rw [hz]; omega))]
            · rw [if_neg h, if_neg (fun h' => by rw [h'] at hz; simp at hz; omega)]
          rw [this]
          exact (Stops.skip (by rw [hz]; simp only [hlen]; omega)).mono fun _ _ => trivial

/-- A truncated match that is accepted has been read to the end. -/
theorem Match.readsAll_cut (m : Match) (hv : m.Valid) (s : Match) (k : Nat) (_hk : k < m.bytes.length)
    (hc : m.cut k = none) : ∃ xs, xs <+: m.fields ∧
      ReadsAll Match.readFrom s (m.bytes.take k) { m with fields := xs } := by
  obtain ⟨h1, h2⟩ := hv
  rw [← Match.fieldBytes_length] at h2
  have hlen := u16_ofNat_toNat (n := m.fieldBytes.length + 4) (by omega)
  unfold Match.cut at hc
  simp only at hc
  by_cases h4 : k < 4
  · rw [if_pos h4] at hc; split at hc <;> simp at hc
  · rw [if_neg h4] at hc
    by_cases hn : k < m.fieldBytes.length + 4
    · rw [if_pos hn] at hc
      have hb : m.bytes.take k = be m.type ++ (be (UInt16.ofNat (m.fieldBytes.length + 4)) ++
          (m.fieldBytes ++ zeros (padLen (m.fieldBytes.length + 4))).take (k - 4)) := by
        rw [Match.bytes_eq, take_append_ge (by simp; omega), take_append_ge (by simp; omega)]
        simp [Nat.sub_sub]
      obtain ⟨xs1, x, xs2, j, e1, e2, e3, e4, e5⟩ := XMs.cut_split m.fields (k - 4)
        (show k - 4 < m.fieldBytes.length by omega)
      rw [e5] at hc
      by_cases hj : j < 4
      · simp only [hj, if_true] at hc
        have hp : padLen (m.fieldBytes.length + 4) = 0 := by
          by_cases hp : padLen (m.fieldBytes.length + 4) = 0
          · exact hp
          · simp [hp] at hc
        have hmem1 : ∀ y ∈ xs1, y.Valid := fun y hy => h1 y (by rw [e1]; simp [hy])
        have hjl : (x.bytes.take j).length = j := by rw [List.length_take]; omega
        have hfit : (xs1.flatMap XM.bytes ++ x.bytes.take j).length ≤
            (UInt16.ofNat (m.fieldBytes.length + 4)).toNat - 4 := by
          rw [hlen, List.length_append, hjl]; omega
        refine ⟨xs1, by rw [e1]; exact List.prefix_append _ _, ?_⟩
        rw [hb, take_append_lt (by omega), show m.fieldBytes.take (k - 4) = _ from e4]
        refine ReadsAll.withLocal (l' := UInt16.ofNat (m.fieldBytes.length + 4)) ?_
        refine ReadsAll.assignCons ?_
        refine ReadsAll.cons (Reads.num _) ?_
        refine ReadsAll.cons (Reads.num _) ?_
        refine ReadsAll.consAll (ReadsAll.dyn (ReadsAll.limitedAll (ReadsAll.sub
          (readAllXM_readsAll xs1 hmem1 _ (by omega) _)) hfit)) ?_
        refine ReadsAll.last (ReadsAll.dyn ?_)
        simp only [hlen, hp]
        exact (Reads.skip (b := []) rfl).all
      · simp [hj] at hc
    · rw [if_neg hn] at hc; split at hc <;> simp at hc

/-- After a decoder that ended without an error. -/
theorem Stops.consNone {d d' : Nat} {st : Step σ} {t : List (Step σ)} {s : σ} {b : Bytes} {eo : Option Err}
    {V W : σ → Prop} (h1 : Stops st s b none V d')
    (h2 : ∀ (s1 : σ) (b1 : Bytes), V s1 → b1.length ≤ d' → Stops (Enc.readFrom t) s1 b1 eo W d) :
    Stops (Enc.readFrom (st :: t)) s b eo W d := by
  intro r hr hc
  obtain ⟨g1, g2, g3, m, g4, g5, g6⟩ := h1 r hr hc
  rcases hst : st s r with ⟨v, n, e', r1⟩
  rw [hst] at g1 g2 g3 g4; simp only at g1 g2 g3 g4; subst g1
  have hl : r1.content.length = b.length - m := by rw [g4.content.2, hc]; simp
  have hm := g4.content.1
  rw [hc] at hm
  obtain ⟨h3, h4, h5, m', h6, h7, h8⟩ := h2 v r1.content g2 (by omega) r1 g3 rfl
  simp only [Enc.readFrom, hst]
  exact ⟨h3, h4, h5, _, g4.trans h6, by omega, fun hn => by have := g6 hn; omega⟩

/-- After the steps of a head. -/
theorem Stops.append {d : Nat} {l t : List (Step σ)} {s s1 : σ} {b1 b2 : Bytes} {eo : Option Err}
    {V : σ → Prop} (h1 : Reads (Enc.readFrom l) s b1 s1) (h2 : Stops (Enc.readFrom t) s1 b2 eo V d) :
    Stops (Enc.readFrom (l ++ t)) s (b1 ++ b2) eo V d := by
  have key : ∀ (l : List (Step σ)) (s : σ) (r : Rd), (Enc.readFrom l s r).err = none →
      Enc.readFrom (l ++ t) s r =
        (let o1 := Enc.readFrom l s r
         let o2 := Enc.readFrom t o1.val o1.rd
         ⟨o2.val, o1.n + o2.n, o2.err, o2.rd⟩) := by
    intro l
    induction l with
    | nil => intro s r h; simp [Enc.readFrom]
    | cons st l ih =>
      intro s r h
      rcases hst : st s r with ⟨v, n, ee, r1⟩
      cases ee with
      | some ee => simp [Enc.readFrom, hst] at h
      | none =>
        simp only [Enc.readFrom, hst, List.cons_append] at h ⊢
        rw [ih v r1 h]
        simp [Nat.add_assoc]
  intro r hr hc
  obtain ⟨r1, e1, a1, o1⟩ := h1 r b2 hr hc
  obtain ⟨h3, h4, h5, m, h6, h7, h8⟩ := h2 r1 o1 (by rw [a1.content.2, hc]; simp)
  rw [key l s r (by rw [e1])]
  simp only [e1]
  refine ⟨h3, h4, h5, _, a1.trans h6, by rw [List.length_append]; omega, fun hn => ?_⟩
  have := h8 (hn.adv a1)
  rw [List.length_append]; omega

end Verif
