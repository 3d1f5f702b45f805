import Verif.Spec.Wire
import Verif.CutsMore
import Verif.Props.Table
import Verif.Props.Untrusted

/-!
# C43: lengths too small for the element that declares them

The property is false of almost every element of the code: the decoders subtract the size of
the fixed part in `uint16`, so that an undersized length becomes a limit of about 64 kB and the
element takes what follows it for its own, or they do not look at the length at all.  Only the
message header, the hello bitmap and the table numbers refuse some undersized lengths.
-/

namespace Verif.Props

open Verif

/-- From the receiver `s` and on any reader that delivers `bs`, the decoder reports success and
leaves `x` in the receiver. -/
def Succeeds {σ : Type} (dec : Step σ) (s : σ) (bs : Bytes) (x : σ) : Prop :=
  ∀ r : Rd, r.Ok .eof → r.content = bs → (dec s r).err = none ∧ (dec s r).val = x

/-- As `Succeeds`, for an error. -/
def Rejects {σ : Type} (dec : Step σ) (s : σ) (bs : Bytes) (e : Err) : Prop :=
  ∀ r : Rd, r.Ok .eof → r.content = bs → (dec s r).err = some e

theorem stops_succeeds {σ : Type} {dec : Step σ} {s x : σ} {bs : Bytes}
    (h : Stops dec s bs none (· = x)) : Succeeds dec s bs x := fun r hr hc =>
  ⟨(h r hr hc).1, (h r hr hc).2.1⟩

theorem readsAll_succeeds {σ : Type} {dec : Step σ} {s x : σ} {bs : Bytes}
    (h : ReadsAll dec s bs x) : Succeeds dec s bs x := stops_succeeds h.stops

theorem readsAll_wrap {σ τ : Type} {f : τ → σ} {st : Step τ} {dec : Step σ} {s : σ} {t t' : τ} {b : Bytes}
    (h : ReadsAll st t b t') (he : ∀ r, dec s r = Enc.wrap f st t r) : ReadsAll dec s b (f t') :=
  ⟨fun F r hr hf => by rw [he]; exact (h.run F r hr hf).map⟩

/-- The subtraction that wraps around. -/
theorem wrap_sub {c L : UInt16} (h : L < c) : (L - c).toNat = 65536 + L.toNat - c.toNat := by
  rw [UInt16.toNat_sub]
  rw [UInt16.lt_iff_toNat_lt] at h
  have := c.toNat_lt
  omega

theorem drop_two (x y : UInt16) (t : Bytes) : (be x ++ (be y ++ t)).drop 4 = t := by
  rw [← List.append_assoc, List.drop_left' (by simp)]

/-- A list whose next element fails: what is before it has been decoded, the element is
appended as far as it got, and `io.EOF` is hidden. -/
theorem scanFrom_fails {τ : Type} {mk : UInt16 → Except Err τ} {st : Step τ} {enc : τ → Bytes} {zero : τ → τ}
    {code : τ → UInt16} {b0 t : Bytes} {e : Err} {c : UInt16} {z : τ} (hb : b0 = be c ++ t) (hz : mk c = .ok z)
    (hF : FailsAll st z b0 e) (s xs : List τ) (h : ∀ x ∈ xs, Reads st (zero x) (enc x) x)
    (hmk : ∀ x ∈ xs, mk (code x) = .ok (zero x)) (hcode : ∀ x ∈ xs, ∃ t, enc x = be (code x) ++ t)
    (r : Rd) (hr : r.Ok .eof) (hc : r.content = xs.flatMap enc ++ b0) :
    (Enc.scanFrom mk st s r).err = skipEOF e ∧ ∃ v, (Enc.scanFrom mk st s r).val = s ++ xs ++ [v] := by
  obtain ⟨b, e', r0, hw⟩ := Rd.wrapBuf_isBuf r
  have hcw := Rd.content_wrapBuf r
  have how := hr.wrapBuf
  rw [hw] at hcw how
  obtain ⟨f', b', e', r', g1, g2, g3, g4, g5⟩ := scanLoop_through xs h hmk hcode b0 (r.content.length + 1)
    s 0 b e' r0 how (by rw [hcw, hc]) (by rw [hcw]; omega)
  cases f' with
  | zero => omega
  | succ f' =>
    have hl2 : 2 ≤ b0.length := by rw [hb]; simp
    obtain ⟨b2, e2, r2, h1, h2, h3 | h3⟩ := peek2_spec .eof b' e' r' g1
    · have htk : (Rd.buf b' e' r').content.take 2 = be c := by
        rw [g2, hb, List.take_append_of_le_length (by simp), List.take_of_length_le (by simp)]
      have hc' : (Rd.buf b2 e2 r2).content = b0 := by rw [h1.content.2, g2]; simp
      have k1 := hF _ h2 hc'
      rcases hst : st z (.buf b2 e2 r2) with ⟨v, n1, ee, r3⟩
      rw [hst] at k1; simp only at k1; subst k1
      simp only [Enc.scanFrom, hw, g5]
      simp only [Enc.scanLoop, h3.2, htk, ofBE_be, hz, hst]
      exact ⟨trivial, v, rfl⟩
    · rw [g2] at h3; omega

/-! ## Actions -/

/-- C43 fails.  A set-field action with a declared length below 4: the field is decoded, what
follows the action - whole actions, anything up to 64 kB - is thrown away, and decoding
succeeds. -/
theorem setField_undersized_false (as s : List Action) (hv : ∀ a ∈ as, a.Valid) (f : XM) (hf : f.Valid)
    (L : UInt16) (hL : L < 4) (rest : Bytes) (hr : f.writeTo.out.length + rest.length ≤ 65532) :
    Succeeds Actions.readFrom s ((Actions.writeTo as).out ++
      (be (25 : UInt16) ++ (be L ++ (f.writeTo.out ++ rest)))) (as ++ [.setField f]) := by
  have hb : f.writeTo.out = f.bytes := rfl
  rw [hb] at hr ⊢
  have h1 : ReadsAll setField.readFrom XM.zero
      (be (25 : UInt16) ++ (be L ++ (f.bytes ++ rest))) f := by
    rw [← List.append_assoc]
    refine ReadsAll.withLocal (l' := (25, L)) ?_
    refine ReadsAll.cons (Reads.sub (actionHeader.reads _ _ _)) ?_
    refine ReadsAll.last (ReadsAll.dyn (ReadsAll.limitedAll (ReadsAll.cons (Reads.sub (f.reads hf _))
      (ReadsAll.last (ReadsAll.rest (set := fun _ s => s) rest))) ?_))
    simp only [wrap_sub hL, List.length_append]
    show _ ≤ 65536 + L.toNat - 4
    omega
  have h2 : ReadsAll Action.readFrom (Action.setField XM.zero)
      (be (25 : UInt16) ++ (be L ++ (f.bytes ++ rest))) (.setField f) :=
    readsAll_wrap h1 fun _ => rfl
  rw [Actions.writeTo_eq]
  refine stops_succeeds (Stops.assignCons (Stops.last ((Stops.scanFrom (enc := Action.bytes)
    (zero := Action.zero) (code := Action.type)
    (c := 25) (z := .setField XM.zero) rfl rfl h2.stops [] as (fun a ha => a.reads (hv a ha))
    (fun a _ => actionMake_type a) (fun a _ => a.bytes_type)).mono ?_)))
  rintro _ ⟨v, rfl, rfl⟩
  rfl

/-- The action swallowed here is an output action. -/
example : Succeeds Actions.readFrom [] (be (25 : UInt16) ++ (be (3 : UInt16) ++
    ((⟨0x8000, 0, [0, 0, 0, 1], []⟩ : XM).writeTo.out ++ (Action.output 7 0).writeTo.out)))
    [.setField ⟨0x8000, 0, [0, 0, 0, 1], []⟩] :=
  setField_undersized_false [] [] (by simp) _ (by decide) 3 (by decide) _ (by decide)

/-- C43.  A set-field action with a declared length of 4 to 7, too short for the header of its
field, ends the list.  Only 5 is reported; with 4, 6 and 7 decoding succeeds, the action is
appended as far as it got and what follows it is never decoded. -/
theorem setField_short_partial (as s : List Action) (hv : ∀ a ∈ as, a.Valid) (L : UInt16)
    (h4 : 4 ≤ L.toNat) (h8 : L.toNat < 8) (rest : Bytes) (hrest : L.toNat - 4 ≤ rest.length) (r : Rd)
    (hr : r.Ok .eof) (hc : r.content = (Actions.writeTo as).out ++ (be (25 : UInt16) ++ (be L ++ rest))) :
    (Actions.readFrom s r).err = (if L = 5 then some .unexpectedEOF else none) ∧
      ∃ a, (Actions.readFrom s r).val = as ++ [a] := by
  obtain ⟨b, t, rfl, hb⟩ : ∃ b t, rest = b ++ t ∧ b.length = L.toNat - 4 :=
    ⟨rest.take (L.toNat - 4), rest.drop (L.toNat - 4), by simp, by simp; omega⟩
  have hsub : (L - 4).toNat = L.toNat - 4 := by
    rw [UInt16.toNat_sub_of_le _ _ (by rw [UInt16.le_iff_toNat_le]; exact h4)]; rfl
  have hF : Fields (Enc.readFrom [Enc.num (fun (v : UInt16) (s : XM × XMLocal) => ({ s.1 with cls := v }, s.2)),
      Enc.num (fun (v : UInt8) s => ({ s.1 with type := v }, s.2)),
      Enc.num (fun (v : UInt8) s => (s.1, (v, s.2.2)))]) [2, 1, 1] :=
    Fields.cons Fields.num (Fields.cons Fields.num (Fields.cons Fields.num Fields.nil))
  have hS := hF.stops (d := 0) (s := (XM.zero, (0, false))) (b := b) (by rw [hb]; simp; omega)
  rw [hb, show cuts [2, 1, 1] = [0, 2, 3] from rfl] at hS
  have hX : FailsAll XM.readFrom XM.zero b
      (if L.toNat - 4 ∈ [0, 2, 3] then .eof else .unexpectedEOF) :=
    (Stops.withLocal (V := fun _ => True) ((Stops.pre hS).mono fun _ _ => trivial)).failsAll
  have hA : FailsAll Action.readFrom (.setField XM.zero) (be (25 : UInt16) ++ (be L ++ (b ++ t)))
      (if L.toNat - 4 ∈ [0, 2, 3] then .eof else .unexpectedEOF) := by
    have : Fails setField.readFrom XM.zero (be (25 : UInt16) ++ be L ++ b)
        (if L.toNat - 4 ∈ [0, 2, 3] then .eof else .unexpectedEOF) :=
      Fails.withLocal (Fails.cons (Reads.sub (actionHeader.reads _ _ _))
        (Fails.here (Fails.dyn (FailsAll.limit (FailsAll.here (FailsAll.sub hX)) (by
          simp only [hsub, hb])))))
    have := this.all t
    intro r hr hc
    have := this r hr (by rw [hc]; simp)
    rcases ho : setField.readFrom XM.zero r with ⟨v, n, e, r'⟩
    rw [ho] at this; simp only at this; subst this
    simp [Action.readFrom, Enc.wrap, ho]
  rw [Actions.writeTo_eq] at hc
  obtain ⟨h1, v, h2⟩ := scanFrom_fails (enc := Action.bytes) (zero := Action.zero) (code := Action.type)
    (c := 25) (z := .setField XM.zero) rfl rfl hA [] as (fun a ha => a.reads (hv a ha))
    (fun a _ => actionMake_type a) (fun a _ => a.bytes_type) r hr hc
  rcases ho : Enc.scanFrom actionMake Action.readFrom [] r with ⟨w, n, e, r'⟩
  rw [ho] at h1 h2
  simp only at h1 h2
  subst h2
  have h5 : L = 5 ↔ ¬ L.toNat - 4 ∈ [0, 2, 3] := by
    rw [← UInt16.toNat_inj]
    simp only [List.mem_cons, List.not_mem_nil, or_false]
    show L.toNat = 5 ↔ _
    omega
  have he : e = if L = 5 then some .unexpectedEOF else none := by
    rw [h1]
    by_cases hm : L.toNat - 4 ∈ [0, 2, 3]
    · rw [if_pos hm, if_neg (fun h => h5.1 h hm)]; rfl
    · rw [if_neg hm, if_pos (h5.2 hm)]; rfl
  subst he
  refine ⟨?_, v, ?_⟩ <;> by_cases h : L = 5 <;> simp [Actions.readFrom, Enc.readFrom, Enc.assign, ho, h]

/-- C43 fails.  A set-field action of length 4 makes a list of actions end in the middle
without an error: the output action after it is lost. -/
theorem setField_four_false :
    (Actions.readFrom [] (.src ([0, 25, 0, 4] ++ (Action.output 7 0).writeTo.out) [] .eof false)).err = none ∧
    (Actions.readFrom [] (.src ([0, 25, 0, 4] ++ (Action.output 7 0).writeTo.out) [] .eof false)).val.length = 1 := by
  obtain ⟨h1, a, h2⟩ := setField_short_partial [] [] (by simp) 4 (by decide) (by decide)
    ((Action.output 7 0).writeTo.out) (by simp) (.src ([0, 25, 0, 4] ++ (Action.output 7 0).writeTo.out) [] .eof false)
    rfl rfl
  exact ⟨by simpa using h1, by rw [h2]; rfl⟩

theorem action_length_reads (a : Action) (ha : ∀ f, a ≠ .setField f) (L : UInt16) :
    Reads Action.readFrom a.zero (be a.type ++ (be L ++ a.writeTo.out.drop 4)) a := by
  rw [← List.append_assoc]
  cases a with
  | setField f => exact absurd rfl (ha f)
  | output p m =>
    have h := Reads.cons (skipActionHeader_reads 0 L ((0, 0) : UInt32 × UInt16))
      (Reads.cons (Reads.num (set := fun v s => (v, s.2)) p) (Reads.cons (Reads.num (set := fun v s => (s.1, v)) m)
        (Reads.last (Reads.skip (k := 6) (zeros_length 6)))))
    have := Reads.wrap (dec := Action.readFrom) (s := .output 0 0)
      (f := fun s : UInt32 × UInt16 => Action.output s.1 s.2) h (fun r => rfl)
    simpa [Action.writeTo, Enc.writeTo, Enc.gather, actionHeader, Action.type, Action.zero, drop_two] using this
  | setMPLSTTL t =>
    have h := Reads.cons (skipActionHeader_reads 15 L (0 : UInt8))
      (Reads.cons (Reads.num (set := fun v _ => v) t) (Reads.last (Reads.skip (k := 3) (zeros_length 3))))
    have := Reads.wrap (dec := Action.readFrom) (s := .setMPLSTTL 0) (f := Action.setMPLSTTL) h (fun r => rfl)
    simpa [Action.writeTo, Enc.writeTo, Enc.gather, actionHeader, Action.type, Action.zero, drop_two] using this
  | setNwTTL t =>
    have h := Reads.cons (Reads.skip (s := (0 : UInt8)) (k := 4) (b := be (23 : UInt16) ++ be L) (by simp))
      (Reads.cons (Reads.num (set := fun v _ => v) t) (Reads.last (Reads.skip (k := 3) (zeros_length 3))))
    have := Reads.wrap (dec := Action.readFrom) (s := .setNwTTL 0) (f := Action.setNwTTL) h (fun r => rfl)
    simpa [Action.writeTo, Enc.writeTo, Enc.gather, actionHeader, Action.type, Action.zero, drop_two] using this
  | pushVLAN t =>
    have h := Reads.cons (Reads.skip (s := (0 : UInt16)) (k := 4) (b := be (17 : UInt16) ++ be L) (by simp))
      (Reads.cons (Reads.num (set := fun v _ => v) t) (Reads.last (Reads.skip (k := 2) (zeros_length 2))))
    have := Reads.wrap (dec := Action.readFrom) (s := .pushVLAN 0) (f := Action.pushVLAN) h (fun r => rfl)
    simpa [Action.writeTo, Enc.writeTo, Enc.gather, actionHeader, Action.type, Action.zero, drop_two] using this
  | pushMPLS t =>
    have h := Reads.cons (Reads.skip (s := (0 : UInt16)) (k := 4) (b := be (19 : UInt16) ++ be L) (by simp))
      (Reads.cons (Reads.num (set := fun v _ => v) t) (Reads.last (Reads.skip (k := 2) (zeros_length 2))))
    have := Reads.wrap (dec := Action.readFrom) (s := .pushMPLS 0) (f := Action.pushMPLS) h (fun r => rfl)
    simpa [Action.writeTo, Enc.writeTo, Enc.gather, actionHeader, Action.type, Action.zero, drop_two] using this
  | popMPLS t =>
    have h := Reads.cons (Reads.skip (s := (0 : UInt16)) (k := 4) (b := be (20 : UInt16) ++ be L) (by simp))
      (Reads.cons (Reads.num (set := fun v _ => v) t) (Reads.last (Reads.skip (k := 2) (zeros_length 2))))
    have := Reads.wrap (dec := Action.readFrom) (s := .popMPLS 0) (f := Action.popMPLS) h (fun r => rfl)
    simpa [Action.writeTo, Enc.writeTo, Enc.gather, actionHeader, Action.type, Action.zero, drop_two] using this
  | pushPBB t =>
    have h := Reads.cons (Reads.skip (s := (0 : UInt16)) (k := 4) (b := be (26 : UInt16) ++ be L) (by simp))
      (Reads.cons (Reads.num (set := fun v _ => v) t) (Reads.last (Reads.skip (k := 2) (zeros_length 2))))
    have := Reads.wrap (dec := Action.readFrom) (s := .pushPBB 0) (f := Action.pushPBB) h (fun r => rfl)
    simpa [Action.writeTo, Enc.writeTo, Enc.gather, actionHeader, Action.type, Action.zero, drop_two] using this
  | setQueue t =>
    have h := Reads.cons (Reads.skip (s := (0 : UInt32)) (k := 4) (b := be (21 : UInt16) ++ be L) (by simp))
      (Reads.last (Reads.num (set := fun v _ => v) t))
    have := Reads.wrap (dec := Action.readFrom) (s := .setQueue 0) (f := Action.setQueue) h (fun r => rfl)
    simpa [Action.writeTo, Enc.writeTo, Enc.gather, actionHeader, Action.type, Action.zero, drop_two] using this
  | group t =>
    have h := Reads.cons (Reads.skip (s := (0 : UInt32)) (k := 4) (b := be (22 : UInt16) ++ be L) (by simp))
      (Reads.last (Reads.num (set := fun v _ => v) t))
    have := Reads.wrap (dec := Action.readFrom) (s := .group 0) (f := Action.group) h (fun r => rfl)
    simpa [Action.writeTo, Enc.writeTo, Enc.gather, actionHeader, Action.type, Action.zero, drop_two] using this
  | experimenter t =>
    have h := Reads.cons (Reads.skip (s := (0 : UInt32)) (k := 4) (b := be (65535 : UInt16) ++ be L) (by simp))
      (Reads.last (Reads.num (set := fun v _ => v) t))
    have := Reads.wrap (dec := Action.readFrom) (s := .experimenter 0) (f := Action.experimenter) h (fun r => rfl)
    simpa [Action.writeTo, Enc.writeTo, Enc.gather, actionHeader, Action.type, Action.zero, drop_two] using this
  | copyTTLOut =>
    exact Reads.wrap (dec := Action.readFrom) (f := fun _ : Unit => Action.copyTTLOut) (t' := ())
      (Reads.last (Reads.skip (by
        simp [Action.writeTo, Enc.writeTo, Enc.gather, actionHeader]))) (fun r => rfl)
  | copyTTLIn =>
    exact Reads.wrap (dec := Action.readFrom) (f := fun _ : Unit => Action.copyTTLIn) (t' := ())
      (Reads.last (Reads.skip (by
        simp [Action.writeTo, Enc.writeTo, Enc.gather, actionHeader]))) (fun r => rfl)
  | decMPLSTTL =>
    exact Reads.wrap (dec := Action.readFrom) (f := fun _ : Unit => Action.decMPLSTTL) (t' := ())
      (Reads.last (Reads.skip (by
        simp [Action.writeTo, Enc.writeTo, Enc.gather, actionHeader]))) (fun r => rfl)
  | popVLAN =>
    exact Reads.wrap (dec := Action.readFrom) (f := fun _ : Unit => Action.popVLAN) (t' := ())
      (Reads.last (Reads.skip (by
        simp [Action.writeTo, Enc.writeTo, Enc.gather, actionHeader]))) (fun r => rfl)
  | decNwTTL =>
    exact Reads.wrap (dec := Action.readFrom) (f := fun _ : Unit => Action.decNwTTL) (t' := ())
      (Reads.last (Reads.skip (by
        simp [Action.writeTo, Enc.writeTo, Enc.gather, actionHeader]))) (fun r => rfl)

/-- C43.  The decoders of the other actions do not look at the declared length: whatever it is,
they take the same number of bytes, and do not touch what follows. -/
theorem action_length_ignored_partial (a : Action) (ha : ∀ f, a ≠ .setField f) (L : UInt16) :
    DecodesFrom Action.readFrom a.zero (be a.type ++ (be L ++ a.writeTo.out.drop 4)) a :=
  (action_length_reads a ha L).decodesFrom

example : DecodesFrom Action.readFrom (.output 0 0)
    (be (0 : UInt16) ++ (be (0 : UInt16) ++ (Action.output 7 128).writeTo.out.drop 4)) (.output 7 128) :=
  action_length_ignored_partial (.output 7 128) (by simp) 0

/-! ## Instructions -/

/-- C43 fails.  An apply-actions or write-actions instruction (types 4 and 3) with a declared
length below 8 takes everything up to the end of the message for its actions. -/
theorem instruction_undersized_false (is s : List Instruction) (hi : ∀ i ∈ is, i.Valid) (as : List Action)
    (hv : ∀ a ∈ as, a.Valid) (L : UInt16) (hL : L < 8) (hl : (Actions.writeTo as).out.length ≤ 65528) :
    Succeeds Instructions.readFrom s ((Instructions.writeTo is).out ++
      (be (4 : UInt16) ++ (be L ++ (zeros 4 ++ (Actions.writeTo as).out)))) (s ++ is ++ [.applyActions as]) ∧
    Succeeds Instructions.readFrom s ((Instructions.writeTo is).out ++
      (be (3 : UInt16) ++ (be L ++ (zeros 4 ++ (Actions.writeTo as).out)))) (s ++ is ++ [.writeActions as]) := by
  rw [Actions.writeTo_eq] at hl ⊢
  simp only at hl ⊢
  have h1 (t : UInt16) : ReadsAll readInstructionActions [] (be t ++ (be L ++ (zeros 4 ++ Actions.bytes as))) as := by
    rw [← List.append_assoc]
    refine ReadsAll.withLocal (l' := (t, L)) ?_
    refine ReadsAll.cons (Reads.sub (instructionHeader.reads _ _ _)) ?_
    refine ReadsAll.cons (Reads.skip (by simp)) ?_
    refine ReadsAll.last (ReadsAll.dyn (ReadsAll.limitedAll (ReadsAll.sub (Actions.readsAll as hv _)) ?_))
    simp only [wrap_sub hL]
    show _ ≤ 65536 + L.toNat - 8
    omega
  have h2 : ReadsAll Instruction.readFrom (.applyActions [])
      (be (4 : UInt16) ++ (be L ++ (zeros 4 ++ Actions.bytes as))) (.applyActions as) :=
    readsAll_wrap (h1 4) fun _ => rfl
  have h3 : ReadsAll Instruction.readFrom (.writeActions [])
      (be (3 : UInt16) ++ (be L ++ (zeros 4 ++ Actions.bytes as))) (.writeActions as) :=
    readsAll_wrap (h1 3) fun _ => rfl
  rw [Instructions.writeTo_eq]
  constructor
  · refine stops_succeeds ((Stops.scanFrom (enc := Instruction.bytes)
      (zero := Instruction.zero) (code := Instruction.type)
      (c := 4) (z := .applyActions []) rfl rfl h2.stops s is (fun a ha => a.reads (hi a ha))
      (fun a _ => instructionMake_type a) (fun a _ => a.bytes_type)).mono ?_)
    rintro _ ⟨v, rfl, rfl⟩
    rfl
  · refine stops_succeeds ((Stops.scanFrom (enc := Instruction.bytes)
      (zero := Instruction.zero) (code := Instruction.type)
      (c := 3) (z := .writeActions []) rfl rfl h3.stops s is (fun a ha => a.reads (hi a ha))
      (fun a _ => instructionMake_type a) (fun a _ => a.bytes_type)).mono ?_)
    rintro _ ⟨v, rfl, rfl⟩
    rfl

/-- An instruction of length 0 whose actions are those after it. -/
example : Succeeds Instructions.readFrom [] ((Instructions.writeTo [.gotoTable 3]).out ++
      (be (4 : UInt16) ++ (be (0 : UInt16) ++ (zeros 4 ++ (Actions.writeTo [.output 7 0]).out))))
    ([] ++ [.gotoTable 3] ++ [.applyActions [.output 7 0]]) :=
  (instruction_undersized_false [.gotoTable 3] [] (by simp [Instruction.Valid]) [.output 7 0]
    (by simp [Action.Valid]) 0 (by decide) (by decide)).1

/-- C43.  The instruction that follows an undersized one is taken for an action.  As no
instruction has the type code of an action, decoding fails with an error. -/
theorem instruction_undersized_partial (is s : List Instruction) (hi : ∀ i ∈ is, i.Valid) (as : List Action)
    (hv : ∀ a ∈ as, a.Valid) (t L : UInt16) (ht : t = 3 ∨ t = 4) (hL : L < 8) (i : Instruction) (tail : Bytes)
    (hl : (Actions.writeTo as).out.length ≤ 65520) :
    Rejects Instructions.readFrom s ((Instructions.writeTo is).out ++ (be t ++ (be L ++ (zeros 4 ++
      ((Actions.writeTo as).out ++ (i.writeTo.out ++ tail)))))) .unknownType := by
  obtain ⟨it, hit⟩ := i.bytes_type
  have hib : i.writeTo.out = i.bytes := rfl
  rw [hib]
  have hA : Fails Actions.readFrom [] ((Actions.writeTo as).out ++ be i.type) .unknownType := by
    intro r tail hr hc
    refine (actions_unknown as [] i.type tail hv (by cases i <;> simp [Instruction.type]) r hr (by rw [hc]; simp)).1
  have h1 : Fails readInstructionActions [] ((be t ++ be L) ++ (zeros 4 ++ ((Actions.writeTo as).out ++ be i.type)))
      .unknownType := by
    refine Fails.withLocal (Fails.cons (s1 := ([], (t, L))) (Reads.sub (instructionHeader.reads _ _ _))
      (Fails.cons (Reads.skip (by simp)) (Fails.here (Fails.dyn (Fails.limited (Fails.sub hA) ?_)))))
    simp only [wrap_sub hL, List.length_append, be_length]
    show _ + 2 ≤ 65536 + L.toNat - 8
    omega
  intro r hr hc
  have h2 : ∃ z, instructionMake t = .ok z ∧ FailsAll Instruction.readFrom z
      (be t ++ (be L ++ (zeros 4 ++ ((Actions.writeTo as).out ++ (i.bytes ++ tail))))) .unknownType := by
    rw [hit]
    have := h1.all (it ++ tail)
    rcases ht with rfl | rfl
    · refine ⟨.writeActions [], rfl, fun r hr hc => ?_⟩
      have := this r hr (by rw [hc]; simp)
      rcases ho : readInstructionActions [] r with ⟨v, n, e, r'⟩
      rw [ho] at this; simp only at this; subst this
      simp [Instruction.readFrom, Enc.wrap, ho]
    · refine ⟨.applyActions [], rfl, fun r hr hc => ?_⟩
      have := this r hr (by rw [hc]; simp)
      rcases ho : readInstructionActions [] r with ⟨v, n, e, r'⟩
      rw [ho] at this; simp only at this; subst this
      simp [Instruction.readFrom, Enc.wrap, ho]
  obtain ⟨z, hz, h2⟩ := h2
  rw [Instructions.writeTo_eq] at hc
  exact (scanFrom_fails (enc := Instruction.bytes) (zero := Instruction.zero) (code := Instruction.type)
    rfl hz h2 s is (fun a ha => a.reads (hi a ha))
    (fun a _ => instructionMake_type a) (fun a _ => a.bytes_type) r hr hc).1

example : Rejects Instructions.readFrom [] ((Instructions.writeTo []).out ++ (be (4 : UInt16) ++
    (be (0 : UInt16) ++ (zeros 4 ++ ((Actions.writeTo [.output 7 0]).out ++
      ((Instruction.gotoTable 3).writeTo.out ++ [])))))) .unknownType :=
  instruction_undersized_partial [] [] (by simp) [.output 7 0] (by simp [Action.Valid]) 4 0 (.inr rfl)
    (by decide) (.gotoTable 3) [] (by decide)

/-! ## Groups -/

/-- C43 fails.  A bucket with a declared length below 16 takes everything up to the end of the
message for its actions. -/
theorem bucket_undersized_false (b s : Bucket) (hv : ∀ a ∈ b.actions, a.Valid) (L : UInt16) (hL : L < 16)
    (hl : (Actions.writeTo b.actions).out.length ≤ 65520) :
    DecodesAllFrom Bucket.readFrom s (be L ++ (be b.weight ++ (be b.watchPort ++ (be b.watchGroup ++
      (zeros 4 ++ (Actions.writeTo b.actions).out))))) b := by
  rw [Actions.writeTo_eq] at hl ⊢
  simp only at hl ⊢
  refine ReadsAll.decodesAllFrom ?_
  unfold Bucket.readFrom
  refine ReadsAll.withLocal (l' := L) ?_
  reads
  refine ReadsAll.last (ReadsAll.dyn (ReadsAll.limitedAll (ReadsAll.sub (Actions.readsAll b.actions hv _)) ?_))
  simp only [wrap_sub hL]
  show _ ≤ 65536 + L.toNat - 16
  omega

/-- C43 fails.  Group counters with a declared length below 40 take what follows for their
bucket counters, 16 bytes at a time. -/
theorem groupStats_undersized_false (g s : GroupStats) (L : UInt16) (hL : L < 40)
    (hl : 16 * g.bucketStats.length ≤ 65496) :
    DecodesAllFrom GroupStats.readFrom s (be L ++ (zeros 2 ++ (be g.group ++ (be g.refCount ++ (zeros 4 ++
      (be g.packetCount ++ (be g.byteCount ++ (be g.durationSec ++ (be g.durationNSec ++
        (Enc.writeSliceTo (g.bucketStats.map BucketCounter.writeTo)).out)))))))))
      { g with bucketStats := s.bucketStats } := by
  rw [← BucketCounters.bytes_length] at hl
  rw [BucketCounters.writeTo_eq]
  simp only
  refine ReadsAll.decodesAllFrom ?_
  unfold GroupStats.readFrom
  refine ReadsAll.withLocal (l' := L) ?_
  reads
  refine ReadsAll.last (ReadsAll.dyn (ReadsAll.limitedAll (ReadsAll.sub (BucketCounters.readsAll _ _)) ?_))
  simp only [wrap_sub hL]
  show _ ≤ 65536 + L.toNat - 40
  omega

/-- C43 fails.  A group description with a declared length below 8 takes what follows for its
buckets. -/
theorem groupDescStats_undersized_false (g s : GroupDescStats) (hv : ∀ b ∈ g.buckets, b.Valid) (L : UInt16)
    (hL : L < 8) (hl : (g.buckets.map Bucket.size).sum ≤ 65528) :
    DecodesAllFrom GroupDescStats.readFrom s ((be L ++ (be g.type ++ (zeros 1 ++ be g.group))) ++
        (Enc.writeSliceTo (g.buckets.map Bucket.writeTo)).out)
      { g with buckets := s.buckets } := by
  rw [← Buckets.bytes_length] at hl
  rw [Buckets.writeTo_eq]
  simp only
  refine ReadsAllC.decodesAllFrom (ReadsAllC.withLocal (l' := L) (ReadsAllC.ignoreErr ?_))
  refine ReadsAll.cons (s1 := ({ g with buckets := s.buckets }, L)) ?_ ?_
  · reads
  · refine ReadsAll.last (ReadsAll.dyn (ReadsAll.limitedAll (ReadsAll.sub (Buckets.readsAll _ _ hv)) ?_))
    simp only [wrap_sub hL]
    show _ ≤ 65536 + L.toNat - 8
    omega

/-! ## Meters -/

/-- C43 fails.  A meter configuration with a declared length below 8 takes what follows for
its bands. -/
theorem meterConfig_undersized_false (m s : MeterConfig) (L : UInt16) (hL : L < 8)
    (hl : 16 * m.bands.length ≤ 65528) :
    DecodesAllFrom MeterConfig.readFrom s (be L ++ (be m.flags ++ (be m.meter ++
        (MeterBands.writeTo m.bands).out))) { m with bands := s.bands } := by
  rw [← MeterBands.bytes_length] at hl
  rw [MeterBands.writeTo_eq]
  simp only
  refine ReadsAll.decodesAllFrom ?_
  unfold MeterConfig.readFrom
  refine ReadsAll.withLocal (l' := L) ?_
  reads
  refine ReadsAll.last (ReadsAll.dyn (ReadsAll.limitedAll (ReadsAll.sub (MeterBands.readsAll _ _)) ?_))
  simp only [wrap_sub hL]
  show _ ≤ 65536 + L.toNat - 8
  omega

/-- C43 fails.  Meter counters with a declared length below 40 take what follows for their band
counters, 16 bytes at a time. -/
theorem meterStats_undersized_false (m s : MeterStats) (L : UInt16) (hL : L < 40)
    (hl : 16 * m.bandStats.length ≤ 65496) :
    DecodesAllFrom MeterStats.readFrom s ((be m.meter ++ (be L ++ (zeros 6 ++ (be m.flowCount ++
      (be m.packetInCount ++ (be m.byteInCount ++ (be m.durationSec ++ be m.durationNSec))))))) ++
        (Enc.writeSliceTo (m.bandStats.map MeterBandStats.writeTo)).out)
      { m with bandStats := s.bandStats } := by
  rw [← MeterBandStatss.bytes_length] at hl
  rw [MeterBandStatss.writeTo_eq]
  simp only
  refine ReadsAllC.decodesAllFrom (ReadsAllC.withLocal (l' := L) (ReadsAllC.ignoreErr ?_))
  refine ReadsAll.cons (s1 := ({ m with bandStats := s.bandStats }, L)) ?_ ?_
  · unfold MeterStats.header
    reads
  · refine ReadsAll.last (ReadsAll.dyn (ReadsAll.limitedAll (ReadsAll.sub (MeterBandStatss.readsAll _ _)) ?_))
    simp only [wrap_sub hL]
    show _ ≤ 65536 + L.toNat - 40
    omega

/-! ## Queues -/

/-- C43 fails.  A queue with a declared length below 16 takes what follows for its
properties. -/
theorem packetQueue_undersized_false (q s : PacketQueue) (hv : ∀ p ∈ q.properties, p.Valid) (L : UInt16)
    (hL : L < 16) (hl : (QueueProps.writeTo q.properties).out.length ≤ 65520) :
    DecodesAllFrom PacketQueue.readFrom s (be q.queue ++ (be q.port ++ (be L ++ (zeros 6 ++
        (QueueProps.writeTo q.properties).out)))) { q with properties := s.properties } := by
  rw [QueueProps.writeTo_eq] at hl ⊢
  simp only at hl ⊢
  refine ReadsAll.decodesAllFrom ?_
  unfold PacketQueue.readFrom
  refine ReadsAll.withLocal (l' := L) ?_
  reads
  refine ReadsAll.last (ReadsAll.dyn (ReadsAll.limitedAll (ReadsAll.sub (QueueProps.readsAll _ _ hv)) ?_))
  simp only [wrap_sub hL]
  show _ ≤ 65536 + L.toNat - 16
  omega

/-- C43 fails.  A queue property of an experimenter with a declared length below 16 takes what
follows, whatever it is, for its data. -/
theorem queueExperimenter_undersized_false (e e0 : UInt32) (d0 : Bytes) (L : UInt16) (hL : L < 16)
    (rest : Bytes) (hl : rest.length ≤ 65520) :
    DecodesAllFrom QueueProp.readFrom (.experimenter e0 d0) (be (0xffff : UInt16) ++ (be L ++ (zeros 4 ++
      (be e ++ (zeros 4 ++ rest))))) (.experimenter e rest) := by
  refine ReadsAll.decodesAllFrom ?_
  have h : ReadsAll QueueProp.readExperimenter (e0, d0) ((be (0xffff : UInt16) ++ be L) ++ (zeros 4 ++
      (be e ++ (zeros 4 ++ rest)))) (e, rest) := by
    refine ReadsAll.withLocal (l' := L) ?_
    refine ReadsAll.cons (s1 := ((e0, d0), L)) ?_ ?_
    · have := Reads.bin (s := ((e0, d0), (0 : UInt16))) (k := 4)
        (b := be (0xffff : UInt16) ++ be L) (set := fun b s => (s.1, ofBE UInt16 (b.drop 2))) (by simp)
      rw [List.drop_left' (by simp), ofBE_be] at this
      exact this
    · reads
      refine ReadsAll.last (ReadsAll.dyn (ReadsAll.limitedAll (ReadsAll.rest rest) ?_))
      simp only [wrap_sub hL]
      show _ ≤ 65536 + L.toNat - 16
      omega
  have := readsAll_wrap (f := fun v : UInt32 × Bytes => QueueProp.experimenter v.1 v.2)
    (dec := QueueProp.readFrom) (s := .experimenter e0 d0) h fun _ => rfl
  simpa using this

/-- The property swallowed here is a minimal rate. -/
example : DecodesAllFrom QueueProp.readFrom (.experimenter 0 []) (be (0xffff : UInt16) ++ (be (0 : UInt16) ++
    (zeros 4 ++ (be (5 : UInt32) ++ (zeros 4 ++ (QueueProp.minRate 3).writeTo.out)))))
    (.experimenter 5 (QueueProp.minRate 3).writeTo.out) :=
  queueExperimenter_undersized_false 5 0 [] 0 (by decide) _ (by decide)

/-! ## Matches, flow counters, table features

Here the limit is computed in 64 bits and a negative one reads nothing: an undersized length is
not rejected, but nothing that follows is taken. -/

/-- C43 fails.  A match with a declared length below 4 is accepted as an empty one (with the
padding of a match of that length). -/
theorem match_undersized_false (t L : UInt16) (hL : L < 4) (pad : Bytes) (hp : pad.length = padLen L.toNat) :
    Decodes Match.readFrom (be t ++ (be L ++ pad)) ⟨t, []⟩ := by
  refine Reads.decodes fun s => ?_
  have h0 : L.toNat - 4 = 0 := by rw [UInt16.lt_iff_toNat_lt] at hL; simp at hL; omega
  refine Reads.withLocal (l' := L) ?_
  refine Reads.assignCons ?_
  refine Reads.cons (Reads.num _) ?_
  refine Reads.cons (Reads.num _) ?_
  refine Reads.cons (b1 := []) (b2 := pad) (s1 := (⟨t, []⟩, L)) ?_ ?_
  · exact Reads.dyn (Reads.limited (ReadsAll.sub
      (readAllXM_reads true XM.bytes [] [] (by simp) (by simp))) (by simpa using h0))
  · exact Reads.last (Reads.dyn (Reads.skip hp))

example : Decodes Match.readFrom (be (1 : UInt16) ++ (be (0 : UInt16) ++ [])) ⟨1, []⟩ :=
  match_undersized_false 1 0 (by decide) [] (by decide)

/-- C43 fails.  Flow counters with a declared length too small for the fixed part and the match
are accepted, without instructions. -/
theorem flowStats_undersized_false (f : FlowStats) (hm : f.mtch.Valid) (L : UInt16)
    (hL : L.toNat ≤ 48 + f.mtch.writeTo.out.length) (hi : f.instructions = []) :
    Decodes FlowStats.readFrom (be L ++ (be f.table ++ (zeros 1 ++ (be f.durationSec ++ (be f.durationNSec ++
      (be f.priority ++ (be f.idleTimeout ++ (be f.hardTimeout ++ (be f.flags ++ (zeros 4 ++
        (be f.cookie ++ (be f.packetCount ++ (be f.byteCount ++ f.mtch.writeTo.out))))))))))))) f := by
  refine Reads.decodes fun s => ?_
  rw [Match.writeTo_eq] at hL ⊢
  simp only at hL ⊢
  unfold FlowStats.readFrom
  refine Reads.withLocal (l' := L) ?_
  rw [← List.append_nil (be L ++ _)]
  refine Reads.andThen (s1 := ({ f with instructions := s.instructions }, L)) ?_ ?_
  · reads
    exact Reads.last (Reads.sub (f.mtch.reads hm _))
  · refine Reads.assignCons ?_
    have := Reads.last (Reads.dyn (f := fun s : FlowStats × UInt16 => Enc.limited (s.2.toNat -
        (be L ++ (be f.table ++ (zeros 1 ++ (be f.durationSec ++ (be f.durationNSec ++
      (be f.priority ++ (be f.idleTimeout ++ (be f.hardTimeout ++ (be f.flags ++ (zeros 4 ++
        (be f.cookie ++ (be f.packetCount ++ (be f.byteCount ++ f.mtch.bytes))))))))))))).length)
        (Enc.sub (fun s => s.1.instructions) (fun v s => ({ s.1 with instructions := v }, s.2))
          Instructions.readFrom)) (s := ({ f with instructions := [] }, L))
        (Reads.limited (ReadsAll.sub (Instructions.readsAll [] (by simp) [])) (by
          simp [Instructions.bytes]; omega)))
    have hf : ({ f with instructions := [] } : FlowStats) = f := by cases f; simp_all
    rw [← hf]
    simpa [Instructions.bytes, hf] using this

/-- C43 fails.  Table features with a declared length below 64 are accepted, without
properties. -/
theorem tableFeatures_undersized_false (t : TableFeatures) (hn : t.name.length = 32) (L : UInt16)
    (hL : L.toNat ≤ 64) (hp : t.properties = []) :
    Decodes TableFeatures.readFrom (be L ++ (be t.table ++ (zeros 5 ++ (t.name ++ (be t.metadataMatch ++
      (be t.metadataWrite ++ (be t.config ++ be t.maxEntries))))))) t := by
  refine Reads.decodes fun s => ?_
  unfold TableFeatures.readFrom
  refine Reads.withLocal (l' := (t.name, L)) ?_
  rw [← List.append_nil (be t.maxEntries)]
  refine Reads.cons (Reads.num _) ?_
  refine Reads.cons (Reads.num _) ?_
  refine Reads.cons (Reads.skip (by simp)) ?_
  refine Reads.cons (Reads.bin hn) ?_
  refine Reads.cons (Reads.num _) ?_
  refine Reads.cons (Reads.num _) ?_
  refine Reads.cons (Reads.num _) ?_
  refine Reads.cons (Reads.num _) ?_
  refine Reads.assignCons ?_
  have := Reads.last (Reads.dyn (f := fun s : TableFeatures × Bytes × UInt16 =>
      Enc.limited (s.2.2.toNat - 64)
      (Enc.sub (fun s => s.1.properties) (fun v s => ({ s.1 with properties := v }, s.2))
        (Enc.scanFrom tablePropMake TableProp.readFrom)))
      (s := ({ t with properties := [] }, t.name, L))
      (Reads.limited (ReadsAll.sub (ReadsAll.scanFrom (enc := TableProp.bytes) (zero := TableProp.zero)
        (code := TableProp.type) [] [] (by simp) (by simp) (by simp))) (by simp; omega)))
  have hf : ({ t with properties := [] } : TableFeatures) = t := by cases t; simp_all
  rw [← hf]
  simpa [hf] using this

/-! ## Hello elements and table numbers

The arrays of these elements are read by one `binary.Read` of about 64 kB, which fails unless
that much follows. -/

/-- C43.  A bitmap of versions with a declared length below 4 is rejected if anything but not
64 kB follows: always within one message, unless it is the last element. -/
theorem hello_undersized_partial (s : List UInt32) (t L : UInt16) (hL : L < 4) (rest : Bytes)
    (h0 : rest ≠ []) (h1 : rest.length < 65532) :
    Rejects HelloElem.readFrom (.versionBitmap s) (be t ++ (be L ++ rest)) .unexpectedEOF := by
  have hlt : L.toNat < 4 := by rw [UInt16.lt_iff_toNat_lt] at hL; simpa using hL
  have hw : (L - 4).toNat = 65532 + L.toNat := by rw [wrap_sub hL]; show 65536 + L.toNat - 4 = _; omega
  have h : FailsAll HelloElem.readBitmap s ((be t ++ be L) ++ rest) .unexpectedEOF := by
    refine FailsAll.withLocal (FailsAll.cons (s1 := (s, L)) ?_ (FailsAll.assignCons (FailsAll.here
      (FailsAll.dyn (FailsAll.limited ?_ ?_)))))
    · have := Reads.bin (s := (s, (0 : UInt16))) (k := 4)
        (b := be t ++ be L) (set := fun b s => (s.1, ofBE UInt16 (b.drop 2))) (by simp)
      rw [List.drop_left' (by simp), ofBE_be] at this
      exact this
    · have := (Stops.bin (d := 0) (k := 4 * ((L - 4).toNat / 4)) (set := fun b (s : List UInt32 × UInt16) =>
        (ofBE32s ((s.2 - 4).toNat / 4) b, s.2)) (s := (List.replicate ((L - 4).toNat / 4) 0, L)) (b := rest)
        (by rw [hw]; omega)).failsAll
      rw [if_neg h0] at this
      exact this
    · simp only [hw]; omega
  intro r hr hc
  have := h r hr (by rw [hc]; simp)
  rcases ho : HelloElem.readBitmap s r with ⟨v, n, e, r'⟩
  rw [ho] at this; simp only at this; subst this
  simp [HelloElem.readFrom, Enc.wrap, ho]

example : Rejects HelloElem.readFrom (.versionBitmap []) (be (1 : UInt16) ++ (be (0 : UInt16) ++ [0, 0, 0, 2]))
    .unexpectedEOF := hello_undersized_partial [] 1 0 (by decide) _ (by simp) (by decide)

/-- C43 fails.  As the last element it is accepted. -/
theorem hello_undersized_false (s : Hello) (L : UInt16) (hL : L < 4) :
    Succeeds Hello.readFrom s (be (1 : UInt16) ++ be L) s := by
  have hw : (L - 4).toNat = 65532 + L.toNat := by
    rw [UInt16.lt_iff_toNat_lt] at hL
    have h4 : (4 : UInt16).toNat = 4 := rfl
    rw [wrap_sub (by rw [UInt16.lt_iff_toNat_lt]; exact hL)]; omega
  have h : FailsAll HelloElem.readFrom (.versionBitmap []) (be (1 : UInt16) ++ be L) .eof := by
    have h : FailsAll HelloElem.readBitmap [] ((be (1 : UInt16) ++ be L) ++ []) .eof := by
      refine FailsAll.withLocal (FailsAll.cons (s1 := ([], L)) ?_ (FailsAll.assignCons (FailsAll.here
        (FailsAll.dyn (FailsAll.limited ?_ (by simp))))))
      · have := Reads.bin (s := (([] : List UInt32), (0 : UInt16))) (k := 4)
          (b := be (1 : UInt16) ++ be L) (set := fun b s => (s.1, ofBE UInt16 (b.drop 2))) (by simp)
        rw [List.drop_left' (by simp), ofBE_be] at this
        exact this
      · have := (Stops.bin (d := 0) (k := 4 * ((L - 4).toNat / 4)) (set := fun b (s : List UInt32 × UInt16) =>
          (ofBE32s ((s.2 - 4).toNat / 4) b, s.2)) (s := (List.replicate ((L - 4).toNat / 4) 0, L)) (b := [])
          (by rw [hw]; simp; omega)).failsAll
        simpa using this
    intro r hr hc
    have := h r hr (by rw [hc]; simp)
    rcases ho : HelloElem.readBitmap [] r with ⟨v, n, e, r'⟩
    rw [ho] at this; simp only at this; subst this
    simp [HelloElem.readFrom, Enc.wrap, ho]
  intro r hr hc
  obtain ⟨h1, _⟩ := scanFrom_fails (mk := helloElemMake) (enc := HelloElem.bytes)
    (zero := fun _ => HelloElem.versionBitmap []) (code := HelloElem.type) (c := 1) (z := .versionBitmap [])
    rfl rfl h s.elements [] (by simp) (by simp) (by simp) r hr hc
  rcases ho : Enc.scanFrom helloElemMake HelloElem.readFrom s.elements r with ⟨v, n, e, r'⟩
  rw [ho] at h1
  simp only [skipEOF] at h1
  subst h1
  constructor <;> simp [Hello.readFrom, Enc.readFrom, Enc.sub, HelloElems.readFrom, Enc.subVal, HelloElems.scan, ho]

/-- C43.  A list of next tables with a declared length below 4 is rejected if something but less
than 64 kB follows. -/
theorem nextTables_undersized_partial (m : Bool) (ts : Bytes) (t L : UInt16) (hL : L < 4) (rest : Bytes)
    (h0 : rest ≠ []) (h1 : rest.length < 65532) :
    Rejects TableProp.readFrom (.nextTables m ts) (be t ++ (be L ++ rest)) .unexpectedEOF := by
  have hlt : L.toNat < 4 := by rw [UInt16.lt_iff_toNat_lt] at hL; simpa using hL
  have hw : (L - 4).toNat = 65532 + L.toNat := by rw [wrap_sub hL]; show 65536 + L.toNat - 4 = _; omega
  have h : FailsAll readNextTables (m, ts) ((be t ++ be L) ++ rest) .unexpectedEOF := by
    refine FailsAll.withLocal (FailsAll.cons (yield_reads _ _ _ _) (FailsAll.assignCons (FailsAll.here
      (FailsAll.dyn ?_))))
    have := (Stops.bin (d := 0) (k := (L - 4).toNat) (set := fun b (s : (Bool × Bytes) × UInt16) => ((s.1.1, b), s.2))
      (s := (((t &&& 1 == 1), zeros (L - 4).toNat), L)) (b := rest) (by rw [hw]; omega)).failsAll
    rw [if_neg h0] at this
    exact this
  intro r hr hc
  have := h r hr (by rw [hc]; simp)
  rcases ho : readNextTables (m, ts) r with ⟨v, n, e, r'⟩
  rw [ho] at this; simp only at this; subst this
  simp [TableProp.readFrom, Enc.wrap, ho]

example : Rejects TableProp.readFrom (.nextTables false []) (be (2 : UInt16) ++ (be (3 : UInt16) ++ [7, 0, 0, 0]))
    .unexpectedEOF := nextTables_undersized_partial false [] 2 3 (by decide) _ (by simp) (by decide)

/-! ## The other table properties -/

/-- C43 fails.  A list of instruction or action types with a declared length of 0 takes what
follows, four bytes at a time, for its types. -/
theorem tableCodes_undersized_false (m0 : Bool) (is0 : List UInt16) (t : UInt16) (cs : List (UInt16 × UInt16))
    (hl : cs.length ≤ 16383) :
    DecodesAllFrom TableProp.readFrom (.instructions m0 is0)
      (be t ++ (be (0 : UInt16) ++ cs.flatMap (fun c => be c.1 ++ be c.2)))
      (.instructions (t &&& 1 == 1) (cs.map (·.1))) := by
  have hk : (cs.flatMap (fun c => be c.1 ++ be c.2)).length = 4 * cs.length := by
    clear hl
    induction cs with
    | nil => rfl
    | cons h hs ih =>
      rw [List.flatMap_cons, List.length_append, ih, List.length_cons]
      simp; omega
  have h : ReadsAll (readTablePropCodes instructionHeader.readFrom) (m0, is0)
      ((be t ++ be (0 : UInt16)) ++ cs.flatMap (fun c => be c.1 ++ be c.2)) (t &&& 1 == 1, cs.map (·.1)) := by
    have hq : instructionHeader.readFrom = actionHeader.readFrom := rfl
    rw [hq]
    refine ReadsAll.withLocal (l' := 0) ?_
    refine ReadsAll.cons (yield_reads _ _ _ _) ?_
    refine ReadsAll.assignCons ?_
    refine ReadsAll.consAll (s1 := ((t &&& 1 == 1, cs.map (fun c : UInt16 × UInt16 => c.1)), 0)) (ReadsAll.dyn (ReadsAll.limitedAll
      (ReadsAll.sub (readTypeCodes_reads cs [])) ?_)) ?_
    · simp only [hk]; show _ ≤ 65532; omega
    · exact ReadsAll.last (ReadsAll.dyn (Reads.skip (by simp only; decide)).all)
  rw [← List.append_assoc]
  exact (readsAll_wrap (dec := TableProp.readFrom) (s := .instructions m0 is0)
    (f := fun s : Bool × List UInt16 => .instructions s.1 s.2) h (fun r => rfl)).decodesAllFrom

/-- C43 fails.  The data of an experimenter property with a declared length of 0 or 8 is
whatever follows. -/
theorem tableExperimenter_undersized_false (m : Bool) (e0 y0 e y : UInt32) (d0 rest : Bytes) (t L : UInt16)
    (hL : L = 0 ∨ L = 8) (hl : rest.length ≤ 65524) :
    DecodesAllFrom TableProp.readFrom (.experimenter m e0 y0 d0)
      (be t ++ (be L ++ (be e ++ (be y ++ rest)))) (.experimenter m e y rest) := by
  have h : ReadsAll readTablePropExperimenter (e0, y0, d0)
      ((be t ++ be L) ++ (be e ++ (be y ++ rest))) (e, y, rest) := by
    refine ReadsAll.withLocal (l' := L) ?_
    refine ReadsAll.cons (s1 := ((e0, y0, d0), L)) ?_ ?_
    · have := Reads.bin (s := ((e0, y0, d0), (0 : UInt16))) (k := 4)
        (b := be t ++ be L) (set := fun b s => (s.1, ofBE UInt16 (b.drop 2))) (by simp)
      rw [List.drop_left' (by simp), ofBE_be] at this
      exact this
    · reads
      refine ReadsAll.consAll (s1 := ((e, y, rest), L)) (ReadsAll.dyn (ReadsAll.limitedAll (ReadsAll.rest rest) ?_))
        (ReadsAll.last (ReadsAll.dyn (Reads.skip ?_).all))
      · rcases hL with rfl | rfl
        · have : ((0 : UInt16) - 4 - 8).toNat = 65524 := by decide
          simp only [this]; omega
        · have : ((8 : UInt16) - 4 - 8).toNat = 65532 := by decide
          simp only [this]; omega
      · rcases hL with rfl | rfl <;> simp only <;> decide
  rw [← List.append_assoc]
  exact (readsAll_wrap (dec := TableProp.readFrom) (s := .experimenter m e0 y0 d0)
    (f := fun s : UInt32 × UInt32 × Bytes => .experimenter m s.1 s.2.1 s.2.2) h (fun r => rfl)).decodesAllFrom

example : DecodesAllFrom TableProp.readFrom (.experimenter false 0 0 [])
    (be (0xffff : UInt16) ++ (be (0 : UInt16) ++ (be (1 : UInt32) ++ (be (2 : UInt32) ++ [0, 2, 0, 5, 3, 0, 0, 0]))))
    (.experimenter false 1 2 [0, 2, 0, 5, 3, 0, 0, 0]) :=
  tableExperimenter_undersized_false false 0 0 1 2 [] _ _ 0 (.inl rfl) (by decide)

/-! ## Lengths nobody looks at -/

/-- C43.  The decoders of the meter bands do not look at the declared length. -/
theorem meterBand_length_ignored_partial (b : MeterBand) (L : UInt16) :
    DecodesFrom MeterBand.readFrom b.zero (be b.type ++ (be L ++ b.writeTo.out.drop 4)) b := by
  refine Reads.decodesFrom ?_
  rw [← List.append_assoc]
  cases b with
  | drop x y =>
    have h := Reads.cons (Reads.skip (s := ((0, 0) : UInt32 × UInt32)) (k := 4)
        (b := be (1 : UInt16) ++ be L) (by simp))
      (Reads.cons (Reads.num (set := fun v s => (v, s.2)) x)
        (Reads.cons (Reads.num (set := fun v s => (s.1, v)) y)
          (Reads.last (Reads.skip (k := 4) (zeros_length 4)))))
    have := Reads.wrap (dec := MeterBand.readFrom) (s := .drop 0 0)
      (f := fun s : UInt32 × UInt32 => MeterBand.drop s.1 s.2) h (fun r => rfl)
    simpa [MeterBand.writeTo, Enc.writeTo, Enc.gather, meterBandHeader, MeterBand.type, MeterBand.zero,
      drop_two] using this
  | dscpRemark x y z =>
    have h := Reads.cons (Reads.skip (s := ((0, 0, 0) : UInt32 × UInt32 × UInt8)) (k := 4)
        (b := be (2 : UInt16) ++ be L) (by simp))
      (Reads.cons (Reads.num (set := fun v s => (v, s.2)) x)
        (Reads.cons (Reads.num (set := fun v s => (s.1, v, s.2.2)) y)
          (Reads.cons (Reads.num (set := fun v s => (s.1, s.2.1, v)) z)
            (Reads.last (Reads.skip (k := 3) (zeros_length 3))))))
    have := Reads.wrap (dec := MeterBand.readFrom) (s := .dscpRemark 0 0 0)
      (f := fun s : UInt32 × UInt32 × UInt8 => MeterBand.dscpRemark s.1 s.2.1 s.2.2) h (fun r => rfl)
    simpa [MeterBand.writeTo, Enc.writeTo, Enc.gather, meterBandHeader, MeterBand.type, MeterBand.zero,
      drop_two] using this
  | experimenter x y z =>
    have h := Reads.cons (Reads.skip (s := ((0, 0, 0) : UInt32 × UInt32 × UInt32)) (k := 4)
        (b := be (65535 : UInt16) ++ be L) (by simp))
      (Reads.cons (Reads.num (set := fun v s => (v, s.2)) x)
        (Reads.cons (Reads.num (set := fun v s => (s.1, v, s.2.2)) y)
          (Reads.last (Reads.num (set := fun v s => (s.1, s.2.1, v)) z))))
    have := Reads.wrap (dec := MeterBand.readFrom) (s := .experimenter 0 0 0)
      (f := fun s : UInt32 × UInt32 × UInt32 => MeterBand.experimenter s.1 s.2.1 s.2.2) h (fun r => rfl)
    simpa [MeterBand.writeTo, Enc.writeTo, Enc.gather, meterBandHeader, MeterBand.type, MeterBand.zero,
      drop_two] using this

example : DecodesFrom MeterBand.readFrom (.drop 0 0)
    (be (1 : UInt16) ++ (be (2 : UInt16) ++ (MeterBand.drop 7 128).writeTo.out.drop 4)) (.drop 7 128) :=
  meterBand_length_ignored_partial (.drop 7 128) 2

end Verif.Props
