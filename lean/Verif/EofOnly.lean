import Verif.PanicIff
import Verif.Stable

/-!
# When a decoder reports `io.EOF`

`EofOnly st T`: the step reports `io.EOF` only on the inputs `T` describes, and it has then
taken all of its input.
-/

namespace Verif

variable {σ τ : Type}

def EofOnly (st : Step σ) (T : σ → Bytes → Prop) : Prop :=
  ∀ s r, r.Ok .eof → (st s r).err = some .eof → T s r.content ∧ Rd.Adv r.content.length r (st s r).rd

theorem EofOnly.nil : EofOnly (Enc.readFrom (σ := σ) []) (fun _ _ => False) := by
  intro s r hr h; simp [Enc.readFrom] at h

theorem EofOnly.assign {f : σ → σ} {t : List (Step σ)} {T : σ → Bytes → Prop} (h : EofOnly (Enc.readFrom t) T) :
    EofOnly (Enc.readFrom (Enc.assign f :: t)) (fun s b => T (f s) b) := by
  intro s r hr he
  have he' : (Enc.readFrom t (f s) r).err = some .eof := he
  exact h (f s) r hr he'

theorem EofOnly.bin {k : Nat} {set : Bytes → σ → σ} {t : List (Step σ)} {T : σ → Bytes → Prop}
    (h : EofOnly (Enc.readFrom t) T) :
    EofOnly (Enc.readFrom (Enc.bin k set :: t))
      (fun s b => (b = [] ∧ 0 < k) ∨ (k ≤ b.length ∧ T (set (b.take k) s) (b.drop k))) := by
  intro s r hr he
  rcases readFull_spec .eof k r hr with ⟨hk, r', h1, h2, h3⟩ | ⟨hk, r', h1, h2, h3⟩
  · have hs : Enc.bin k set s r = ⟨set (r.content.take k) s, (r.content.take k).length, none, r'⟩ := by
      simp only [Enc.bin, h1]
    rw [readFrom_step hs] at he ⊢
    obtain ⟨g1, g2⟩ := h _ r' h3 he
    have hc := h2.content.2
    rw [hc] at g1
    refine ⟨.inr ⟨hk, g1⟩, ?_⟩
    have := h2.trans g2
    rwa [hc, List.length_drop, show k + (r.content.length - k) = r.content.length by omega] at this
  · have hs : Enc.bin k set s r = ⟨(Enc.bin k set s r).val, (Enc.bin k set s r).n,
        some (shortErr .eof r.content), r'⟩ := by simp only [Enc.bin, h1]
    generalize (Enc.bin k set s r).val = v at hs
    generalize (Enc.bin k set s r).n = n at hs
    simp only [Enc.readFrom, hs, Option.some.injEq] at he ⊢
    refine ⟨.inl ?_, h2⟩
    unfold shortErr at he
    split at he
    · cases he
    · rename_i hx
      by_cases hcc : r.content = []
      · exact ⟨hcc, by omega⟩
      · exact absurd ⟨hcc, rfl⟩ hx

theorem EofOnly.dynBin {k : σ → Nat} {set : Bytes → σ → σ} {t : List (Step σ)} {T : σ → Bytes → Prop}
    (h : EofOnly (Enc.readFrom t) T) :
    EofOnly (Enc.readFrom (Enc.dyn (fun s => Enc.bin (k s) set) :: t))
      (fun s b => (b = [] ∧ 0 < k s) ∨ (k s ≤ b.length ∧ T (set (b.take (k s)) s) (b.drop (k s)))) :=
  fun s r hr he => EofOnly.bin (k := k s) (set := set) h s r hr he

/-- The bytes of an `OXM` end in front of its field type, its length or its value. -/
def XmEnds (b : Bytes) : Prop :=
  b.length ∈ [0, 2, 3] ∨ (∃ x y z n : UInt8, b = [x, y, z, n] ∧ n ≠ 0)

theorem XM.readFrom_eofOnly : EofOnly XM.readFrom (fun _ => XmEnds) := by
  have h := EofOnly.bin (k := Wire.size UInt16) (set := fun b (s : XM × XMLocal) => ({ s.1 with cls := ofBE UInt16 b }, s.2)) <|
    EofOnly.bin (k := Wire.size UInt8) (set := fun b (s : XM × XMLocal) => ({ s.1 with type := ofBE UInt8 b }, s.2)) <|
    EofOnly.bin (k := Wire.size UInt8) (set := fun b (s : XM × XMLocal) => (s.1, (ofBE UInt8 b, s.2.2))) <|
    EofOnly.assign (f := fun s =>
      ({ s.1 with type := s.1.type >>> 1, value := zeros s.2.1.toNat, mask := [] },
        (s.2.1, s.1.type &&& 1 == 1))) <|
    EofOnly.dynBin (k := fun s : XM × XMLocal => s.2.1.toNat)
      (set := fun b (s : XM × XMLocal) => ({ s.1 with value := b }, s.2)) <|
    EofOnly.assign (f := fun s =>
      if s.2.2 then
        let length := s.2.1.toNat / 2
        ({ s.1 with mask := (s.1.value.drop length).take length,
                    value := s.1.value.take length }, s.2)
      else s) <| EofOnly.nil
  intro s r hr he
  obtain ⟨g1, g2⟩ := h (s, (0, false)) r hr he
  refine ⟨?_, g2⟩
  clear g2 he h
  match hc : r.content with
  | [] => simp [XmEnds]
  | [_] => simp [hc, Wire.size] at g1
  | [_, _] => simp [XmEnds]
  | [_, _, _] => simp [XmEnds]
  | x :: y :: z :: n :: t =>
    rw [hc] at g1
    simp [Wire.size, ofBE_u8] at g1
    obtain ⟨rfl, h⟩ := g1
    refine .inr ⟨x, y, z, n, rfl, ?_⟩
    rintro rfl
    simp at h

/-- A set-field action, its length, and the part of its field that this length leaves room for. -/
theorem setField_eof (s : XM) (r : Rd) (hr : r.Ok .eof) (he : (setField.readFrom s r).err = some .eof) :
    (setField.readFrom s r).rd.content = [] ∨
    ∃ (a c hi lo : UInt8) (t : Bytes), r.content = a :: c :: hi :: lo :: t ∧
      (hi.toNat * 256 + lo.toNat + 65532) % 65536 < t.length ∧ XmEnds (sfBody hi lo t) := by
  have hf : Flat (Enc.sub (σ := XM × (UInt16 × UInt16)) (fun s => s.2) (fun h s => (s.1, h)) actionHeader.readFrom) 4 :=
    actionHeader.flat.sub
  rcases Nat.lt_or_ge r.content.length 4 with hl | hl
  · left
    obtain ⟨-, h2, -, h4⟩ := hf (s, ((0, 0) : UInt16 × UInt16)) r hr
    obtain ⟨⟨e, he', -⟩, hn⟩ := h4 hl
    rw [hn] at h2
    rcases ho : Enc.sub (σ := XM × (UInt16 × UInt16)) (fun s => s.2) (fun h s => (s.1, h)) actionHeader.readFrom
      (s, (0, 0)) r with ⟨v, n, e', r1⟩
    rw [ho] at he' h2
    simp only at he' h2
    subst he'
    have : (setField.readFrom s r).rd = r1 := by
      unfold setField.readFrom Enc.withLocal
      simp only [Enc.readFrom, ho]
    rw [this, h2.content.2]; simp
  · obtain ⟨a, c, hi, lo, t, hc⟩ : ∃ a c hi lo t, r.content = a :: c :: hi :: lo :: t := by
      match hc : r.content, hl with
      | a :: c :: hi :: lo :: t, _ => exact ⟨a, c, hi, lo, t, rfl⟩
    have hc' : r.content = (be (ofBE UInt16 [a, c]) ++ be (ofBE UInt16 [hi, lo])) ++ t := by
      rw [hc, be_ofBE_u16 rfl, be_ofBE_u16 rfl]; rfl
    have hrd : Reads (Enc.sub (σ := XM × (UInt16 × UInt16)) (fun s => s.2) (fun h s => (s.1, h))
        actionHeader.readFrom) (s, (0, 0)) (be (ofBE UInt16 [a, c]) ++ be (ofBE UInt16 [hi, lo]))
        (s, (ofBE UInt16 [a, c], ofBE UInt16 [hi, lo])) := Reads.sub (actionHeader.reads _ _ _)
    have hn : (ofBE UInt16 [hi, lo] - 4).toNat = (hi.toNat * 256 + lo.toNat + 65532) % 65536 := by
      rw [UInt16.toNat_sub, ofBE_u16]; simp; omega
    generalize ofBE UInt16 [hi, lo] = L at *
    generalize ofBE UInt16 [a, c] = K at *
    have hlen : (be K ++ be L).length = 4 := by simp
    have hcl := hrd.clean r t hr hc'
    rw [hlen] at hcl
    obtain ⟨r1, h1, h2, h3⟩ := hcl
    have ht : r1.content = t := by rw [h2.content.2, hc]; rfl
    have heq : setField.readFrom s r =
        let o := Enc.limited (L - 4).toNat (Enc.readFrom [
          Enc.sub (fun s : XM × (UInt16 × UInt16) => s.1) (fun x s => (x, s.2)) XM.readFrom,
          Enc.rest (fun _ s => s)]) (s, (K, L)) r1
        ⟨o.val.1, 4 + o.n, o.err, o.rd⟩ := by
      unfold setField.readFrom Enc.withLocal
      simp only
      rw [readFrom_step h1, readFrom_one]
      rfl
    rw [heq] at he ⊢
    have hb : t.take (L - 4).toNat = sfBody hi lo t := by unfold sfBody; rw [hn]
    clear heq
    generalize (L - 4).toNat = n at *
    have hok : (Rd.lim n r1).Ok .eof := ⟨rfl, h3⟩
    have hlc : (Rd.lim n r1).content = t.take n := by simp only [Rd.content, ht]
    -- the field fails
    rcases ho : XM.readFrom s (.lim n r1) with ⟨v, m, e, r2⟩
    have hx := XM.readFrom_eofOnly s (.lim n r1) hok
    have hsafe := (XM.read_safe (E := ShortErr) true) s (.lim n r1) hok
    rw [ho] at hx
    rw [show XM.read true s (.lim n r1) = _ from ho] at hsafe
    cases e with
    | none =>
      exfalso
      have hne := NoEof.rest (set := fun _ (s : XM × (UInt16 × UInt16)) => s) (v, (K, L)) r2 hsafe.ok
      apply hne
      rcases hr' : Enc.rest (fun _ (s : XM × (UInt16 × UInt16)) => s) (v, (K, L)) r2 with ⟨v', m', e', r3⟩
      cases e' <;> simp only [Enc.limited, Enc.readFrom, Enc.sub, ho, hr'] at he ⊢ <;> exact he
    | some e =>
      simp only [Enc.limited, Enc.readFrom, Enc.sub, ho] at he ⊢
      obtain ⟨g1, g2⟩ := hx he
      simp only [hlc] at g1 g2
      rcases Nat.lt_or_ge n t.length with hnt | hnt
      · exact .inr ⟨a, c, hi, lo, t, hc, hn ▸ hnt, hb ▸ g1⟩
      · left
        rw [g2.unlimit.content.2, ht, List.take_of_length_le hnt]; simp

end Verif
