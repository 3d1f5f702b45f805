import Verif.Spec.Wire

/-!
# Relaying: vocabulary and proof support for property C61
-/

namespace Verif

/-- A part of a packet: bytes that carry information, or reserved bytes. -/
inductive Part where
  | keep (k : Nat)
  | clear (k : Nat)
  deriving DecidableEq, Repr

def Part.size : Part → Nat
  | keep k => k
  | clear k => k

/-- The packet with its reserved bytes set to zero. -/
def canon : List Part → Bytes → Bytes
  | [], _ => []
  | .keep k :: t, bs => bs.take k ++ canon t (bs.drop k)
  | .clear k :: t, bs => zeros k ++ canon t (bs.drop k)

/-- Every string of the right size is decoded, and the encoding of the result is the string
with the reserved bytes set to zero. -/
def Relays {σ : Type} (enc : σ → Wr) (dec : Step σ) (ps : List Part) : Prop :=
  ∀ bs : Bytes, bs.length = (ps.map Part.size).sum →
    ∃ x, Decodes dec bs x ∧ Encodes (enc x) ∧ (enc x).out = canon ps bs

/-- As `Relays`, for messages that extend to the end of the input: `ps` describes the head. -/
def RelaysAll {σ : Type} (enc : σ → Wr) (dec : Step σ) (ps : List Part) : Prop :=
  ∀ bs : Bytes, (ps.map Part.size).sum ≤ bs.length →
    ∃ x, DecodesAll dec bs x ∧ Encodes (enc x) ∧
      (enc x).out = canon ps bs ++ bs.drop (ps.map Part.size).sum

/-! ### Proof support -/

theorem canon_keep (k : Nat) (bs : Bytes) (h : bs.length = k) : canon [.keep k] bs = bs := by
  simp [canon, ← h]

theorem splitPad (k : Nat) {n : Nat} (bs : Bytes) (h : bs.length = n + k) :
    ∃ p t : Bytes, bs = p ++ t ∧ p.length = k ∧ t.length = n :=
  ⟨bs.take k, bs.drop k, by simp, by simp; omega, by simp; omega⟩

theorem be_ofBE_u64 {b : Bytes} (h : b.length = 8) : be (ofBE UInt64 b) = b := by
  have hlt := getBE_lt b
  rw [h] at hlt
  have : (UInt64.ofNat (getBE b)).toNat = getBE b := by simp only [UInt64.toNat_ofNat']; omega
  show putBE 8 (UInt64.ofNat (getBE b)).toNat = b
  rw [this, ← h]; exact putBE_getBE b

theorem split64 {n : Nat} (bs : Bytes) (h : bs.length = n + 8) :
    ∃ (x : UInt64) (t : Bytes), bs = be x ++ t ∧ t.length = n :=
  ⟨ofBE UInt64 (bs.take 8), bs.drop 8, by rw [be_ofBE_u64 (by simp; omega)]; simp, by simp; omega⟩

theorem split32 {n : Nat} (bs : Bytes) (h : bs.length = n + 4) :
    ∃ (x : UInt32) (t : Bytes), bs = be x ++ t ∧ t.length = n :=
  ⟨ofBE UInt32 (bs.take 4), bs.drop 4, by rw [be_ofBE_u32 (by simp; omega)]; simp, by simp; omega⟩

theorem split16 {n : Nat} (bs : Bytes) (h : bs.length = n + 2) :
    ∃ (x : UInt16) (t : Bytes), bs = be x ++ t ∧ t.length = n :=
  ⟨ofBE UInt16 (bs.take 2), bs.drop 2, by rw [be_ofBE_u16 (by simp; omega)]; simp, by simp; omega⟩

theorem split8 {n : Nat} (bs : Bytes) (h : bs.length = n + 1) :
    ∃ (x : UInt8) (t : Bytes), bs = be x ++ t ∧ t.length = n :=
  ⟨ofBE UInt8 (bs.take 1), bs.drop 1, by
    rw [be_ofBE_u8 (by simp; omega)]; exact (List.take_append_drop 1 bs).symm, by simp; omega⟩

theorem Reads.consPair {σ : Type} {set : UInt32 × UInt32 → σ → σ} {t : List (Step σ)} {s s' : σ}
    {bs : Bytes} (x y : UInt32) (h : Reads (Enc.readFrom t) (set (x, y) s) bs s') :
    Reads (Enc.readFrom (Enc.pair32 set :: t)) s (be x ++ (be y ++ bs)) s' := by
  have := Reads.cons (Reads.pair32 (set := set) (s := s) x y) h
  simpa using this

theorem Reads.consQuad {σ : Type} {set : UInt32 × UInt32 × UInt32 × UInt32 → σ → σ}
    {t : List (Step σ)} {s s' : σ} {bs : Bytes} (x y z w : UInt32)
    (h : Reads (Enc.readFrom t) (set (x, y, z, w) s) bs s') :
    Reads (Enc.readFrom (Enc.quad32 set :: t)) s (be x ++ (be y ++ (be z ++ (be w ++ bs)))) s' := by
  have := Reads.cons (Reads.quad32 (set := set) (s := s) x y z w) h
  simpa using this

/-- Proves `Reads` of a list of fields against a concatenation with arbitrary reserved bytes. -/
macro "readsPad" : tactic => `(tactic|
  (repeat (with_reducible first
    | refine Reads.cons (Reads.num _) ?_
    | refine Reads.cons (Reads.skip (by first | assumption | simp)) ?_
    | refine Reads.consPair _ _ ?_
    | refine Reads.consQuad _ _ _ _ ?_)
   exact Reads.nil))

end Verif
