import Verif.EncodingSafe

/-!
# What the codec theorems say

Small vocabulary used in the statements of the wire-format theorems.  Nothing here
refers to an encoder or decoder of the model.
-/

namespace Verif

/-- The `k` bytes of `b` starting at byte `off` are the big-endian representation of the
number `v`. -/
def At (b : Bytes) (off k v : Nat) : Prop :=
  off + k ≤ b.length ∧ getBE ((b.drop off).take k) = v

/-- The bytes `s` occur in `b` starting at byte `off`. -/
def SubAt (b : Bytes) (off : Nat) (s : Bytes) : Prop :=
  off + s.length ≤ b.length ∧ (b.drop off).take s.length = s

/-- A field of a packet diagram: a `k`-byte big-endian number, `k` zero bytes of padding,
or raw bytes. -/
inductive Fld where
  | num (k v : Nat)
  | pad (k : Nat)
  | raw (b : Bytes)

/-- `b` is exactly the given sequence of fields. -/
def Layout (b : Bytes) : List Fld → Prop
  | [] => b = []
  | .num k v :: t => k ≤ b.length ∧ getBE (b.take k) = v ∧ Layout (b.drop k) t
  | .pad k :: t => k ≤ b.length ∧ b.take k = zeros k ∧ Layout (b.drop k) t
  | .raw s :: t => s.length ≤ b.length ∧ b.take s.length = s ∧ Layout (b.drop s.length) t

/-- The encoder succeeded and reported the number of bytes it produced. -/
def Encodes (w : Wr) : Prop := w.err = none ∧ w.n = w.out.length

/-- Decoding: whatever the receiver held before, on any reader (any fragmentation of the
stream, any nesting of `io.LimitReader` / `bufio.Reader`) that delivers `bs` followed by
any `tail`, the decoder succeeds, the receiver is exactly `x`, the reported count is the
length of `bs`, and exactly `tail` is left in the reader. -/
def Decodes {σ : Type} (dec : Step σ) (bs : Bytes) (x : σ) : Prop :=
  ∀ (s : σ) (r : Rd) (tail : Bytes), r.Ok .eof → r.content = bs ++ tail →
    (dec s r).val = x ∧ (dec s r).n = bs.length ∧ (dec s r).err = none ∧
      (dec s r).rd.content = tail

/-- As `Decodes`, for decoders whose last part extends to the end of the input. -/
def DecodesAll {σ : Type} (dec : Step σ) (bs : Bytes) (x : σ) : Prop :=
  ∀ (s : σ) (r : Rd), r.Ok .eof → r.content = bs →
    (dec s r).val = x ∧ (dec s r).n = bs.length ∧ (dec s r).err = none ∧
      (dec s r).rd.content = []

/-- As `Decodes`, for one particular receiver `s`. -/
def DecodesFrom {σ : Type} (dec : Step σ) (s : σ) (bs : Bytes) (x : σ) : Prop :=
  ∀ (r : Rd) (tail : Bytes), r.Ok .eof → r.content = bs ++ tail →
    (dec s r).val = x ∧ (dec s r).n = bs.length ∧ (dec s r).err = none ∧
      (dec s r).rd.content = tail

/-- As `DecodesAll`, for one particular receiver `s`. -/
def DecodesAllFrom {σ : Type} (dec : Step σ) (s : σ) (bs : Bytes) (x : σ) : Prop :=
  ∀ (r : Rd), r.Ok .eof → r.content = bs →
    (dec s r).val = x ∧ (dec s r).n = bs.length ∧ (dec s r).err = none ∧
      (dec s r).rd.content = []

/-- A fixed-size record of `k` bytes.  On any reader and for any receiver: with at least
`k` bytes the decoder succeeds, reports `k` and leaves the rest; with fewer it fails with
an end-of-input error and reports what there was. -/
def FixedSize {σ : Type} (dec : Step σ) (k : Nat) : Prop :=
  ∀ (s : σ) (r : Rd), r.Ok .eof →
    (k ≤ r.content.length → (dec s r).err = none ∧ (dec s r).n = k ∧
      (dec s r).rd.content = r.content.drop k) ∧
    (r.content.length < k → ((dec s r).err = some .eof ∨ (dec s r).err = some .unexpectedEOF) ∧
      (dec s r).n = r.content.length)

/-- Every string of `k` bytes decodes to a value that does not depend on what the receiver
held before. -/
def Overwrites {σ : Type} (dec : Step σ) (k : Nat) : Prop :=
  ∀ bs : Bytes, bs.length = k → ∃ x, Decodes dec bs x

theorem Reads.decodes {σ : Type} {dec : Step σ} {bs : Bytes} {x : σ}
    (h : ∀ s, Reads dec s bs x) : Decodes dec bs x := by
  intro s r tail hr hc
  obtain ⟨r', h1, h2, _⟩ := h s r tail hr hc
  refine ⟨by rw [h1], by rw [h1], by rw [h1], ?_⟩
  rw [h1, h2.content.2, hc]; simp

theorem Reads.decodesFrom {σ : Type} {dec : Step σ} {s : σ} {bs : Bytes} {x : σ}
    (h : Reads dec s bs x) : DecodesFrom dec s bs x := by
  intro r tail hr hc
  obtain ⟨r', h1, h2, _⟩ := h r tail hr hc
  refine ⟨by rw [h1], by rw [h1], by rw [h1], ?_⟩
  rw [h1, h2.content.2, hc]; simp

theorem ReadsC.decodesFrom {σ : Type} {dec : Step σ} {s : σ} {bs : Bytes} {x : σ}
    (h : ReadsC dec s bs x) : DecodesFrom dec s bs x := by
  intro r tail hr hc
  obtain ⟨r', h1, h2, _⟩ := h r tail hr hc
  refine ⟨by rw [h1], by rw [h1], by rw [h1], ?_⟩
  rw [h1, h2.content.2, hc]; simp

theorem ReadsAllC.decodesAllFrom {σ : Type} {dec : Step σ} {s : σ} {bs : Bytes} {x : σ}
    (h : ReadsAllC dec s bs x) : DecodesAllFrom dec s bs x := by
  intro r hr hc
  obtain ⟨r', h1, h2, _⟩ := h r hr hc
  refine ⟨by rw [h1], by rw [h1], by rw [h1], ?_⟩
  rw [h1, h2.content.2, hc]; simp

theorem ReadsAll.decodesAllFrom {σ : Type} {dec : Step σ} {s : σ} {bs : Bytes} {x : σ}
    (h : ReadsAll dec s bs x) : DecodesAllFrom dec s bs x := by
  intro r hr hc
  obtain ⟨r', h1, h2, _⟩ := h r hr hc
  refine ⟨by rw [h1], by rw [h1], by rw [h1], ?_⟩
  rw [h1, h2.content.2, hc]; simp

/-- A decoder that keeps a part of the receiver cannot restore a value that differs there. -/
theorem Keeps.not_decodesFrom {σ α : Type} {dec : Step σ} {f : σ → α} (h : Keeps f dec) {s x : σ}
    {bs : Bytes} (hne : f x ≠ f s) : ¬ DecodesFrom dec s bs x := by
  intro hd
  have := hd (.src bs [] .eof false) [] rfl (by simp [Rd.content])
  exact hne ((congrArg f this.1).symm.trans (h s _))

theorem Keeps.not_decodesAllFrom {σ α : Type} {dec : Step σ} {f : σ → α} (h : Keeps f dec) {s x : σ}
    {bs : Bytes} (hne : f x ≠ f s) : ¬ DecodesAllFrom dec s bs x := by
  intro hd
  have := hd (.src bs [] .eof false) rfl (by simp [Rd.content])
  exact hne ((congrArg f this.1).symm.trans (h s _))

theorem ReadsAll.decodes {σ : Type} {dec : Step σ} {bs : Bytes} {x : σ}
    (h : ∀ s, ReadsAll dec s bs x) : DecodesAll dec bs x := by
  intro s r hr hc
  obtain ⟨r', h1, h2, _⟩ := h s r hr hc
  refine ⟨by rw [h1], by rw [h1], by rw [h1], ?_⟩
  rw [h1, h2.content.2, hc]; simp

/-- A reader's user calling a decoder `n` times in a row on fresh receivers `s`, as with the
entries of a multipart reply; stops at the first error. -/
def decodeMany {σ : Type} (dec : Step σ) (s : σ) : Nat → Rd → List σ × Rd
  | 0, r => ([], r)
  | n + 1, r =>
    match dec s r with
    | ⟨_, _, some _, r'⟩ => ([], r')
    | ⟨x, _, none, r'⟩ => let o := decodeMany dec s n r'; (x :: o.1, o.2)

theorem decodeMany_never {σ : Type} {dec : Step σ} {E : Err → Prop} (hs : Safe E dec) {s : σ}
    (h : ∀ r : Rd, r.Ok .eof → r.content = [] → (dec s r).err = none) (n : Nat) (r : Rd)
    (hr : r.Ok .eof) (hc : r.content = []) : (decodeMany dec s n r).1.length = n := by
  induction n generalizing r with
  | zero => rfl
  | succ n ih =>
    have h1 := h r hr hc
    obtain ⟨⟨m, hm, ha⟩, ho, _⟩ := hs s r hr
    rcases hst : dec s r with ⟨v, k, e, r1⟩
    rw [hst] at h1 ha ho
    simp only at h1 ha ho
    subst h1
    simp only [decodeMany, hst, List.length_cons]
    rw [ih r1 ho (by rw [ha.content.2, hc]; simp)]

theorem Reads.many {σ : Type} {dec : Step σ} {enc : σ → Bytes} {s : σ} (xs : List σ)
    (h : ∀ x ∈ xs, Reads dec s (enc x) x) (r : Rd) (tail : Bytes) (hr : r.Ok .eof)
    (hc : r.content = xs.flatMap enc ++ tail) :
    (decodeMany dec s xs.length r).1 = xs ∧ (decodeMany dec s xs.length r).2.content = tail := by
  induction xs generalizing r with
  | nil => exact ⟨rfl, by simpa [decodeMany] using hc⟩
  | cons x xs ih =>
    obtain ⟨r1, e1, a1, o1⟩ := h x (by simp) r (xs.flatMap enc ++ tail) hr (by simpa using hc)
    have := ih (fun y hy => h y (by simp [hy])) r1 o1 (by rw [a1.content.2, hc]; simp)
    simp [decodeMany, e1, this]

/-! ### Proof support for layouts -/

theorem At.head {α : Type} [Wire α] (x : α) (t : Bytes) :
    At (be x ++ t) 0 (Wire.size α) (Wire.toNat x) := by simp [At, getBE_be]

theorem At.skip {b t : Bytes} {off off' k v : Nat} (h : off = b.length + off')
    (h' : At t off' k v) : At (b ++ t) off k v := by
  subst h
  refine ⟨by have := h'.1; simp; omega, ?_⟩
  simpa [← List.drop_drop] using h'.2

theorem SubAt.head (s t : Bytes) : SubAt (s ++ t) 0 s := by simp [SubAt]

theorem SubAt.skip {b t s : Bytes} {off off' : Nat} (h : off = b.length + off')
    (h' : SubAt t off' s) : SubAt (b ++ t) off s := by
  subst h
  refine ⟨by have := h'.1; simp; omega, ?_⟩
  simpa [← List.drop_drop] using h'.2

@[simp] theorem Layout.nil_iff (b : Bytes) : Layout b [] ↔ b = [] := Iff.rfl

@[simp] theorem Layout.u8 (x : UInt8) (t : Bytes) (v : Nat) (fs : List Fld) :
    Layout (be x ++ t) (.num 1 v :: fs) ↔ x.toNat = v ∧ Layout t fs := by
  simp [Layout, getBE_be, Wire.toNat]

@[simp] theorem Layout.u16 (x : UInt16) (t : Bytes) (v : Nat) (fs : List Fld) :
    Layout (be x ++ t) (.num 2 v :: fs) ↔ x.toNat = v ∧ Layout t fs := by
  simp [Layout, getBE_be, Wire.toNat]

@[simp] theorem Layout.u32 (x : UInt32) (t : Bytes) (v : Nat) (fs : List Fld) :
    Layout (be x ++ t) (.num 4 v :: fs) ↔ x.toNat = v ∧ Layout t fs := by
  simp [Layout, getBE_be, Wire.toNat]

@[simp] theorem Layout.u64 (x : UInt64) (t : Bytes) (v : Nat) (fs : List Fld) :
    Layout (be x ++ t) (.num 8 v :: fs) ↔ x.toNat = v ∧ Layout t fs := by
  simp [Layout, getBE_be, Wire.toNat]

@[simp] theorem Layout.u8' (x : UInt8) (v : Nat) (fs : List Fld) :
    Layout (be x) (.num 1 v :: fs) ↔ x.toNat = v ∧ Layout [] fs := by
  simpa using Layout.u8 x [] v fs

@[simp] theorem Layout.u16' (x : UInt16) (v : Nat) (fs : List Fld) :
    Layout (be x) (.num 2 v :: fs) ↔ x.toNat = v ∧ Layout [] fs := by
  simpa using Layout.u16 x [] v fs

@[simp] theorem Layout.u32' (x : UInt32) (v : Nat) (fs : List Fld) :
    Layout (be x) (.num 4 v :: fs) ↔ x.toNat = v ∧ Layout [] fs := by
  simpa using Layout.u32 x [] v fs

@[simp] theorem Layout.u64' (x : UInt64) (v : Nat) (fs : List Fld) :
    Layout (be x) (.num 8 v :: fs) ↔ x.toNat = v ∧ Layout [] fs := by
  simpa using Layout.u64 x [] v fs

@[simp] theorem Layout.zeros (k : Nat) (t : Bytes) (fs : List Fld) :
    Layout (Verif.zeros k ++ t) (.pad k :: fs) ↔ Layout t fs := by
  simp [Layout]

@[simp] theorem Layout.zeros' (k : Nat) (fs : List Fld) :
    Layout (Verif.zeros k) (.pad k :: fs) ↔ Layout [] fs := by
  simpa using Layout.zeros k [] fs

@[simp] theorem Layout.raw (s t : Bytes) (fs : List Fld) :
    Layout (s ++ t) (.raw s :: fs) ↔ Layout t fs := by
  simp [Layout]

@[simp] theorem Layout.raw' (s : Bytes) (fs : List Fld) :
    Layout s (.raw s :: fs) ↔ Layout [] fs := by
  simpa using Layout.raw s [] fs

/-! ### Proof support for fixed-size records -/

theorem Flat.fixed {σ : Type} {dec : Step σ} {k : Nat} (h : Flat dec k) : FixedSize dec k := by
  intro s r hr
  obtain ⟨h1, h2, h3, h4⟩ := h s r hr
  refine ⟨fun hk => ?_, fun hk => ?_⟩
  · obtain ⟨h5, h6⟩ := h3 hk
    refine ⟨h5, h6, ?_⟩
    rw [h2.content.2, h6]
  · obtain ⟨⟨e, h5, h6⟩, h7⟩ := h4 hk
    refine ⟨?_, h7⟩
    rw [h5]
    rcases h6 with h6 | h6 <;> simp [h6]

section
variable {σ : Type}

theorem Reads.splitNum {α : Type} [Wire α] {set : α → σ → σ} {t : List (Step σ)} {s s' : σ}
    {bs : Bytes} (hl : Wire.size α ≤ bs.length)
    (h : Reads (Enc.readFrom t) (set (ofBE α (bs.take (Wire.size α))) s) (bs.drop (Wire.size α)) s') :
    Reads (Enc.readFrom (Enc.num set :: t)) s bs s' := by
  have h1 : Reads (Enc.num set) s (bs.take (Wire.size α)) _ :=
    Reads.bin (set := fun b s => set (ofBE α b) s) (by simp; omega)
  have := Reads.cons h1 h
  simpa using this

theorem Reads.splitBin {k : Nat} {set : Bytes → σ → σ} {t : List (Step σ)} {s s' : σ}
    {bs : Bytes} (hl : k ≤ bs.length)
    (h : Reads (Enc.readFrom t) (set (bs.take k) s) (bs.drop k) s') :
    Reads (Enc.readFrom (Enc.bin k set :: t)) s bs s' := by
  have := Reads.cons (Reads.bin (k := k) (set := set) (s := s) (b := bs.take k) (by simp; omega)) h
  simpa using this

theorem Reads.splitSkip {k : Nat} {t : List (Step σ)} {s s' : σ}
    {bs : Bytes} (hl : k ≤ bs.length)
    (h : Reads (Enc.readFrom t) s (bs.drop k) s') :
    Reads (Enc.readFrom (Enc.skip k :: t)) s bs s' := Reads.splitBin hl h

theorem Reads.splitPair {set : UInt32 × UInt32 → σ → σ} {t : List (Step σ)} {s s' : σ}
    {bs : Bytes} (hl : 8 ≤ bs.length)
    (h : Reads (Enc.readFrom t) (set (ofBE UInt32 ((bs.take 8).take 4), ofBE UInt32 ((bs.take 8).drop 4)) s)
      (bs.drop 8) s') :
    Reads (Enc.readFrom (Enc.pair32 set :: t)) s bs s' := Reads.splitBin hl h

theorem Reads.splitQuad {set : UInt32 × UInt32 × UInt32 × UInt32 → σ → σ} {t : List (Step σ)} {s s' : σ}
    {bs : Bytes} (hl : 16 ≤ bs.length)
    (h : Reads (Enc.readFrom t) (set (ofBE UInt32 ((bs.take 16).take 4),
      ofBE UInt32 (((bs.take 16).drop 4).take 4), ofBE UInt32 (((bs.take 16).drop 8).take 4),
      ofBE UInt32 ((bs.take 16).drop 12)) s) (bs.drop 16) s') :
    Reads (Enc.readFrom (Enc.quad32 set :: t)) s bs s' := Reads.splitBin hl h

theorem Reads.splitEnd {s : σ} {bs : Bytes} (h : bs.length = 0) :
    Reads (Enc.readFrom []) s bs s := by
  have : bs = [] := List.length_eq_zero_iff.mp h
  subst this; exact Reads.nil

theorem Reads.pair32 {set : UInt32 × UInt32 → σ → σ} {s : σ} (x y : UInt32) :
    Reads (Enc.pair32 set) s (be x ++ be y) (set (x, y) s) := by
  have := Reads.bin (set := fun b => set (ofBE UInt32 (b.take 4), ofBE UInt32 (b.drop 4))) (s := s)
    (b := be x ++ be y) (k := 8) (by simp)
  simpa [Enc.pair32, List.take_append, List.drop_append, List.take_of_length_le,
    List.drop_of_length_le] using this

theorem Reads.quad32 {set : UInt32 × UInt32 × UInt32 × UInt32 → σ → σ} {s : σ} (x y z w : UInt32) :
    Reads (Enc.quad32 set) s (be x ++ (be y ++ (be z ++ be w))) (set (x, y, z, w) s) := by
  have := Reads.bin (set := fun b => set (ofBE UInt32 (b.take 4), ofBE UInt32 ((b.drop 4).take 4),
    ofBE UInt32 ((b.drop 8).take 4), ofBE UInt32 (b.drop 12))) (s := s)
    (b := be x ++ (be y ++ (be z ++ be w))) (k := 16) (by simp)
  simpa [Enc.quad32, List.take_append, List.drop_append, List.take_of_length_le,
    List.drop_of_length_le] using this

end

/-- Proves `Reads` of a list of fields against a right-nested concatenation. -/
macro "reads" : tactic => `(tactic|
  (repeat (with_reducible first
    | refine Reads.cons (Reads.num _) ?_
    | refine Reads.cons (Reads.skip (by simp)) ?_
    | refine Reads.cons (Reads.pair32 _ _) ?_
    | refine Reads.cons (Reads.quad32 _ _ _ _) ?_
    | refine Reads.assignCons ?_
    | refine ReadsAll.cons (Reads.num _) ?_
    | refine ReadsAll.cons (Reads.skip (by simp)) ?_
    | refine ReadsAll.assignCons ?_)
   try first
    | exact Reads.last (Reads.num _)
    | exact Reads.last (Reads.pair32 _ _)
    | exact Reads.last (Reads.quad32 _ _ _ _)
    | exact Reads.last (Reads.skip (by simp))))

/-- Proves `Reads` of a fixed-size record against an arbitrary byte string. -/
macro "readsAny" : tactic => `(tactic|
  ((repeat (with_reducible first
    | refine Reads.splitNum (by (try simp); omega) ?_
    | refine Reads.splitSkip (by (try simp); omega) ?_
    | refine Reads.splitPair (by (try simp); omega) ?_
    | refine Reads.splitQuad (by (try simp); omega) ?_
    | refine Reads.splitBin (by (try simp); omega) ?_));
   exact Reads.splitEnd (by simp; omega)))

/-- Decides a layout statement about a concatenation of fields. -/
macro "layout" : tactic => `(tactic|
  (simp [At, SubAt, List.drop_append, List.take_append, List.drop_of_length_le,
    List.take_of_length_le, Nat.add_assoc, Nat.sub_sub, getBE_be, Wire.toNat] <;> omega))

example (a : UInt16) (b c : UInt32) (d : Bytes) :
    At (be a ++ (be b ++ (zeros 4 ++ (be c ++ d)))) 2 4 b.toNat ∧
    At (be a ++ (be b ++ (zeros 4 ++ (be c ++ d)))) 10 4 c.toNat ∧
    SubAt (be a ++ (be b ++ (zeros 4 ++ (be c ++ d)))) 6 (zeros 4) ∧
    SubAt (be a ++ (be b ++ (zeros 4 ++ (be c ++ d)))) 14 d := by
  refine ⟨?_, ?_, ?_, ?_⟩
  · layout
  · layout
  · layout
  · layout

end Verif
