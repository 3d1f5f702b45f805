import Verif.Conforms
import Verif.Props.Reserved
import Verif.Props.Relay

/-!
# What the specification reads and what the decoders read: proof support for property C92

From a byte string that the readers of `Verif.Spec.Structs` accept we get a value of the library
that says the same and of which the byte string is the packet, up to reserved bytes.
-/

namespace Verif

theorem Loose.append {c2 : Bytes} {g : List Fld} (h2 : Loose c2 g) : ∀ {f : List Fld} {c1 : Bytes},
    Loose c1 f → Loose (c1 ++ c2) (f ++ g) := by
  intro f
  induction f with
  | nil => intro c1 h; rw [show c1 = [] from h]; exact h2
  | cons x f ih =>
    intro c1 h
    cases x with
    | num k v =>
      refine ⟨by have := h.1; simp; omega, ?_, ?_⟩
      · rw [List.take_append_of_le_length h.1]; exact h.2.1
      · rw [List.drop_append_of_le_length h.1]; exact ih h.2.2
    | pad k =>
      refine ⟨by have := h.1; simp; omega, ?_⟩
      rw [List.drop_append_of_le_length h.1]; exact ih h.2
    | raw s =>
      refine ⟨by have := h.1; simp; omega, ?_, ?_⟩
      · rw [List.take_append_of_le_length h.1]; exact h.2.1
      · rw [List.drop_append_of_le_length h.1]; exact ih h.2.2

theorem Loose.u8 {x : UInt8} {b : Bytes} {fs : List Fld} (h : Loose b fs) :
    Loose (be x ++ b) (.num 1 x.toNat :: fs) :=
  ⟨by simp, by simp [getBE_be, Wire.toNat], by simpa using h⟩

theorem Loose.u16 {x : UInt16} {b : Bytes} {fs : List Fld} (h : Loose b fs) :
    Loose (be x ++ b) (.num 2 x.toNat :: fs) :=
  ⟨by simp, by simp [getBE_be, Wire.toNat], by simpa using h⟩

theorem Loose.u32 {x : UInt32} {b : Bytes} {fs : List Fld} (h : Loose b fs) :
    Loose (be x ++ b) (.num 4 x.toNat :: fs) :=
  ⟨by simp, by simp [getBE_be, Wire.toNat], by simpa using h⟩

theorem Loose.u64 {x : UInt64} {b : Bytes} {fs : List Fld} (h : Loose b fs) :
    Loose (be x ++ b) (.num 8 x.toNat :: fs) :=
  ⟨by simp, by simp [getBE_be, Wire.toNat], by simpa using h⟩

theorem Loose.num16 {x : UInt16} {v : Nat} {b : Bytes} {fs : List Fld} (hx : x.toNat = v) (h : Loose b fs) :
    Loose (be x ++ b) (.num 2 v :: fs) := hx ▸ h.u16

theorem Loose.skip {p b : Bytes} {k : Nat} {fs : List Fld} (hp : p.length = k) (h : Loose b fs) :
    Loose (p ++ b) (.pad k :: fs) :=
  ⟨by simp [hp], by simpa [← hp] using h⟩

theorem Loose.bytes {s b : Bytes} {fs : List Fld} (h : Loose b fs) : Loose (s ++ b) (.raw s :: fs) :=
  ⟨by simp, by simp, by simpa using h⟩

theorem Loose.nil : Loose [] [] := rfl

end Verif

namespace Verif.Spec

/-! ## Structs of a fixed size -/

/-- The size of a member. -/
def Member.size : Member → Nat
  | .num _ k => k
  | .pad k => k
  | .raw _ k => k
  | .text _ k => k

/-- Which bytes of a member carry information. -/
def Member.mask : Member → List Bool
  | .num _ k => List.replicate k true
  | .pad k => List.replicate k false
  | .raw _ k => List.replicate k true
  | .text _ k => List.replicate k true

/-- Which bytes of a part of a packet carry information. -/
def partMask : Part → List Bool
  | .keep k => List.replicate k true
  | .clear k => List.replicate k false

/-- Clears the bytes that do not carry information. -/
def clearBy : List Bool → Bytes → Bytes
  | [], _ => []
  | true :: m, b => b.take 1 ++ clearBy m (b.drop 1)
  | false :: m, b => 0 :: clearBy m (b.drop 1)

theorem clearBy_keep (k : Nat) (m : List Bool) : ∀ b : Bytes, clearBy (List.replicate k true ++ m) b =
    b.take k ++ clearBy m (b.drop k) := by
  induction k with
  | zero => simp
  | succ k ih =>
    intro b
    cases b with
    | nil => simpa [List.replicate_succ, clearBy] using ih []
    | cons x b => simpa [List.replicate_succ, clearBy] using ih b

theorem clearBy_clear (k : Nat) (m : List Bool) : ∀ b : Bytes, clearBy (List.replicate k false ++ m) b =
    zeros k ++ clearBy m (b.drop k) := by
  induction k with
  | zero => simp [zeros]
  | succ k ih =>
    intro b
    have := ih (b.drop 1)
    simp only [List.replicate_succ, List.cons_append, clearBy, this, zeros, List.drop_drop]
    rw [Nat.add_comm]

theorem canon_clearBy (ps : List Part) : ∀ b : Bytes, canon ps b = clearBy (ps.flatMap partMask) b := by
  induction ps with
  | nil => intro b; rfl
  | cons p ps ih =>
    intro b
    cases p with
    | keep k => rw [List.flatMap_cons, partMask, clearBy_keep, canon, ih]
    | clear k => rw [List.flatMap_cons, partMask, clearBy_clear, canon, ih]

theorem read_clearBy (ms : List Member) : ∀ (b : Bytes) (r : Record), read ms b = some (r, []) →
    b.length = (ms.map Member.size).sum ∧ read ms (clearBy (ms.flatMap Member.mask) b) = some (r, []) := by
  induction ms with
  | nil => intro b r h; simp [read] at h; simp [h, clearBy]
  | cons m ms ih =>
    intro b r h
    cases m with
    | pad k =>
      simp only [read] at h
      split at h
      · obtain ⟨h1, h2⟩ := ih _ _ h
        refine ⟨by simp [Member.size, ← h1]; omega, ?_⟩
        rw [List.flatMap_cons, Member.mask, clearBy_clear]; simp [h2, -zeros_length]
      · simp at h
    | num n k =>
      simp only [read] at h
      split at h
      · rename_i hk
        simp only [Option.map_eq_some_iff, Prod.exists, Prod.mk.injEq] at h
        obtain ⟨r', t', h, rfl, rfl⟩ := h
        obtain ⟨h1, h2⟩ := ih _ _ h
        refine ⟨by simp [Member.size, ← h1]; omega, ?_⟩
        rw [List.flatMap_cons, Member.mask, clearBy_keep]
        simp [read, List.length_take, Nat.min_eq_left hk, h2]
      · simp at h
    | raw n k =>
      simp only [read] at h
      split at h
      · rename_i hk
        simp only [Option.map_eq_some_iff, Prod.exists, Prod.mk.injEq] at h
        obtain ⟨r', t', h, rfl, rfl⟩ := h
        obtain ⟨h1, h2⟩ := ih _ _ h
        refine ⟨by simp [Member.size, ← h1]; omega, ?_⟩
        rw [List.flatMap_cons, Member.mask, clearBy_keep]
        simp [read, List.length_take, Nat.min_eq_left hk, h2]
      · simp at h
    | text n k =>
      simp only [read] at h
      split at h
      · rename_i hk
        simp only [Option.map_eq_some_iff, Prod.exists, Prod.mk.injEq] at h
        obtain ⟨r', t', h, rfl, rfl⟩ := h
        obtain ⟨h1, h2⟩ := ih _ _ h
        refine ⟨by simp [Member.size, ← h1]; omega, ?_⟩
        rw [List.flatMap_cons, Member.mask, clearBy_keep]
        simp [read, List.length_take, Nat.min_eq_left hk, h2]
      · simp at h

theorem struct_read {ms : List Member} {b : Bytes} {r : Record} (h : struct ms b = some r) :
    read ms b = some (r, []) := by
  unfold struct at h
  split at h
  · rename_i h'; rw [h']; simpa using h
  · simp at h

theorem partMask_length (ps : List Part) : (ps.flatMap partMask).length = (ps.map Part.size).sum := by
  induction ps with
  | nil => rfl
  | cons p ps ih => cases p <;> simp [partMask, Part.size, ih]

theorem mask_length (ms : List Member) : (ms.flatMap Member.mask).length = (ms.map Member.size).sum := by
  induction ms with
  | nil => rfl
  | cons m ms ih => cases m <;> simp [Member.mask, Member.size, ih]

/-- A struct of a fixed size whose reserved bytes the library ignores too. -/
theorem struct_relays {σ : Type} {enc : σ → Wr} {dec : Step σ} {ps : List Part} {ms : List Member}
    (hr : Relays enc dec ps) (hp : ms.flatMap Member.mask = ps.flatMap partMask) {b : Bytes} {r : Record}
    (h : struct ms b = some r) : ∃ x, Decodes dec b x ∧ struct ms (enc x).out = some r := by
  obtain ⟨h1, h2⟩ := read_clearBy ms b r (struct_read h)
  obtain ⟨x, hx, -, ho⟩ := hr b (by rw [h1, ← mask_length, hp, partMask_length])
  exact ⟨x, hx, struct_of (by rw [ho, canon_clearBy, ← hp, h2])⟩

/-- The same, with what the value says. -/
theorem struct_understood {σ : Type} {enc : σ → Wr} {dec : Step σ} {ps : List Part} {ms : List Member}
    {said : σ → Record} (hr : Relays enc dec ps)
    (hc : ∀ x, (enc x).err = none ∧ struct ms (enc x).out = some (said x))
    (hp : ms.flatMap Member.mask = ps.flatMap partMask) (b : Bytes) (r : Record)
    (h : struct ms b = some r) : ∃ x, Decodes dec b x ∧ said x = r := by
  obtain ⟨x, h1, h2⟩ := struct_relays hr hp h
  exact ⟨x, h1, by rw [(hc x).2] at h2; simpa using h2⟩

/-! ## Members one by one -/

theorem read_num_inv {n : String} {k : Nat} {ms : List Member} {b t : Bytes} {r : Record}
    (h : read (.num n k :: ms) b = some (r, t)) : ∃ c b' r', b = c ++ b' ∧ c.length = k ∧
      read ms b' = some (r', t) ∧ r = (n, .num (getBE c)) :: r' := by
  simp only [read] at h
  split at h
  · rename_i hk
    simp only [Option.map_eq_some_iff, Prod.exists, Prod.mk.injEq] at h
    obtain ⟨r', t', h, rfl, rfl⟩ := h
    exact ⟨b.take k, b.drop k, r', by simp, by simp [hk], h, rfl⟩
  · simp at h

theorem read_u8_inv {n : String} {ms : List Member} {b t : Bytes} {r : Record}
    (h : read (.num n 1 :: ms) b = some (r, t)) : ∃ (x : UInt8) (b' : Bytes) (r' : Record), b = be x ++ b' ∧
      read ms b' = some (r', t) ∧ r = (n, .num x.toNat) :: r' := by
  obtain ⟨c, b', r', rfl, hc, h', rfl⟩ := read_num_inv h
  refine ⟨ofBE UInt8 c, b', r', by rw [be_ofBE_u8 hc], h', ?_⟩
  have := getBE_be (ofBE UInt8 c)
  rw [be_ofBE_u8 hc] at this
  rw [this]; rfl

theorem read_u16_inv {n : String} {ms : List Member} {b t : Bytes} {r : Record}
    (h : read (.num n 2 :: ms) b = some (r, t)) : ∃ (x : UInt16) (b' : Bytes) (r' : Record), b = be x ++ b' ∧
      read ms b' = some (r', t) ∧ r = (n, .num x.toNat) :: r' := by
  obtain ⟨c, b', r', rfl, hc, h', rfl⟩ := read_num_inv h
  refine ⟨ofBE UInt16 c, b', r', by rw [be_ofBE_u16 hc], h', ?_⟩
  have := getBE_be (ofBE UInt16 c)
  rw [be_ofBE_u16 hc] at this
  rw [this]; rfl

theorem read_u32_inv {n : String} {ms : List Member} {b t : Bytes} {r : Record}
    (h : read (.num n 4 :: ms) b = some (r, t)) : ∃ (x : UInt32) (b' : Bytes) (r' : Record), b = be x ++ b' ∧
      read ms b' = some (r', t) ∧ r = (n, .num x.toNat) :: r' := by
  obtain ⟨c, b', r', rfl, hc, h', rfl⟩ := read_num_inv h
  refine ⟨ofBE UInt32 c, b', r', by rw [be_ofBE_u32 hc], h', ?_⟩
  have := getBE_be (ofBE UInt32 c)
  rw [be_ofBE_u32 hc] at this
  rw [this]; rfl

theorem read_u64_inv {n : String} {ms : List Member} {b t : Bytes} {r : Record}
    (h : read (.num n 8 :: ms) b = some (r, t)) : ∃ (x : UInt64) (b' : Bytes) (r' : Record), b = be x ++ b' ∧
      read ms b' = some (r', t) ∧ r = (n, .num x.toNat) :: r' := by
  obtain ⟨c, b', r', rfl, hc, h', rfl⟩ := read_num_inv h
  refine ⟨ofBE UInt64 c, b', r', by rw [be_ofBE_u64 hc], h', ?_⟩
  have := getBE_be (ofBE UInt64 c)
  rw [be_ofBE_u64 hc] at this
  rw [this]; rfl

theorem read_pad_inv {k : Nat} {ms : List Member} {b t : Bytes} {r : Record}
    (h : read (.pad k :: ms) b = some (r, t)) : ∃ p b', b = p ++ b' ∧ p.length = k ∧ read ms b' = some (r, t) := by
  simp only [read] at h
  split at h
  · rename_i hk; exact ⟨b.take k, b.drop k, by simp, by simp [hk], h⟩
  · simp at h

theorem read_nil_inv {b t : Bytes} {r : Record} (h : read [] b = some (r, t)) : r = [] ∧ b = t := by
  simpa [read, eq_comm] using h

theorem u16_lt (off : Nat) (b : Bytes) : u16 off b ≤ 65535 := by
  have h := getBE_lt ((b.drop off).take 2)
  have h2 : ((b.drop off).take 2).length ≤ 2 := by simp; omega
  have : 256 ^ ((b.drop off).take 2).length ≤ 256 ^ 2 := Nat.pow_le_pow_right (by omega) h2
  unfold u16; omega

theorem u8_lt (off : Nat) (b : Bytes) : u8 off b ≤ 255 := by
  have h := getBE_lt ((b.drop off).take 1)
  have h2 : ((b.drop off).take 1).length ≤ 1 := by simp; omega
  have : 256 ^ ((b.drop off).take 1).length ≤ 256 ^ 1 := Nat.pow_le_pow_right (by omega) h2
  unfold u8; omega

/-- The head of a record: type and length. -/
theorem head_inv {b : Bytes} (h : 4 ≤ b.length) : ∃ (t l : UInt16) (b' : Bytes), b = be t ++ (be l ++ b') ∧
    u16 0 b = t.toNat ∧ u16 2 b = l.toNat ∧ b.drop 4 = b' := by
  obtain ⟨t, b1, rfl, h1⟩ := split16 (n := b.length - 2) b (by omega)
  obtain ⟨l, b2, rfl, h2⟩ := split16 (n := b1.length - 2) b1 (by simp at h1 h; omega)
  exact ⟨t, l, b2, rfl, by simp, by simp, by rw [← List.append_assoc, List.drop_left' (by simp)]⟩

/-! ## Lists -/

theorem recordsFuel_inv {off align : Nat} : ∀ (fuel : Nat) (b : Bytes) (bs : List Bytes),
    recordsFuel off align fuel b = some bs → (b = [] ∧ bs = []) ∨
      ∃ fuel' bs', off + 2 ≤ u16 off b ∧ (u16 off b + align - 1) / align * align ≤ b.length ∧
        bs = b.take (u16 off b) :: bs' ∧
        recordsFuel off align fuel' (b.drop ((u16 off b + align - 1) / align * align)) = some bs'
  | 0, b, bs, h => by
    simp only [recordsFuel] at h
    split at h
    · exact .inl ⟨by assumption, by simpa using h.symm⟩
    · simp at h
  | fuel + 1, b, bs, h => by
    simp only [recordsFuel] at h
    split at h
    · exact .inl ⟨by assumption, by simpa using h.symm⟩
    · split at h
      · rename_i h1
        simp only [Option.map_eq_some_iff] at h
        obtain ⟨bs', h2, rfl⟩ := h
        exact .inr ⟨fuel, bs', h1.1, h1.2, rfl, h2⟩
      · simp at h

theorem each_cons_inv {α : Type} {f : Bytes → Option α} {b : Bytes} {bs : List Bytes} {ys : List α}
    (h : each f (b :: bs) = some ys) : ∃ y ys', ys = y :: ys' ∧ f b = some y ∧ each f bs = some ys' := by
  simp only [each, Option.bind_eq_bind, Option.bind_eq_some_iff, Option.pure_def, Option.some.injEq] at h
  obtain ⟨y, hy, ys', hys, rfl⟩ := h
  exact ⟨y, ys', rfl, hy, hys⟩

/-- Elements of a list that are understood one by one make a list that is understood.  `P` is what
is asked of what the elements say. -/
theorem records_inv {α β : Type} {off : Nat} {f : Bytes → Option β} {g : α → β} {w : α → List Fld} {V : α → Prop}
    {P : β → Prop}
    (h1 : ∀ b y, f b = some y → P y → u16 off b = b.length → ∃ x, V x ∧ g x = y ∧ Loose b (w x)) :
    ∀ (fuel : Nat) (bs : List Bytes) (b : Bytes) (ys : List β), recordsFuel off 1 fuel b = some bs →
      each f bs = some ys → (∀ y ∈ ys, P y) →
      ∃ xs : List α, (∀ x ∈ xs, V x) ∧ xs.map g = ys ∧ Loose b (xs.flatMap w) := by
  intro fuel bs
  induction bs generalizing fuel with
  | nil =>
    intro b ys h hy hP
    rcases recordsFuel_inv fuel b [] h with ⟨rfl, -⟩ | ⟨_, _, _, _, h0, _⟩
    · exact ⟨[], by simp, by simpa [each] using hy, rfl⟩
    · simp at h0
  | cons c bs ih =>
    intro b ys h hy hP
    rcases recordsFuel_inv fuel b _ h with ⟨-, h0⟩ | ⟨fuel', bs', h2, h3, h0, h4⟩
    · simp at h0
    · simp only [List.cons.injEq] at h0
      obtain ⟨hc, hbs⟩ := h0
      subst bs'
      obtain ⟨y, ys', rfl, hy1, hy2⟩ := each_cons_inv hy
      have e1 : (u16 off b + 1 - 1) / 1 * 1 = u16 off b := by omega
      rw [e1] at h3 h4
      obtain ⟨xs, a1, a2, a3⟩ := ih fuel' _ _ h4 hy2 (fun y hy => hP y (by simp [hy]))
      have hl : u16 off c = c.length := by
        have : u16 off (c ++ b.drop (u16 off b)) = u16 off c := u16_append (by rw [hc]; simp; omega) _
        rw [hc, List.take_append_drop] at this
        rw [hc, ← this]; simp [h3]
      obtain ⟨x, v1, v2, v3⟩ := h1 c y hy1 (hP y (by simp)) hl
      refine ⟨x :: xs, by simpa using ⟨v1, a1⟩, by simp [v2, a2], ?_⟩
      rw [← List.take_append_drop (u16 off b) b, ← hc, List.flatMap_cons]
      exact Loose.append a3 v3

theorem list_inv {α β : Type} {off : Nat} {f : Bytes → Option β} {g : α → β} {w : α → List Fld} {V : α → Prop}
    {P : β → Prop}
    (h1 : ∀ b y, f b = some y → P y → u16 off b = b.length → ∃ x, V x ∧ g x = y ∧ Loose b (w x))
    {b : Bytes} {ys : List β} (h : list off 1 f b = some ys) (hP : ∀ y ∈ ys, P y) :
    ∃ xs : List α, (∀ x ∈ xs, V x) ∧ xs.map g = ys ∧ Loose b (xs.flatMap w) := by
  unfold list at h
  rw [Option.bind_eq_some_iff] at h
  obtain ⟨bs, h2, h3⟩ := h
  exact records_inv h1 _ bs b ys h2 h3 hP

end Verif.Spec

namespace Verif

/-! ## Matches -/

theorem u8_head : ∀ n < 256, ((UInt8.ofNat n >>> 1) <<< 1) ||| (UInt8.ofNat n &&& 1) = UInt8.ofNat n ∧
    (UInt8.ofNat n >>> 1).toNat < 128 ∧ (UInt8.ofNat n &&& 1).toNat = n % 2 := by decide +kernel

/-- A field that the specification reads, and whose mask if any is not empty, is the encoding of a
field that says the same. -/
theorem oxm_inv {b : Bytes} {o : Spec.Oxm} (h : Spec.oxm b = some o) (hm : o.mask ≠ some []) :
    ∃ x : XM, x.Valid ∧ x.said = o ∧ x.bytes = b := by
  suffices hx : ∃ x : XM, x.Valid ∧ x.bytes = b by
    obtain ⟨x, h1, h2⟩ := hx
    have := x.conforms h1
    rw [h2, h] at this
    exact ⟨x, h1, by simpa using this.symm, h2⟩
  unfold Spec.oxm at h
  simp only [] at h
  split at h
  · simp at h
  · rename_i hl
    have hl : b.length = 4 + Spec.u8 3 b := by omega
    obtain ⟨c, b1, rfl, h1⟩ := split16 (n := b.length - 2) b (by omega)
    obtain ⟨t, b2, rfl, h2⟩ := split8 (n := b1.length - 1) b1 (by simp at hl h1; omega)
    obtain ⟨l, p, rfl, h3⟩ := split8 (n := b2.length - 1) b2 (by simp at hl h1 h2; omega)
    have e2 : Spec.u8 2 (be c ++ (be t ++ (be l ++ p))) = t.toNat := by
      rw [show (2 : Nat) = 2 + 0 from rfl, Spec.u8_skip (by simp), Spec.u8_zero]
    have e3 : Spec.u8 3 (be c ++ (be t ++ (be l ++ p))) = l.toNat := by
      rw [show (3 : Nat) = 2 + (1 + 0) from rfl, Spec.u8_skip (by simp), Spec.u8_skip (by simp), Spec.u8_zero]
    have ed : (be c ++ (be t ++ (be l ++ p))).drop 4 = p := by
      rw [← List.append_assoc, ← List.append_assoc, List.drop_left' (by simp)]
    rw [e2, e3, ed] at h
    rw [e3] at hl
    have hp : p.length = l.toNat := by simp at hl; omega
    have hlt := l.toNat_lt
    obtain ⟨f1, f2, f3⟩ := u8_head t.toNat t.toNat_lt
    simp only [UInt8.ofNat_toNat] at f1 f2 f3
    split at h
    · rename_i ht
      refine ⟨⟨c, t >>> 1, p, []⟩, ⟨f2, by simp; omega, .inl rfl⟩, ?_⟩
      have e : (t &&& 1) = 0 := UInt8.toNat.inj (by rw [f3, ht]; rfl)
      rw [e] at f1
      rw [XM.bytes_eq]
      simp only [List.length_nil, Nat.lt_irrefl, if_false, f1, Nat.zero_add, hp, UInt8.ofNat_toNat, List.append_nil]
    · rename_i ht
      split at h
      · rename_i hn
        have h0 : p ≠ [] := by
          rintro rfl
          apply hm
          simp only [Option.some.injEq] at h
          rw [← h]; simp
        have hpos : 0 < p.length := List.length_pos_iff.mpr h0
        refine ⟨⟨c, t >>> 1, p.take (l.toNat / 2), p.drop (l.toNat / 2)⟩,
          ⟨f2, by simp; omega, .inr (by simp; omega)⟩, ?_⟩
        have e : (t &&& 1) = 1 := UInt8.toNat.inj (by rw [f3]; simp; omega)
        rw [e] at f1
        rw [XM.bytes_eq]
        simp only [List.length_drop, List.length_take, List.take_append_drop]
        rw [if_pos (by omega), f1,
          show p.length - l.toNat / 2 + min (l.toNat / 2) p.length = l.toNat by omega, UInt8.ofNat_toNat]
      · simp at h

theorem oxmsFuel_inv : ∀ (fuel : Nat) (b : Bytes) (os : List Spec.Oxm), Spec.oxmsFuel fuel b = some os →
    (∀ o ∈ os, o.mask ≠ some []) →
    ∃ xs : List XM, (∀ x ∈ xs, x.Valid) ∧ xs.map XM.said = os ∧ xs.flatMap XM.bytes = b
  | 0, b, os, h, _ => by
    simp only [Spec.oxmsFuel] at h
    split at h
    · rename_i hb; exact ⟨[], by simp, by simpa using h, by simp [hb]⟩
    · simp at h
  | fuel + 1, b, os, h, hm => by
    simp only [Spec.oxmsFuel] at h
    split at h
    · rename_i hb; exact ⟨[], by simp, by simpa using h, by simp [hb]⟩
    · split at h
      · simp only [Option.bind_eq_bind, Option.bind_eq_some_iff, Option.pure_def, Option.some.injEq] at h
        obtain ⟨o, ho, os', hos, rfl⟩ := h
        obtain ⟨x, x1, x2, x3⟩ := oxm_inv ho (hm o (by simp))
        obtain ⟨xs, y1, y2, y3⟩ := oxmsFuel_inv fuel _ os' hos (fun o h => hm o (by simp [h]))
        exact ⟨x :: xs, by simpa using ⟨x1, y1⟩, by simp [x2, y2], by simp [x3, y3]⟩
      · simp at h

theorem matchAt_inv {b t : Bytes} {v : Spec.Match} (h : Spec.matchAt b = some (v, t))
    (hm : ∀ o ∈ v.fields, o.mask ≠ some []) :
    ∃ (x : Match) (p : Bytes), x.Valid ∧ x.said = v ∧ b = p ++ t ∧ Loose p (Props.MatchPacket x) := by
  unfold Spec.matchAt at h
  simp only [] at h
  split at h
  · rename_i hl
    simp only [Option.bind_eq_bind, Option.bind_eq_some_iff, Option.pure_def, Option.some.injEq, Prod.mk.injEq] at h
    obtain ⟨os, hos, rfl, rfl⟩ := h
    obtain ⟨xs, x1, x2, x3⟩ := oxmsFuel_inv _ _ os hos hm
    have hb4 : 4 ≤ b.length := by omega
    obtain ⟨ty, l, b', rfl, u0, u2, ud⟩ := Spec.head_inv hb4
    rw [u2] at hl x3 ⊢
    rw [u0] at hm ⊢
    have hlt := l.toNat_lt
    have hlen : (be ty ++ (be l ++ b')).length = 4 + b'.length := by simp; omega
    have e1 : ((be ty ++ (be l ++ b')).take l.toNat).drop 4 = b'.take (l.toNat - 4) := by
      rw [List.drop_take, ud]
    rw [e1] at x3
    have e2 : (be ty ++ (be l ++ b')).drop ((l.toNat + 7) / 8 * 8) = b'.drop ((l.toNat + 7) / 8 * 8 - 4) := by
      rw [← ud, List.drop_drop]; congr 1; omega
    have hsum : (xs.map (fun x => 4 + x.value.length + x.mask.length)).sum = l.toNat - 4 := by
      have := congrArg List.length x3
      simp only [List.length_flatMap, XM.bytes_length, List.length_take] at this
      rw [this]; omega
    refine ⟨⟨ty, xs⟩, be ty ++ (be l ++ (b'.take (l.toNat - 4) ++
      (b'.drop (l.toNat - 4)).take ((l.toNat + 7) / 8 * 8 - l.toNat))), ⟨x1, by simp only [hsum]; omega⟩, ?_, ?_, ?_⟩
    · simp [Match.said, x2]
    · rw [e2]
      simp only [List.append_assoc]
      congr 2
      have : b'.drop ((l.toNat + 7) / 8 * 8 - 4) =
          (b'.drop (l.toNat - 4)).drop ((l.toNat + 7) / 8 * 8 - l.toNat) := by
        rw [List.drop_drop]; congr 1; omega
      rw [this, List.take_append_drop, List.take_append_drop]
    · simp only [Props.MatchPacket, hsum]
      have e4 : 4 + (l.toNat - 4) = l.toNat := by omega
      have ex : xs.flatMap (fun x => x.writeTo.out) = b'.take (l.toNat - 4) := x3
      rw [e4, ex]
      refine Loose.u16 (Loose.u16 (Loose.bytes ?_))
      have hk : ((b'.drop (l.toNat - 4)).take ((l.toNat + 7) / 8 * 8 - l.toNat)).length =
        (l.toNat + 7) / 8 * 8 - l.toNat := by simp; omega
      simpa using Loose.skip hk Loose.nil
  · simp at h

/-! ## Actions -/

/-- The actions that the library can be told: not OFPAT_POP_PBB, and no empty mask. -/
def Spec.Action.Known (a : Spec.Action) : Prop :=
  a.name ≠ "OFPAT_POP_PBB" ∧ ∀ o, a.field = some o → o.mask ≠ some []

theorem lookup_mem {β : Type} {t : Nat} {v : β} {l : List (Nat × β)} (h : l.lookup t = some v) : (t, v) ∈ l := by
  induction l with
  | nil => simp at h
  | cons x l ih =>
    obtain ⟨k, n⟩ := x
    rw [List.lookup_cons] at h
    split at h
    · rename_i hk
      simp only [Option.some.injEq] at h
      simp at hk; simp [hk, h]
    · exact List.mem_cons_of_mem _ (ih h)

theorem action_inv {b : Bytes} {v : Spec.Action} (h : Spec.action b = some v) (hk : v.Known) :
    ∃ x : Action, x.Valid ∧ x.said = v ∧ Loose b (Props.ActionWire x) := by
  have hne : b ≠ [] := by
    rintro rfl
    rw [show Spec.action [] = none by decide +kernel] at h; simp at h
  unfold Spec.action at h
  split at h
  · simp at h
  rename_i hl
  have hl2 : Spec.u16 2 b = b.length := by omega
  have hl8 : b.length % 8 = 0 := by omega
  have hb4 : 4 ≤ b.length := by
    have := List.length_pos_iff.2 hne
    omega
  obtain ⟨ty, l, b', rfl, u0, u2, ud⟩ := Spec.head_inv hb4
  rw [u2] at hl2
  rw [u0, ud] at h
  have hlen : l.toNat = 4 + b'.length := by rw [hl2]; simp; omega
  have hty : ∀ n : UInt16, ty.toNat = n.toNat → ty = n := fun n h => UInt16.toNat.inj h
  split at h
  · rename_i h25
    simp only [] at h
    split at h
    · rename_i hn
      simp only [Option.bind_eq_bind, Option.bind_eq_some_iff, Option.pure_def, Option.some.injEq] at h
      obtain ⟨o, ho, rfl⟩ := h
      obtain ⟨x, x1, x2, x3⟩ := oxm_inv ho (hk.2 o rfl)
      have h255 := x1.2.1
      have hxl := x.bytes_length
      have hu7 : Spec.u8 7 (be ty ++ (be l ++ b')) = Spec.u8 3 b' := by
        rw [show (7 : Nat) = 2 + (2 + 3) from rfl, Spec.u8_skip (by simp), Spec.u8_skip (by simp)]
      rw [hu7] at x3 hn
      rw [← hl2] at hn
      have hu3 : Spec.u8 3 b' = x.value.length + x.mask.length := by
        have := congrArg List.length x3
        simp only [List.length_take] at this
        omega
      refine ⟨.setField x, x1, by simp [Action.said, x2], ?_⟩
      have hsp : b' = x.bytes ++ b'.drop (4 + Spec.u8 3 b') := by rw [x3, List.take_append_drop]
      have hpad : (b'.drop (4 + Spec.u8 3 b')).length = l.toNat - (8 + x.value.length + x.mask.length) := by
        simp; omega
      have hll : (8 + x.value.length + x.mask.length + 7) / 8 * 8 = l.toNat := by omega
      simp only [Props.ActionWire, hll]
      refine Loose.num16 h25 (Loose.u16 ?_)
      obtain ⟨_, _, _, _, c1, c0⟩ := xm_type_shift x.type.toNat x1.1
      simp only [UInt8.ofNat_toNat] at c1 c0
      rw [hsp, XM.bytes_eq]
      simp only [List.append_assoc]
      have ht : ((x.type <<< 1) ||| (if 0 < x.mask.length then 1 else 0)).toNat =
          2 * x.type.toNat + if x.mask = [] then 0 else 1 := by
        rcases Decidable.em (x.mask = []) with h | h
        · simp only [h, List.length_nil, Nat.lt_irrefl, if_false, if_true, c0]; omega
        · simp only [h, List.length_pos_iff.2 h, if_true, if_false, c1]
      have hln : (UInt8.ofNat (x.mask.length + x.value.length)).toNat = x.value.length + x.mask.length := by
        rw [UInt8.toNat_ofNat_of_lt' (show x.mask.length + x.value.length < 256 by omega)]; omega
      rw [← ht, ← hln]
      refine Loose.u16 (Loose.u8 (Loose.u8 (Loose.bytes (Loose.bytes ?_))))
      simpa using Loose.skip hpad Loose.nil
    · simp at h
  · rename_i h25
    simp only [Option.bind_eq_bind, Option.bind_eq_some_iff, Option.pure_def, Option.some.injEq, Prod.exists] at h
    obtain ⟨name, ms, hms, r, hr, rfl⟩ := h
    have hr := Spec.struct_read hr
    have hmem := lookup_mem hms
    clear hms
    simp only [Spec.actionStructs, List.mem_cons, Prod.mk.injEq, List.not_mem_nil, or_false] at hmem
    rcases hmem with h | h | h | h | h | h | h | h | h | h | h | h | h | h | h | h <;>
      obtain ⟨h1, rfl, rfl⟩ := h
    · obtain ⟨p, _, _, rfl, hr1, rfl⟩ := Spec.read_u32_inv hr
      obtain ⟨m, _, _, rfl, hr2, rfl⟩ := Spec.read_u16_inv hr1
      obtain ⟨p3, _, rfl, hp3, hr3⟩ := Spec.read_pad_inv hr2
      obtain ⟨rfl, rfl⟩ := Spec.read_nil_inv hr3
      exact ⟨.output p m, trivial, rfl, Loose.num16 h1 (Loose.num16 (by rw [hlen]; simp [hp3]) (Loose.u32 (Loose.u16 (Loose.skip hp3 Loose.nil))))⟩
    · obtain ⟨p1, _, rfl, hp1, hr1⟩ := Spec.read_pad_inv hr
      obtain ⟨rfl, rfl⟩ := Spec.read_nil_inv hr1
      exact ⟨.copyTTLOut, trivial, rfl, Loose.num16 h1 (Loose.num16 (by rw [hlen]; simp [hp1]) (Loose.skip hp1 Loose.nil))⟩
    · obtain ⟨p1, _, rfl, hp1, hr1⟩ := Spec.read_pad_inv hr
      obtain ⟨rfl, rfl⟩ := Spec.read_nil_inv hr1
      exact ⟨.copyTTLIn, trivial, rfl, Loose.num16 h1 (Loose.num16 (by rw [hlen]; simp [hp1]) (Loose.skip hp1 Loose.nil))⟩
    · obtain ⟨x, _, _, rfl, hr1, rfl⟩ := Spec.read_u8_inv hr
      obtain ⟨p2, _, rfl, hp2, hr2⟩ := Spec.read_pad_inv hr1
      obtain ⟨rfl, rfl⟩ := Spec.read_nil_inv hr2
      exact ⟨.setMPLSTTL x, trivial, rfl, Loose.num16 h1 (Loose.num16 (by rw [hlen]; simp [hp2]) (Loose.u8 (Loose.skip hp2 Loose.nil)))⟩
    · obtain ⟨p1, _, rfl, hp1, hr1⟩ := Spec.read_pad_inv hr
      obtain ⟨rfl, rfl⟩ := Spec.read_nil_inv hr1
      exact ⟨.decMPLSTTL, trivial, rfl, Loose.num16 h1 (Loose.num16 (by rw [hlen]; simp [hp1]) (Loose.skip hp1 Loose.nil))⟩
    · obtain ⟨x, _, _, rfl, hr1, rfl⟩ := Spec.read_u16_inv hr
      obtain ⟨p2, _, rfl, hp2, hr2⟩ := Spec.read_pad_inv hr1
      obtain ⟨rfl, rfl⟩ := Spec.read_nil_inv hr2
      exact ⟨.pushVLAN x, trivial, rfl, Loose.num16 h1 (Loose.num16 (by rw [hlen]; simp [hp2]) (Loose.u16 (Loose.skip hp2 Loose.nil)))⟩
    · obtain ⟨p1, _, rfl, hp1, hr1⟩ := Spec.read_pad_inv hr
      obtain ⟨rfl, rfl⟩ := Spec.read_nil_inv hr1
      exact ⟨.popVLAN, trivial, rfl, Loose.num16 h1 (Loose.num16 (by rw [hlen]; simp [hp1]) (Loose.skip hp1 Loose.nil))⟩
    · obtain ⟨x, _, _, rfl, hr1, rfl⟩ := Spec.read_u16_inv hr
      obtain ⟨p2, _, rfl, hp2, hr2⟩ := Spec.read_pad_inv hr1
      obtain ⟨rfl, rfl⟩ := Spec.read_nil_inv hr2
      exact ⟨.pushMPLS x, trivial, rfl, Loose.num16 h1 (Loose.num16 (by rw [hlen]; simp [hp2]) (Loose.u16 (Loose.skip hp2 Loose.nil)))⟩
    · obtain ⟨x, _, _, rfl, hr1, rfl⟩ := Spec.read_u16_inv hr
      obtain ⟨p2, _, rfl, hp2, hr2⟩ := Spec.read_pad_inv hr1
      obtain ⟨rfl, rfl⟩ := Spec.read_nil_inv hr2
      exact ⟨.popMPLS x, trivial, rfl, Loose.num16 h1 (Loose.num16 (by rw [hlen]; simp [hp2]) (Loose.u16 (Loose.skip hp2 Loose.nil)))⟩
    · obtain ⟨x, _, _, rfl, hr1, rfl⟩ := Spec.read_u32_inv hr
      obtain ⟨rfl, rfl⟩ := Spec.read_nil_inv hr1
      exact ⟨.setQueue x, trivial, rfl, Loose.num16 h1 (Loose.num16 (by rw [hlen]; simp []) (Loose.u32 Loose.nil))⟩
    · obtain ⟨x, _, _, rfl, hr1, rfl⟩ := Spec.read_u32_inv hr
      obtain ⟨rfl, rfl⟩ := Spec.read_nil_inv hr1
      exact ⟨.group x, trivial, rfl, Loose.num16 h1 (Loose.num16 (by rw [hlen]; simp []) (Loose.u32 Loose.nil))⟩
    · obtain ⟨x, _, _, rfl, hr1, rfl⟩ := Spec.read_u8_inv hr
      obtain ⟨p2, _, rfl, hp2, hr2⟩ := Spec.read_pad_inv hr1
      obtain ⟨rfl, rfl⟩ := Spec.read_nil_inv hr2
      exact ⟨.setNwTTL x, trivial, rfl, Loose.num16 h1 (Loose.num16 (by rw [hlen]; simp [hp2]) (Loose.u8 (Loose.skip hp2 Loose.nil)))⟩
    · obtain ⟨p1, _, rfl, hp1, hr1⟩ := Spec.read_pad_inv hr
      obtain ⟨rfl, rfl⟩ := Spec.read_nil_inv hr1
      exact ⟨.decNwTTL, trivial, rfl, Loose.num16 h1 (Loose.num16 (by rw [hlen]; simp [hp1]) (Loose.skip hp1 Loose.nil))⟩
    · obtain ⟨x, _, _, rfl, hr1, rfl⟩ := Spec.read_u16_inv hr
      obtain ⟨p2, _, rfl, hp2, hr2⟩ := Spec.read_pad_inv hr1
      obtain ⟨rfl, rfl⟩ := Spec.read_nil_inv hr2
      exact ⟨.pushPBB x, trivial, rfl, Loose.num16 h1 (Loose.num16 (by rw [hlen]; simp [hp2]) (Loose.u16 (Loose.skip hp2 Loose.nil)))⟩
    · exact absurd rfl hk.1
    · obtain ⟨x, _, _, rfl, hr1, rfl⟩ := Spec.read_u32_inv hr
      obtain ⟨rfl, rfl⟩ := Spec.read_nil_inv hr1
      exact ⟨.experimenter x, trivial, rfl, Loose.num16 h1 (Loose.num16 (by rw [hlen]; simp []) (Loose.u32 Loose.nil))⟩


theorem actions_inv {b : Bytes} {vs : List Spec.Action} (h : Spec.actions b = some vs) (hk : ∀ v ∈ vs, v.Known) :
    ∃ xs : List Action, (∀ x ∈ xs, x.Valid) ∧ xs.map Action.said = vs ∧ Loose b (xs.flatMap Props.ActionWire) :=
  Spec.list_inv (fun _ _ h hk _ => action_inv h hk) h hk

theorem actions_length {xs : List Action} (hv : ∀ x ∈ xs, x.Valid) {b : Bytes}
    (h : Loose b (xs.flatMap Props.ActionWire)) :
    (xs.flatMap (fun a => a.writeTo.out)).length = b.length ∧ (xs.map Action.size).sum = b.length := by
  have h1 : Layout (xs.flatMap (fun a => a.writeTo.out)) (xs.flatMap Props.ActionWire) :=
    Layout.flatMap xs fun x hx => Props.action_layout x (hv x hx)
  have h2 := Actions.bytes_length xs
  rw [h1.length, h.length]
  exact ⟨rfl, by rw [← h2]; exact h1.length⟩

/-! ## Instructions -/

/-- The instructions that the library can be told. -/
def Spec.Instruction.Known (i : Spec.Instruction) : Prop := ∀ a ∈ i.actions, a.Known

theorem instruction_inv {b : Bytes} {v : Spec.Instruction} (h : Spec.instruction b = some v) (hk : v.Known) :
    ∃ x : Instruction, x.Valid ∧ x.said = v ∧ Loose b (Props.InstructionPacket x) := by
  have hne : b ≠ [] := by
    rintro rfl
    rw [show Spec.instruction [] = none by decide +kernel] at h; simp at h
  unfold Spec.instruction at h
  split at h
  · simp at h
  rename_i hl
  have hl2 : Spec.u16 2 b = b.length := by omega
  have hl8 : b.length % 8 = 0 := by omega
  have hb4 : 4 ≤ b.length := by
    have := List.length_pos_iff.2 hne
    omega
  obtain ⟨ty, l, b', rfl, u0, u2, ud⟩ := Spec.head_inv hb4
  rw [u2] at hl2
  rw [u0, ud] at h
  have hlen : l.toNat = 4 + b'.length := by rw [hl2]; simp; omega
  have hlt := l.toNat_lt
  split at h
  · rename_i name hn
    split at h
    · rename_i h8
      simp only [Option.bind_eq_bind, Option.bind_eq_some_iff, Option.pure_def, Option.some.injEq] at h
      obtain ⟨vs, hvs, rfl⟩ := h
      obtain ⟨xs, x1, x2, x3⟩ := actions_inv hvs hk
      obtain ⟨y1, y2⟩ := actions_length x1 x3
      have hd : (be ty ++ (be l ++ b')).drop 8 = b'.drop 4 := by
        have := congrArg (List.drop 4) ud
        rwa [List.drop_drop] at this
      rw [hd] at x3 y1 y2
      have hb : b' = b'.take 4 ++ b'.drop 4 := by simp
      have h4 : (b'.take 4).length = 4 := by simp; omega
      have hl' : l.toNat = 8 + (xs.flatMap (fun a => a.writeTo.out)).length := by rw [y1]; simp; omega
      have hs : 8 + (xs.map Action.size).sum ≤ 65535 := by rw [y2]; simp; omega
      have hmem := lookup_mem hn
      simp only [Spec.instructionLists, List.mem_cons, Prod.mk.injEq, List.not_mem_nil, or_false] at hmem
      rcases hmem with ⟨h1, rfl⟩ | ⟨h1, rfl⟩
      · refine ⟨.writeActions xs, ⟨x1, hs⟩, by simp [Instruction.said, x2], ?_⟩
        rw [hb]
        exact Loose.num16 h1 (Loose.num16 hl' (Loose.skip h4 x3))
      · refine ⟨.applyActions xs, ⟨x1, hs⟩, by simp [Instruction.said, x2], ?_⟩
        rw [hb]
        exact Loose.num16 h1 (Loose.num16 hl' (Loose.skip h4 x3))
    · simp at h
  · simp only [Option.bind_eq_bind, Option.bind_eq_some_iff, Option.pure_def, Option.some.injEq, Prod.exists] at h
    obtain ⟨name, ms, hms, r, hr, rfl⟩ := h
    have hr := Spec.struct_read hr
    have hmem := lookup_mem hms
    clear hms
    simp only [Spec.instructionStructs, List.mem_cons, Prod.mk.injEq, List.not_mem_nil, or_false] at hmem
    rcases hmem with h | h | h | h <;>
      obtain ⟨h1, rfl, rfl⟩ := h
    · obtain ⟨x, _, _, rfl, hr1, rfl⟩ := Spec.read_u8_inv hr
      obtain ⟨p, _, rfl, hp, hr2⟩ := Spec.read_pad_inv hr1
      obtain ⟨rfl, rfl⟩ := Spec.read_nil_inv hr2
      exact ⟨.gotoTable x, trivial, rfl, Loose.num16 h1 (Loose.num16 (by rw [hlen]; simp [hp])
        (Loose.u8 (Loose.skip hp Loose.nil)))⟩
    · obtain ⟨p, _, rfl, hp, hr1⟩ := Spec.read_pad_inv hr
      obtain ⟨x, _, _, rfl, hr2, rfl⟩ := Spec.read_u64_inv hr1
      obtain ⟨y, _, _, rfl, hr3, rfl⟩ := Spec.read_u64_inv hr2
      obtain ⟨rfl, rfl⟩ := Spec.read_nil_inv hr3
      exact ⟨.writeMetadata x y, trivial, rfl, Loose.num16 h1 (Loose.num16 (by rw [hlen]; simp [hp])
        (Loose.skip hp (Loose.u64 (Loose.u64 Loose.nil))))⟩
    · obtain ⟨p, _, rfl, hp, hr1⟩ := Spec.read_pad_inv hr
      obtain ⟨rfl, rfl⟩ := Spec.read_nil_inv hr1
      exact ⟨.clearActions, trivial, rfl, Loose.num16 h1 (Loose.num16 (by rw [hlen]; simp [hp])
        (Loose.skip hp Loose.nil))⟩
    · obtain ⟨x, _, _, rfl, hr1, rfl⟩ := Spec.read_u32_inv hr
      obtain ⟨rfl, rfl⟩ := Spec.read_nil_inv hr1
      exact ⟨.meter x, trivial, rfl, Loose.num16 h1 (Loose.num16 (by rw [hlen]; simp)
        (Loose.u32 Loose.nil))⟩

theorem instructions_inv {b : Bytes} {vs : List Spec.Instruction} (h : Spec.instructions b = some vs)
    (hk : ∀ v ∈ vs, v.Known) : ∃ xs : List Instruction, (∀ x ∈ xs, x.Valid) ∧ xs.map Instruction.said = vs ∧
      Loose b (xs.flatMap Props.InstructionPacket) :=
  Spec.list_inv (fun _ _ h hk _ => instruction_inv h hk) h hk

end Verif
