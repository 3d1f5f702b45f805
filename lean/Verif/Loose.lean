import Verif.Relay

/-!
# Packets with arbitrary reserved bytes: vocabulary and proof support for property C61
-/

namespace Verif

/-- `b` is the given sequence of fields, except that the reserved bytes may be anything. -/
def Loose (b : Bytes) : List Fld → Prop
  | [] => b = []
  | .num k v :: t => k ≤ b.length ∧ getBE (b.take k) = v ∧ Loose (b.drop k) t
  | .pad k :: t => k ≤ b.length ∧ Loose (b.drop k) t
  | .raw s :: t => s.length ≤ b.length ∧ b.take s.length = s ∧ Loose (b.drop s.length) t

instance Loose.dec : (b : Bytes) → (fs : List Fld) → Decidable (Loose b fs)
  | _, [] => by unfold Loose; infer_instance
  | b, .num k v :: t => have := Loose.dec (b.drop k) t; by unfold Loose; infer_instance
  | b, .pad k :: t => have := Loose.dec (b.drop k) t; by unfold Loose; infer_instance
  | b, .raw s :: t => have := Loose.dec (b.drop s.length) t; by unfold Loose; infer_instance

/-- What becomes of a field when the reserved bytes are cleared. -/
def Fld.part : Fld → Part
  | .num k _ => .keep k
  | .pad k => .clear k
  | .raw s => .keep s.length

/-- Whatever stands in the reserved bytes of the packet `fs`, it is decoded as `x`, and the
encoding of `x` is the packet with the reserved bytes set to zero. -/
def Tolerates {σ : Type} (enc : σ → Wr) (dec : Step σ) (fs : List Fld) (x : σ) : Prop :=
  ∀ b, Loose b fs → Decodes dec b x ∧ Encodes (enc x) ∧ (enc x).out = canon (fs.map Fld.part) b

/-- As `Tolerates`, for packets that extend to the end of the input. -/
def ToleratesAll {σ : Type} (enc : σ → Wr) (dec : Step σ) (fs : List Fld) (x : σ) : Prop :=
  ∀ b, Loose b fs → DecodesAll dec b x ∧ Encodes (enc x) ∧ (enc x).out = canon (fs.map Fld.part) b

/-! ### Proof support -/

def Fld.width : Fld → Nat
  | .num k _ => k
  | .pad k => k
  | .raw s => s.length

def width (fs : List Fld) : Nat := (fs.map Fld.width).sum

@[simp] theorem width_nil : width [] = 0 := rfl
@[simp] theorem width_cons (f : Fld) (fs : List Fld) : width (f :: fs) = f.width + width fs := by
  simp [width]
@[simp] theorem width_append (f g : List Fld) : width (f ++ g) = width f + width g := by
  simp [width]
theorem width_flatMap {α : Type} (w : α → List Fld) (xs : List α) :
    width (xs.flatMap w) = (xs.map (fun x => width (w x))).sum := by
  induction xs with
  | nil => rfl
  | cons x xs ih => simp [ih]

theorem Layout.loose {fs : List Fld} : ∀ {b : Bytes}, Layout b fs → Loose b fs := by
  induction fs with
  | nil => intro b h; exact h
  | cons f fs ih =>
    intro b h
    cases f with
    | num k v => exact ⟨h.1, h.2.1, ih h.2.2⟩
    | pad k => exact ⟨h.1, ih h.2.2⟩
    | raw s => exact ⟨h.1, h.2.1, ih h.2.2⟩

theorem Loose.length {fs : List Fld} : ∀ {b : Bytes}, Loose b fs → b.length = width fs := by
  induction fs with
  | nil => intro b h; simp [show b = [] from h]
  | cons f fs ih =>
    intro b h
    cases f with
    | num k v => have := ih h.2.2; have := h.1; simp [Fld.width] at *; omega
    | pad k => have := ih h.2; have := h.1; simp [Fld.width] at *; omega
    | raw s => have := ih h.2.2; have := h.1; simp [Fld.width] at *; omega

theorem Layout.length {b : Bytes} {fs : List Fld} (h : Layout b fs) : b.length = width fs :=
  h.loose.length

/-- The packet is determined by its fields, and is any loose packet with the reserved bytes
cleared. -/
theorem Layout.canon {fs : List Fld} : ∀ {b c : Bytes}, Layout c fs → Loose b fs →
    c = Verif.canon (fs.map Fld.part) b := by
  induction fs with
  | nil => intro b c h _; exact h
  | cons f fs ih =>
    intro b c hc hb
    cases f with
    | num k v =>
      obtain ⟨c1, c2, c3⟩ := hc
      obtain ⟨b1, b2, b3⟩ := hb
      have : c.take k = b.take k := by
        rw [← putBE_getBE (c.take k), ← putBE_getBE (b.take k), c2, b2]
        simp [Nat.min_eq_left c1, Nat.min_eq_left b1]
      simp only [List.map_cons, Fld.part, Verif.canon, ← ih c3 b3, ← this, List.take_append_drop]
    | pad k =>
      simp only [List.map_cons, Fld.part, Verif.canon, ← ih hc.2.2 hb.2, ← hc.2.1,
        List.take_append_drop]
    | raw s =>
      simp only [List.map_cons, Fld.part, Verif.canon, ← ih hc.2.2 hb.2.2, hb.2.1]
      exact ((congrArg (· ++ _) hc.2.1.symm).trans (List.take_append_drop _ _)).symm

theorem Loose.split {g : List Fld} : ∀ {f : List Fld} {b : Bytes}, Loose b (f ++ g) →
    ∃ b1 b2, b = b1 ++ b2 ∧ Loose b1 f ∧ Loose b2 g := by
  intro f
  induction f with
  | nil => intro b h; exact ⟨[], b, rfl, rfl, h⟩
  | cons x f ih =>
    intro b h
    cases x with
    | num k v =>
      obtain ⟨h1, h2, h3⟩ := h
      obtain ⟨b1, b2, e, l1, l2⟩ := ih h3
      refine ⟨b.take k ++ b1, b2, ?_, ?_, l2⟩
      · rw [List.append_assoc, ← e]; simp
      · refine ⟨by simp; omega, ?_, ?_⟩
        · rw [List.take_append_of_le_length (by simp; omega), List.take_take]; simpa using h2
        · rw [List.drop_append_of_le_length (by simp; omega)]; simpa using l1
    | pad k =>
      obtain ⟨h1, h3⟩ := h
      obtain ⟨b1, b2, e, l1, l2⟩ := ih h3
      refine ⟨b.take k ++ b1, b2, ?_, ?_, l2⟩
      · rw [List.append_assoc, ← e]; simp
      · refine ⟨by simp; omega, ?_⟩
        rw [List.drop_append_of_le_length (by simp; omega)]; simpa using l1
    | raw s =>
      obtain ⟨h1, h2, h3⟩ := h
      obtain ⟨b1, b2, e, l1, l2⟩ := ih h3
      refine ⟨s ++ b1, b2, ?_, ?_, l2⟩
      · rw [List.append_assoc, ← e]
        exact ((congrArg (· ++ _) h2.symm).trans (List.take_append_drop _ _)).symm
      · refine ⟨by simp, by simp, by simpa using l1⟩

theorem Layout.append {c2 : Bytes} {g : List Fld} (h2 : Layout c2 g) : ∀ {f : List Fld} {c1 : Bytes},
    Layout c1 f → Layout (c1 ++ c2) (f ++ g) := by
  intro f
  induction f with
  | nil => intro c1 h; rw [show c1 = [] from h]; exact h2
  | cons x f ih =>
    intro c1 h
    cases x with
    | num k v =>
      refine ⟨by have := h.1; simp; omega, ?_, ?_⟩
      · rw [List.take_append_of_le_length h.1]; exact h.2.1
      · rw [List.drop_append_of_le_length h.1]; exact ih h.2.2
    | pad k =>
      refine ⟨by have := h.1; simp; omega, ?_, ?_⟩
      · rw [List.take_append_of_le_length h.1]; exact h.2.1
      · rw [List.drop_append_of_le_length h.1]; exact ih h.2.2
    | raw s =>
      refine ⟨by have := h.1; simp; omega, ?_, ?_⟩
      · rw [List.take_append_of_le_length h.1]; exact h.2.1
      · rw [List.drop_append_of_le_length h.1]; exact ih h.2.2

theorem Layout.flatMap {α : Type} {w : α → List Fld} {enc : α → Bytes} (xs : List α)
    (h : ∀ x ∈ xs, Layout (enc x) (w x)) : Layout (xs.flatMap enc) (xs.flatMap w) := by
  induction xs with
  | nil => exact rfl
  | cons x xs ih => exact (ih (fun y hy => h y (by simp [hy]))).append (h x (by simp))

/-- A field of raw bytes may be described in more detail. -/
theorem Layout.refine {s : Bytes} {g : List Fld} (hs : Layout s g) {t : List Fld} :
    ∀ {f : List Fld} {c : Bytes}, Layout c (f ++ .raw s :: t) → Layout c (f ++ (g ++ t)) := by
  intro f
  induction f with
  | nil =>
    intro c h
    obtain ⟨h1, h2, h3⟩ := h
    have := h3.append hs
    have e : s ++ c.drop s.length = c :=
      (congrArg (· ++ _) h2.symm).trans (List.take_append_drop _ _)
    rw [e] at this
    exact this
  | cons x f ih =>
    intro c h
    cases x with
    | num k v => exact ⟨h.1, h.2.1, ih h.2.2⟩
    | pad k => exact ⟨h.1, h.2.1, ih h.2.2⟩
    | raw s => exact ⟨h.1, h.2.1, ih h.2.2⟩

theorem Loose.flatMap {α : Type} {w : α → List Fld} (xs : List α) : ∀ {b : Bytes},
    Loose b (xs.flatMap w) → ∃ ys : List (α × Bytes), ys.map Prod.fst = xs ∧
      b = ys.flatMap Prod.snd ∧ ∀ y ∈ ys, y.1 ∈ xs ∧ Loose y.2 (w y.1) := by
  induction xs with
  | nil => intro b h; exact ⟨[], rfl, h, by simp⟩
  | cons x xs ih =>
    intro b h
    obtain ⟨b1, b2, e, l1, l2⟩ := Loose.split (f := w x) (g := xs.flatMap w) (by simpa using h)
    obtain ⟨ys, e1, e2, e3⟩ := ih l2
    refine ⟨(x, b1) :: ys, by simp [e1], by simp [e, e2], ?_⟩
    intro y hy
    rcases List.mem_cons.mp hy with rfl | hy
    · exact ⟨by simp, l1⟩
    · exact ⟨by simp [(e3 y hy).1], (e3 y hy).2⟩

/-- As `Reads`, for all byte strings that match the packet up to reserved bytes. -/
def LReads {σ : Type} (st : Step σ) (s : σ) (fs : List Fld) (s' : σ) : Prop :=
  ∀ b, Loose b fs → Reads st s b s'

def LReadsAll {σ : Type} (st : Step σ) (s : σ) (fs : List Fld) (s' : σ) : Prop :=
  ∀ b, Loose b fs → ReadsAll st s b s'

section
variable {σ τ : Type}

theorem LReads.tolerates {enc : σ → Wr} {dec : Step σ} {fs : List Fld} {x : σ}
    (h : ∀ s, LReads dec s fs x) (he : Encodes (enc x)) (hl : Layout (enc x).out fs) :
    Tolerates enc dec fs x := fun b hb =>
  ⟨Reads.decodes (fun s => h s b hb), he, hl.canon hb⟩

theorem LReadsAll.tolerates {enc : σ → Wr} {dec : Step σ} {fs : List Fld} {x : σ}
    (h : ∀ s, LReadsAll dec s fs x) (he : Encodes (enc x)) (hl : Layout (enc x).out fs) :
    ToleratesAll enc dec fs x := fun b hb =>
  ⟨ReadsAll.decodes (fun s => h s b hb), he, hl.canon hb⟩

theorem LReads.all {st : Step σ} {s s' : σ} {fs : List Fld} (h : LReads st s fs s') :
    LReadsAll st s fs s' := fun b hb => (h b hb).all

theorem LReads.nil {s : σ} : LReads (Enc.readFrom []) s [] s := fun b hb => by
  rw [show b = [] from hb]; exact Reads.nil

theorem LReads.app {st : Step σ} {t : List (Step σ)} {s s1 s2 : σ} {f g : List Fld}
    (h1 : LReads st s f s1) (h2 : LReads (Enc.readFrom t) s1 g s2) :
    LReads (Enc.readFrom (st :: t)) s (f ++ g) s2 := fun b hb => by
  obtain ⟨b1, b2, e, l1, l2⟩ := hb.split
  rw [e]; exact Reads.cons (h1 b1 l1) (h2 b2 l2)

theorem LReadsAll.app {st : Step σ} {t : List (Step σ)} {s s1 s2 : σ} {f g : List Fld}
    (h1 : LReads st s f s1) (h2 : LReadsAll (Enc.readFrom t) s1 g s2) :
    LReadsAll (Enc.readFrom (st :: t)) s (f ++ g) s2 := fun b hb => by
  obtain ⟨b1, b2, e, l1, l2⟩ := hb.split
  rw [e]; exact ReadsAll.cons (h1 b1 l1) (h2 b2 l2)

theorem LReads.last {st : Step σ} {s s1 : σ} {f : List Fld} (h : LReads st s f s1) :
    LReads (Enc.readFrom [st]) s f s1 := fun b hb => Reads.last (h b hb)

theorem LReadsAll.last {st : Step σ} {s s1 : σ} {f : List Fld} (h : LReadsAll st s f s1) :
    LReadsAll (Enc.readFrom [st]) s f s1 := fun b hb => ReadsAll.last (h b hb)

theorem LReads.num {α : Type} [Wire α] {set : α → σ → σ} {s : σ} (x : α) :
    LReads (Enc.num set) s [.num (Wire.size α) (Wire.toNat x)] (set x s) := fun b hb => by
  obtain ⟨h1, h2, h3⟩ := hb
  have h4 : b.length = Wire.size α := by
    have := congrArg List.length (show b.drop _ = [] from h3); simp at this; omega
  have : b = be x := by
    rw [← putBE_getBE b, h4]
    rw [List.take_of_length_le (by omega)] at h2
    rw [h2]; rfl
  rw [this]; exact Reads.num x

theorem LReads.skip {k : Nat} {s : σ} {fs : List Fld} (h : width fs = k) :
    LReads (Enc.skip k) s fs s := fun _ hb => Reads.skip (by rw [hb.length, h])

theorem LReads.num8 {set : UInt8 → σ → σ} {t : List (Step σ)} {s s' : σ} {fs : List Fld} (x : UInt8)
    (h : LReads (Enc.readFrom t) (set x s) fs s') :
    LReads (Enc.readFrom (Enc.num set :: t)) s (.num 1 x.toNat :: fs) s' := LReads.app (LReads.num x) h
theorem LReads.num16 {set : UInt16 → σ → σ} {t : List (Step σ)} {s s' : σ} {fs : List Fld} (x : UInt16)
    (h : LReads (Enc.readFrom t) (set x s) fs s') :
    LReads (Enc.readFrom (Enc.num set :: t)) s (.num 2 x.toNat :: fs) s' := LReads.app (LReads.num x) h
theorem LReads.num32 {set : UInt32 → σ → σ} {t : List (Step σ)} {s s' : σ} {fs : List Fld} (x : UInt32)
    (h : LReads (Enc.readFrom t) (set x s) fs s') :
    LReads (Enc.readFrom (Enc.num set :: t)) s (.num 4 x.toNat :: fs) s' := LReads.app (LReads.num x) h
theorem LReads.num64 {set : UInt64 → σ → σ} {t : List (Step σ)} {s s' : σ} {fs : List Fld} (x : UInt64)
    (h : LReads (Enc.readFrom t) (set x s) fs s') :
    LReads (Enc.readFrom (Enc.num set :: t)) s (.num 8 x.toNat :: fs) s' := LReads.app (LReads.num x) h
theorem LReads.pad {k : Nat} {t : List (Step σ)} {s s' : σ} {fs : List Fld}
    (h : LReads (Enc.readFrom t) s fs s') :
    LReads (Enc.readFrom (Enc.skip k :: t)) s (.pad k :: fs) s' :=
  LReads.app (f := [_]) (LReads.skip (by simp [Fld.width])) h

theorem LReadsAll.num8 {set : UInt8 → σ → σ} {t : List (Step σ)} {s s' : σ} {fs : List Fld} (x : UInt8)
    (h : LReadsAll (Enc.readFrom t) (set x s) fs s') :
    LReadsAll (Enc.readFrom (Enc.num set :: t)) s (.num 1 x.toNat :: fs) s' := LReadsAll.app (LReads.num x) h
theorem LReadsAll.num16 {set : UInt16 → σ → σ} {t : List (Step σ)} {s s' : σ} {fs : List Fld} (x : UInt16)
    (h : LReadsAll (Enc.readFrom t) (set x s) fs s') :
    LReadsAll (Enc.readFrom (Enc.num set :: t)) s (.num 2 x.toNat :: fs) s' := LReadsAll.app (LReads.num x) h
theorem LReadsAll.num32 {set : UInt32 → σ → σ} {t : List (Step σ)} {s s' : σ} {fs : List Fld} (x : UInt32)
    (h : LReadsAll (Enc.readFrom t) (set x s) fs s') :
    LReadsAll (Enc.readFrom (Enc.num set :: t)) s (.num 4 x.toNat :: fs) s' := LReadsAll.app (LReads.num x) h
theorem LReadsAll.num64 {set : UInt64 → σ → σ} {t : List (Step σ)} {s s' : σ} {fs : List Fld} (x : UInt64)
    (h : LReadsAll (Enc.readFrom t) (set x s) fs s') :
    LReadsAll (Enc.readFrom (Enc.num set :: t)) s (.num 8 x.toNat :: fs) s' := LReadsAll.app (LReads.num x) h
theorem LReadsAll.pad {k : Nat} {t : List (Step σ)} {s s' : σ} {fs : List Fld}
    (h : LReadsAll (Enc.readFrom t) s fs s') :
    LReadsAll (Enc.readFrom (Enc.skip k :: t)) s (.pad k :: fs) s' :=
  LReadsAll.app (f := [_]) (LReads.skip (by simp [Fld.width])) h

theorem LReads.raw {st : Step σ} {s s' : σ} {b : Bytes} (h : Reads st s b s') :
    LReads st s [.raw b] s' := fun c hc => by
  obtain ⟨h1, h2, h3⟩ := hc
  have h4 : c.length = b.length := by
    have := congrArg List.length (show c.drop _ = [] from h3); simp at this; omega
  rw [List.take_of_length_le (by omega)] at h2
  rw [h2]; exact h

theorem LReadsAll.raw {st : Step σ} {s s' : σ} {b : Bytes} (h : ReadsAll st s b s') :
    LReadsAll st s [.raw b] s' := fun c hc => by
  obtain ⟨h1, h2, h3⟩ := hc
  have h4 : c.length = b.length := by
    have := congrArg List.length (show c.drop _ = [] from h3); simp at this; omega
  rw [List.take_of_length_le (by omega)] at h2
  rw [h2]; exact h

/-- Several fields read by a step that takes fixed bytes. -/
theorem LReads.exact {st : Step σ} {s s' : σ} {c : Bytes} {fs : List Fld} (hl : Layout c fs)
    (hp : ∀ f ∈ fs, ∀ k, f ≠ .pad k) (h : Reads st s c s') : LReads st s fs s' := fun b hb => by
  have := hl.canon hb
  have hc : ∀ (fs : List Fld) (b : Bytes), (∀ f ∈ fs, ∀ k, f ≠ .pad k) → Loose b fs →
      Verif.canon (fs.map Fld.part) b = b := by
    intro fs
    induction fs with
    | nil => intro b _ hb; exact hb.symm
    | cons f fs ih =>
      intro b hp hb
      cases f with
      | num k v =>
        simp only [List.map_cons, Fld.part, Verif.canon]
        rw [ih _ (fun f hf => hp f (by simp [hf])) hb.2.2, List.take_append_drop]
      | pad k => exact absurd rfl (hp _ (by simp) k)
      | raw s =>
        simp only [List.map_cons, Fld.part, Verif.canon]
        rw [ih _ (fun f hf => hp f (by simp [hf])) hb.2.2, List.take_append_drop]
  rw [hc fs b hp hb] at this
  rw [← this]; exact h

theorem LReads.sub {get : σ → τ} {set : τ → σ → σ} {st : Step τ} {s : σ} {x : τ} {fs : List Fld}
    (h : LReads st (get s) fs x) : LReads (Enc.sub get set st) s fs (set x s) := fun b hb =>
  Reads.sub (h b hb)

theorem LReadsAll.sub {get : σ → τ} {set : τ → σ → σ} {st : Step τ} {s : σ} {x : τ} {fs : List Fld}
    (h : LReadsAll st (get s) fs x) : LReadsAll (Enc.sub get set st) s fs (set x s) := fun b hb =>
  ReadsAll.sub (h b hb)

theorem LReads.subVal {get : σ → τ} {st : Step τ} {s : σ} {x : τ} {fs : List Fld}
    (h : LReads st (get s) fs x) : LReads (Enc.subVal get st) s fs s := fun b hb =>
  Reads.subVal (h b hb)

theorem LReadsAll.subVal {get : σ → τ} {st : Step τ} {s : σ} {x : τ} {fs : List Fld}
    (h : LReadsAll st (get s) fs x) : LReadsAll (Enc.subVal get st) s fs s := fun b hb =>
  ReadsAll.subVal (h b hb)

theorem LReads.dyn {f : σ → Step σ} {s s' : σ} {fs : List Fld} (h : LReads (f s) s fs s') :
    LReads (Enc.dyn f) s fs s' := fun b hb => Reads.dyn (h b hb)

theorem LReads.assignCons {f : σ → σ} {t : List (Step σ)} {s s' : σ} {fs : List Fld}
    (h : LReads (Enc.readFrom t) (f s) fs s') : LReads (Enc.readFrom (Enc.assign f :: t)) s fs s' :=
  fun b hb => Reads.assignCons (h b hb)

theorem LReadsAll.assignCons {f : σ → σ} {t : List (Step σ)} {s s' : σ} {fs : List Fld}
    (h : LReadsAll (Enc.readFrom t) (f s) fs s') :
    LReadsAll (Enc.readFrom (Enc.assign f :: t)) s fs s' :=
  fun b hb => ReadsAll.assignCons (h b hb)

theorem LReads.withLocal {l : Type} {init l' : l} {st : Step (σ × l)} {s s' : σ} {fs : List Fld}
    (h : LReads st (s, init) fs (s', l')) : LReads (Enc.withLocal init st) s fs s' :=
  fun b hb => Reads.withLocal (h b hb)

theorem LReadsAll.withLocal {l : Type} {init l' : l} {st : Step (σ × l)} {s s' : σ} {fs : List Fld}
    (h : LReadsAll st (s, init) fs (s', l')) : LReadsAll (Enc.withLocal init st) s fs s' :=
  fun b hb => ReadsAll.withLocal (h b hb)

theorem LReads.wrap {f : τ → σ} {st : Step τ} {dec : Step σ} {s : σ} {t t' : τ} {fs : List Fld}
    (h : LReads st t fs t') (he : ∀ r, dec s r = Enc.wrap f st t r) : LReads dec s fs (f t') :=
  fun b hb => Reads.wrap (h b hb) he

theorem LReads.limited {n : Nat} {st : Step σ} {s s' : σ} {fs : List Fld} (h : LReadsAll st s fs s')
    (hn : n = width fs) : LReads (Enc.limited n st) s fs s' :=
  fun b hb => Reads.limited (h b hb) (by rw [hn, hb.length])

theorem LReads.andThen {st : Step σ} {f : Nat → Step σ} {s s1 s2 : σ} {f1 f2 : List Fld}
    (h1 : LReads st s f1 s1) (h2 : LReads (f (width f1)) s1 f2 s2) :
    LReads (Enc.andThen st f) s (f1 ++ f2) s2 := fun b hb => by
  obtain ⟨b1, b2, e, l1, l2⟩ := hb.split
  rw [e]
  refine Reads.andThen (h1 b1 l1) ?_
  rw [l1.length]; exact h2 b2 l2

theorem LReadsAll.scanFrom {mk : UInt16 → Except Err τ} {st : Step τ} {w : τ → List Fld}
    {zero : τ → τ} {code : τ → UInt16} (s : List τ) (xs : List τ)
    (h : ∀ x ∈ xs, LReads st (zero x) (w x) x)
    (hmk : ∀ x ∈ xs, mk (code x) = .ok (zero x))
    (hcode : ∀ x ∈ xs, ∃ t, w x = .num 2 (code x).toNat :: t) :
    LReadsAll (Enc.scanFrom mk st) s (xs.flatMap w) (s ++ xs) := fun b hb => by
  obtain ⟨ys, e1, e2, e3⟩ := Loose.flatMap xs hb
  rw [e2, ← e1]
  refine ReadsAll.scanFrom' (enc := Prod.snd) (val := Prod.fst) (zero := fun y => zero y.1)
    (code := fun y => code y.1) s ys (fun y hy => h _ (e3 y hy).1 _ (e3 y hy).2)
    (fun y hy => hmk _ (e3 y hy).1) ?_
  intro y hy
  obtain ⟨t, ht⟩ := hcode _ (e3 y hy).1
  have hl := (e3 y hy).2
  rw [ht] at hl
  refine ⟨y.2.drop 2, ?_⟩
  have e : y.2.take 2 = be (code y.1) := by
    rw [← putBE_getBE (y.2.take 2), hl.2.1]
    simp only [List.length_take, Nat.min_eq_left hl.1]; rfl
  rw [← e, List.take_append_drop]

theorem LReadsAll.readSliceFrom {zero : τ} {st : Step τ} {w : τ → List Fld} {val : τ → τ}
    (s : List τ) (xs : List τ)
    (h : ∀ x ∈ xs, LReads st zero (w x) (val x)) (hpos : ∀ x ∈ xs, 0 < width (w x))
    (hend : EndsEmpty st zero) :
    LReadsAll (Enc.readSliceFrom zero st) s (xs.flatMap w) s := fun b hb => by
  obtain ⟨ys, e1, e2, e3⟩ := Loose.flatMap xs hb
  rw [e2]
  refine ReadsAll.readSliceFrom (enc := Prod.snd) (val := fun y : τ × Bytes => val y.1) s ys
    (fun y hy => h _ (e3 y hy).1 _ (e3 y hy).2) (fun y hy => ?_) hend
  rw [(e3 y hy).2.length]; exact hpos _ (e3 y hy).1

end

/-- Proves `LReads`/`LReadsAll` field by field. -/
macro "loose" : tactic => `(tactic|
  (repeat (with_reducible first
    | refine LReads.num8 _ ?_
    | refine LReads.num16 _ ?_
    | refine LReads.num32 _ ?_
    | refine LReads.num64 _ ?_
    | refine LReads.pad ?_
    | refine LReads.assignCons ?_
    | refine LReadsAll.num8 _ ?_
    | refine LReadsAll.num16 _ ?_
    | refine LReadsAll.num32 _ ?_
    | refine LReadsAll.num64 _ ?_
    | refine LReadsAll.pad ?_
    | refine LReadsAll.assignCons ?_)
   try exact LReads.nil))

end Verif
