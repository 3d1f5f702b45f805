import Verif.Encoding

/-!
# Decoders on arbitrary (also malformed) input

`Safe E st`: on every reader and every receiver the step terminates without exhausting the
model's fuel, takes from the reader at least as many bytes as it reports and never more
than there are, and any error it reports satisfies `E`.
-/

namespace Verif

variable {σ τ : Type}

structure SafeAt (E : Err → Prop) (r : Rd) (o : Out σ) : Prop where
  adv : ∃ m, o.n ≤ m ∧ Rd.Adv m r o.rd
  ok : o.rd.Ok .eof
  err : ∀ e, o.err = some e → E e

def Safe (E : Err → Prop) (st : Step σ) : Prop := ∀ s r, r.Ok .eof → SafeAt E r (st s r)

/-- The two errors of a short read. -/
def ShortErr (e : Err) : Prop := e = .eof ∨ e = .unexpectedEOF

/-- Errors of decoders that look up type codes. -/
def DecErr (e : Err) : Prop := e = .eof ∨ e = .unexpectedEOF ∨ e = .unknownType

/-- Errors of decoders that contain an action list (see `ActionPopPBB`). -/
def ActErr (e : Err) : Prop := e = .eof ∨ e = .unexpectedEOF ∨ e = .unknownType ∨ e = .panic

theorem ShortErr.dec {e : Err} (h : ShortErr e) : DecErr e := by
  rcases h with h | h <;> simp [DecErr, h]

theorem DecErr.act {e : Err} (h : DecErr e) : ActErr e := by
  rcases h with h | h | h <;> simp [ActErr, h]

theorem ShortErr.act {e : Err} (h : ShortErr e) : ActErr e := h.dec.act

theorem Safe.mono {E E' : Err → Prop} {st : Step σ} (h : Safe E st) (hE : ∀ e, E e → E' e) :
    Safe E' st := fun s r hr =>
  let h := h s r hr
  ⟨h.adv, h.ok, fun e he => hE e (h.err e he)⟩

/-- Every successful run reports at least one byte. -/
def Moves (st : Step σ) : Prop := ∀ s r, r.Ok .eof → (st s r).err = none → 0 < (st s r).n

/-- A fixed-size record of `k` bytes: with at least `k` bytes available the step succeeds
and consumes exactly `k`; with fewer it fails with `io.EOF` or `io.ErrUnexpectedEOF`
after consuming (and reporting) all of them. -/
def Flat (st : Step σ) (k : Nat) : Prop :=
  ∀ s r, r.Ok .eof → (st s r).rd.Ok .eof ∧ Rd.Adv (st s r).n r (st s r).rd ∧
    (k ≤ r.content.length → (st s r).err = none ∧ (st s r).n = k) ∧
    (r.content.length < k → (∃ e, (st s r).err = some e ∧ ShortErr e) ∧
      (st s r).n = r.content.length)

/-- Sets of errors that contain the errors of a short read. -/
class ErrSet (E : Err → Prop) : Prop where
  short : ∀ e, ShortErr e → E e

instance : ErrSet ShortErr := ⟨fun _ h => h⟩
instance : ErrSet DecErr := ⟨fun _ h => h.dec⟩
instance : ErrSet ActErr := ⟨fun _ h => h.act⟩

theorem Flat.safe {E : Err → Prop} [ErrSet E] {st : Step σ} {k : Nat} (h : Flat st k) :
    Safe E st := by
  refine Safe.mono (E := ShortErr) ?_ ErrSet.short
  intro s r hr
  obtain ⟨h1, h2, h3, h4⟩ := h s r hr
  refine ⟨⟨_, Nat.le_refl _, h2⟩, h1, ?_⟩
  intro e he
  by_cases hk : k ≤ r.content.length
  · rw [(h3 hk).1] at he; cases he
  · obtain ⟨⟨e', he', hs⟩, _⟩ := h4 (by omega)
    rw [he'] at he; cases he; exact hs

theorem Flat.moves {st : Step σ} {k : Nat} (h : Flat st k) (hk : 0 < k) : Moves st := by
  intro s r hr he
  obtain ⟨h1, h2, h3, h4⟩ := h s r hr
  by_cases hk' : k ≤ r.content.length
  · rw [(h3 hk').2]; exact hk
  · obtain ⟨⟨e', he', _⟩, _⟩ := h4 (by omega)
    rw [he'] at he; cases he

theorem Flat.bin {k : Nat} {set : Bytes → σ → σ} : Flat (Enc.bin k set) k := by
  intro s r hr
  rcases readFull_spec .eof k r hr with ⟨hk, r', h1, h2, h3⟩ | ⟨hk, r', h1, h2, h3⟩
  · have hl : (List.take k r.content).length = k := by simp; omega
    simp only [Enc.bin, h1, hl]
    exact ⟨h3, h2, fun _ => by simp, fun h => by omega⟩
  · simp only [Enc.bin, h1]
    refine ⟨h3, h2, fun h => by omega, fun _ => ⟨⟨_, rfl, ?_⟩, by trivial⟩⟩
    unfold shortErr ShortErr
    split <;> simp

theorem Flat.num {α : Type} [Wire α] {set : α → σ → σ} : Flat (Enc.num set) (Wire.size α) :=
  Flat.bin

theorem Flat.skip {k : Nat} : Flat (Enc.skip (σ := σ) k) k := Flat.bin

theorem Flat.pair32 {set : UInt32 × UInt32 → σ → σ} : Flat (Enc.pair32 set) 8 := Flat.bin
theorem Flat.quad32 {set : UInt32 × UInt32 × UInt32 × UInt32 → σ → σ} : Flat (Enc.quad32 set) 16 :=
  Flat.bin

theorem Flat.nil : Flat (Enc.readFrom (σ := σ) []) 0 := by
  intro s r hr
  simp only [Enc.readFrom]
  exact ⟨hr, Rd.Adv.refl r, by simp, by simp⟩

theorem Flat.cons {st : Step σ} {t : List (Step σ)} {a b : Nat} (h1 : Flat st a)
    (h2 : Flat (Enc.readFrom t) b) : Flat (Enc.readFrom (st :: t)) (a + b) := by
  intro s r hr
  obtain ⟨o1, a1, ok1, sh1⟩ := h1 s r hr
  have hlen := a1.content
  by_cases ha : a ≤ r.content.length
  · obtain ⟨he, hn⟩ := ok1 ha
    rcases hst : st s r with ⟨v, n, e, r1⟩
    rw [hst] at he hn o1 a1 hlen
    simp only at he hn o1 a1 hlen
    subst he; subst hn
    have hl : r1.content.length = r.content.length - n := by rw [hlen.2]; simp
    obtain ⟨o2, a2, ok2, sh2⟩ := h2 v r1 o1
    simp only [Enc.readFrom, hst]
    refine ⟨o2, a1.trans a2, ?_, ?_⟩
    · intro hk
      obtain ⟨h3, h4⟩ := ok2 (by omega)
      exact ⟨h3, by omega⟩
    · intro hk
      obtain ⟨h3, h4⟩ := sh2 (by omega)
      exact ⟨h3, by omega⟩
  · obtain ⟨⟨e', he, hs⟩, hn⟩ := sh1 (by omega)
    rcases hst : st s r with ⟨v, n, e, r1⟩
    rw [hst] at he hn o1 a1 hlen
    simp only at he hn o1 a1 hlen
    subst he
    simp only [Enc.readFrom, hst]
    exact ⟨o1, a1, fun h => by omega, fun _ => ⟨⟨_, rfl, hs⟩, hn⟩⟩

theorem Flat.sub {get : σ → τ} {set : τ → σ → σ} {st : Step τ} {k : Nat} (h : Flat st k) :
    Flat (Enc.sub get set st) k := fun s r hr => h (get s) r hr

theorem Flat.withLocal {l : Type} {init : l} {st : Step (σ × l)} {k : Nat} (h : Flat st k) :
    Flat (Enc.withLocal init st) k := fun s r hr => h (s, init) r hr

theorem Flat.assign {f : σ → σ} : Flat (Enc.assign f) 0 := by
  intro s r hr
  exact ⟨hr, Rd.Adv.refl r, by simp [Enc.assign], by simp⟩

/-- A step that begins with a fixed-size header of `k` bytes reports a short header. -/
theorem Flat.prefix_err {l t : List (Step σ)} {k : Nat} (h : Flat (Enc.readFrom l) k) (s : σ)
    (r : Rd) (hr : r.Ok .eof) (hc : r.content.length < k) :
    (Enc.readFrom (l ++ t) s r).err = some .eof ∨
      (Enc.readFrom (l ++ t) s r).err = some .unexpectedEOF := by
  obtain ⟨⟨e, he, hs⟩, _⟩ := (h s r hr).2.2.2 hc
  have : ∀ (l : List (Step σ)) (s : σ) (r : Rd) (e : Err), (Enc.readFrom l s r).err = some e →
      (Enc.readFrom (l ++ t) s r).err = some e := by
    intro l
    induction l with
    | nil => intro s r e h; simp [Enc.readFrom] at h
    | cons st l ih =>
      intro s r e h
      rcases hst : st s r with ⟨v, n, ee, r1⟩
      cases ee with
      | some ee => simpa [Enc.readFrom, hst] using h
      | none =>
        simp only [Enc.readFrom, hst, List.cons_append] at h ⊢
        exact ih v r1 e h
  rw [this l s r e he]
  rcases hs with hs | hs <;> simp [hs]

/-! ### Where a fixed-size record may be cut -/

/-- The offsets, before the end, at which a field of a record starts. -/
def cuts : List Nat → List Nat
  | [] => []
  | k :: ks => (if k = 0 then [] else [0]) ++ (cuts ks).map (k + ·)

theorem cuts_append (a b : List Nat) : cuts (a ++ b) = cuts a ++ (cuts b).map (a.sum + ·) := by
  induction a with
  | nil => simp [cuts]
  | cons k a ih => simp [cuts, ih, Nat.add_assoc, Function.comp_def]

theorem cuts_lt {l : List Nat} : ∀ {x : Nat}, x ∈ cuts l → x < l.sum := by
  induction l with
  | nil => simp [cuts]
  | cons k l ih =>
    intro x hx
    simp only [cuts, List.mem_append, List.mem_map] at hx
    simp only [List.sum_cons]
    rcases hx with hx | ⟨y, hy, hx⟩
    · split at hx
      · simp at hx
      · simp at hx; omega
    · have := ih hy; omega

/-- A fixed-size record of fields of the given sizes: cut at the start of a field the
decoder reports `io.EOF`, cut inside a field `io.ErrUnexpectedEOF`. -/
def Fields (st : Step σ) (ks : List Nat) : Prop :=
  Flat st ks.sum ∧ ∀ s r, r.Ok .eof → r.content.length < ks.sum →
    ((st s r).err = some .eof ↔ r.content.length ∈ cuts ks)

theorem Fields.bin {k : Nat} {set : Bytes → σ → σ} : Fields (Enc.bin k set) [k] := by
  refine ⟨by simpa using Flat.bin, ?_⟩
  intro s r hr hk
  have hk : r.content.length < k := by simpa using hk
  obtain ⟨_, r', h1, h2, h3⟩ := (readFull_spec .eof k r hr).resolve_left (by omega)
  simp only [Enc.bin, h1, cuts]
  unfold shortErr
  have hk0 : k ≠ 0 := by omega
  split <;> simp_all

theorem Fields.assign {f : σ → σ} : Fields (Enc.assign f) [] :=
  ⟨Flat.assign, fun s r _ h => by simp at h⟩

theorem Fields.withLocal {l : Type} {init : l} {st : Step (σ × l)} {ks : List Nat}
    (h : Fields st ks) : Fields (Enc.withLocal init st) ks :=
  ⟨Flat.withLocal h.1, fun s r hr => h.2 (s, init) r hr⟩

theorem Fields.always {f : σ → σ} {st : Step σ} {ks : List Nat} (h : Fields st ks) :
    Fields (Enc.always f st) ks := ⟨fun s r hr => h.1 s r hr, fun s r hr => h.2 s r hr⟩

theorem Fields.sub {get : σ → τ} {set : τ → σ → σ} {st : Step τ} {ks : List Nat}
    (h : Fields st ks) : Fields (Enc.sub get set st) ks :=
  ⟨Flat.sub h.1, fun s r hr => h.2 (get s) r hr⟩

theorem Fields.num {α : Type} [Wire α] {set : α → σ → σ} : Fields (Enc.num set) [Wire.size α] :=
  Fields.bin

theorem Fields.skip {k : Nat} : Fields (Enc.skip (σ := σ) k) [k] := Fields.bin

theorem Fields.nil : Fields (Enc.readFrom (σ := σ) []) [] :=
  ⟨Flat.nil, fun s r _ h => by simp at h⟩

theorem Fields.cons {st : Step σ} {t : List (Step σ)} {a b : List Nat} (h1 : Fields st a)
    (h2 : Fields (Enc.readFrom t) b) : Fields (Enc.readFrom (st :: t)) (a ++ b) := by
  refine ⟨by rw [List.sum_append]; exact Flat.cons h1.1 h2.1, ?_⟩
  intro s r hr hk
  rw [List.sum_append] at hk
  rw [cuts_append, List.mem_append, List.mem_map]
  obtain ⟨o1, a1, ok1, sh1⟩ := h1.1 s r hr
  have hlen := a1.content
  by_cases ha : a.sum ≤ r.content.length
  · obtain ⟨he, hn⟩ := ok1 ha
    rcases hst : st s r with ⟨v, n, e, r1⟩
    rw [hst] at he hn o1 a1 hlen
    simp only at he hn o1 a1 hlen
    subst he; subst hn
    have hl : r1.content.length = r.content.length - a.sum := by rw [hlen.2]; simp
    simp only [Enc.readFrom, hst]
    rw [h2.2 v r1 o1 (by omega), hl]
    constructor
    · intro h; exact .inr ⟨_, h, by omega⟩
    · rintro (h | ⟨x, h, hx⟩)
      · have := cuts_lt h; omega
      · rwa [show r.content.length - a.sum = x by omega]
  · have := h1.2 s r hr (by omega)
    rcases hst : st s r with ⟨v, n, e, r1⟩
    obtain ⟨⟨e', he, hs⟩, hn⟩ := sh1 (by omega)
    rw [hst] at he this
    simp only at he this
    subst he
    simp only [Enc.readFrom, hst, this]
    constructor
    · exact .inl
    · rintro (h | ⟨x, _, hx⟩)
      · exact h
      · omega

/-! ### Safe -/

theorem Flat.always {f : σ → σ} {st : Step σ} {k : Nat} (h : Flat st k) :
    Flat (Enc.always f st) k := fun s r hr => h s r hr

theorem Safe.always {E : Err → Prop} {f : σ → σ} {st : Step σ} (h : Safe E st) :
    Safe E (Enc.always f st) := fun s r hr => let h := h s r hr; ⟨h.adv, h.ok, h.err⟩

theorem Safe.ignoreErr {E E' : Err → Prop} {st : Step σ} (h : Safe E' st) :
    Safe E (Enc.ignoreErr st) := fun s r hr =>
  let h := h s r hr; ⟨h.adv, h.ok, by simp [Enc.ignoreErr]⟩

theorem Safe.nil {E : Err → Prop} : Safe E (Enc.readFrom (σ := σ) []) := fun _ r hr =>
  ⟨⟨0, Nat.le_refl _, Rd.Adv.refl r⟩, hr, by simp [Enc.readFrom]⟩

theorem Safe.cons {E : Err → Prop} {st : Step σ} {t : List (Step σ)} (h1 : Safe E st)
    (h2 : Safe E (Enc.readFrom t)) : Safe E (Enc.readFrom (st :: t)) := by
  intro s r hr
  obtain ⟨⟨m1, hm1, a1⟩, o1, e1⟩ := h1 s r hr
  rcases hst : st s r with ⟨v, n, e, r1⟩
  rw [hst] at hm1 a1 o1 e1
  simp only at hm1 a1 o1 e1
  cases e with
  | some e =>
    simp only [Enc.readFrom, hst]
    exact ⟨⟨m1, hm1, a1⟩, o1, fun e' he => e1 e' he⟩
  | none =>
    obtain ⟨⟨m2, hm2, a2⟩, o2, e2⟩ := h2 v r1 o1
    simp only [Enc.readFrom, hst]
    exact ⟨⟨m1 + m2, by simp only; omega, a1.trans a2⟩, o2, e2⟩

theorem Safe.sub {E : Err → Prop} {get : σ → τ} {set : τ → σ → σ} {st : Step τ} (h : Safe E st) :
    Safe E (Enc.sub get set st) := fun s r hr =>
  let h := h (get s) r hr
  ⟨h.adv, h.ok, h.err⟩

theorem Safe.subVal {E : Err → Prop} {get : σ → τ} {st : Step τ} (h : Safe E st) :
    Safe E (Enc.subVal get st) := fun s r hr =>
  let h := h (get s) r hr
  ⟨h.adv, h.ok, h.err⟩

theorem Safe.andThen {E : Err → Prop} {st : Step σ} {f : Nat → Step σ} (h1 : Safe E st)
    (h2 : ∀ n, Safe E (f n)) : Safe E (Enc.andThen st f) := by
  intro s r hr
  obtain ⟨⟨m1, hm1, a1⟩, o1, e1⟩ := h1 s r hr
  rcases hst : st s r with ⟨v, n, e, r1⟩
  rw [hst] at hm1 a1 o1 e1
  simp only at hm1 a1 o1 e1
  cases e with
  | some e =>
    simp only [Enc.andThen, hst]
    exact ⟨⟨m1, hm1, a1⟩, o1, fun e' he => e1 e' he⟩
  | none =>
    obtain ⟨⟨m2, hm2, a2⟩, o2, e2⟩ := h2 n v r1 o1
    simp only [Enc.andThen, hst]
    exact ⟨⟨m1 + m2, by simp only; omega, a1.trans a2⟩, o2, e2⟩

theorem Safe.dyn {E : Err → Prop} {f : σ → Step σ} (h : ∀ s, Safe E (f s)) :
    Safe E (Enc.dyn f) := fun s r hr => h s s r hr

theorem Safe.withLocal {E : Err → Prop} {l : Type} {init : l} {st : Step (σ × l)} (h : Safe E st) :
    Safe E (Enc.withLocal init st) := fun s r hr =>
  let h := h (s, init) r hr
  ⟨h.adv, h.ok, h.err⟩

theorem Safe.assign {E : Err → Prop} {f : σ → σ} : Safe E (Enc.assign f) := fun _ r hr =>
  ⟨⟨0, Nat.le_refl _, Rd.Adv.refl r⟩, hr, by simp [Enc.assign]⟩

theorem Safe.limited {E : Err → Prop} {n : Nat} {st : Step σ} (h : Safe E st) :
    Safe E (Enc.limited n st) := by
  intro s r hr
  obtain ⟨⟨m, hm, a⟩, o, e⟩ := h s (.lim n r) ⟨rfl, hr⟩
  exact ⟨⟨m, hm, a.unlimit⟩, o.unlimit a, e⟩

theorem Safe.rest {E : Err → Prop} {set : Bytes → σ → σ} : Safe E (Enc.rest set) := by
  intro s r hr
  obtain ⟨r', h1, h2, h3⟩ := readAll_spec .eof r hr
  refine ⟨⟨r.content.length, ?_, ?_⟩, ?_, ?_⟩
  · simp [Enc.rest, h1]
  · simpa [Enc.rest, h1] using h2
  · simpa [Enc.rest, h1] using h3
  · simp [Enc.rest, h1, skipEOF]

theorem Safe.rest0 {E : Err → Prop} {set : Bytes → σ → σ} : Safe E (Enc.rest0 set) := by
  intro s r hr
  obtain ⟨r', h1, h2, h3⟩ := readAll_spec .eof r hr
  refine ⟨⟨r.content.length, ?_, ?_⟩, ?_, ?_⟩
  · simp [Enc.rest0, h1, skipEOF]
  · simpa [Enc.rest0, h1, skipEOF] using h2
  · simpa [Enc.rest0, h1, skipEOF] using h3
  · simp [Enc.rest0, h1, skipEOF]

/-- The dynamic type of the receiver decides which decoder runs. -/
theorem SafeAt.wrap {E : Err → Prop} {f : τ → σ} {st : Step τ} {t : τ} {r : Rd} (h : Safe E st)
    (hr : r.Ok .eof) : SafeAt E r (Enc.wrap f st t r) :=
  let h := h t r hr
  ⟨h.adv, h.ok, h.err⟩

/-! ### Moves -/

theorem Moves.cons {st : Step σ} {t : List (Step σ)} (h1 : Moves st) :
    Moves (Enc.readFrom (st :: t)) := by
  intro s r hr he
  have h := h1 s r hr
  rcases hst : st s r with ⟨v, n, e, r1⟩
  rw [hst] at h
  cases e with
  | some e => simp [Enc.readFrom, hst] at he
  | none =>
    have := h rfl
    simp only [Enc.readFrom, hst] at *
    omega

theorem Moves.andThen {st : Step σ} {f : Nat → Step σ} (h1 : Moves st) :
    Moves (Enc.andThen st f) := by
  intro s r hr he
  have h := h1 s r hr
  rcases hst : st s r with ⟨v, n, e, r1⟩
  rw [hst] at h
  cases e with
  | some e => simp [Enc.andThen, hst] at he
  | none =>
    have := h rfl
    simp only [Enc.andThen, hst] at *
    omega

theorem Moves.tail {E : Err → Prop} {st : Step σ} {t : List (Step σ)} (hs : Safe E st)
    (h1 : Moves (Enc.readFrom t)) : Moves (Enc.readFrom (st :: t)) := by
  intro s r hr he
  have ho := (hs s r hr).ok
  rcases hst : st s r with ⟨v, n, e, r1⟩
  rw [hst] at ho
  cases e with
  | some e => simp [Enc.readFrom, hst] at he
  | none =>
    simp only [Enc.readFrom, hst] at *
    have := h1 v r1 ho he
    omega

theorem Moves.sub {get : σ → τ} {set : τ → σ → σ} {st : Step τ} (h : Moves st) :
    Moves (Enc.sub get set st) := fun s r hr => h (get s) r hr

theorem Moves.withLocal {l : Type} {init : l} {st : Step (σ × l)} (h : Moves st) :
    Moves (Enc.withLocal init st) := fun s r hr => h (s, init) r hr

theorem Moves.wrap {f : τ → σ} {st : Step τ} {t : τ} {r : Rd} (h : Moves st)
    (hr : r.Ok .eof) (he : (Enc.wrap f st t r).err = none) : 0 < (Enc.wrap f st t r).n := h t r hr he

theorem Moves.subVal {get : σ → τ} {st : Step τ} (h : Moves st) :
    Moves (Enc.subVal get st) := fun s r hr => h (get s) r hr

/-! ### Loops -/

theorem skipEOF_some {e e' : Err} (h : skipEOF e = some e') : e' = e := by
  cases e <;> simp [skipEOF] at h <;> exact h.symm

theorem readFuncLoop_safe {E : Err → Prop} {zero : τ} {st : Step τ} (hs : Safe E st)
    (hm : Moves st) : ∀ (fuel : Nat) (acc : List τ) (n : Nat) (r0 r : Rd) (k : Nat),
      r.Ok .eof → n ≤ k → Rd.Adv k r0 r → r.content.length < fuel →
      SafeAt E r0 (Enc.readFuncLoop zero st fuel acc n r) := by
  intro fuel
  induction fuel with
  | zero => intro acc n r0 r k hr hn ha hf; omega
  | succ fuel ih =>
    intro acc n r0 r k hr hn ha hf
    obtain ⟨⟨m1, hm1, a1⟩, o1, e1⟩ := hs zero r hr
    have hmv := hm zero r hr
    rcases hst : st zero r with ⟨v, n1, e, r1⟩
    rw [hst] at hm1 a1 o1 e1 hmv
    simp only at hm1 a1 o1 e1 hmv
    cases e with
    | some e =>
      simp only [Enc.readFuncLoop, hst]
      refine ⟨⟨k + m1, by simp only; omega, ha.trans a1⟩, o1, ?_⟩
      intro e' he'
      exact e1 e' (by rw [skipEOF_some he'])
    | none =>
      simp only [Enc.readFuncLoop, hst]
      have hl : r1.content.length = r.content.length - m1 := by rw [a1.content.2]; simp
      have := a1.content.1
      exact ih _ _ r0 r1 (k + m1) o1 (by omega) (ha.trans a1) (by have := hmv rfl; omega)

theorem readFunc_safe {E : Err → Prop} {zero : τ} {st : Step τ} (hs : Safe E st)
    (hm : Moves st) (r : Rd) (hr : r.Ok .eof) : SafeAt E r (Enc.readFunc zero st r) :=
  readFuncLoop_safe hs hm _ _ _ r r 0 hr (Nat.le_refl _) (Rd.Adv.refl r) (by omega)

theorem Safe.readSliceFrom {E : Err → Prop} {zero : τ} {st : Step τ} (hs : Safe E st)
    (hm : Moves st) : Safe E (Enc.readSliceFrom zero st) := fun _ r hr =>
  let h := readFunc_safe (zero := zero) hs hm r hr
  ⟨h.adv, h.ok, h.err⟩

theorem scanLoop_safe {E : Err → Prop} {mk : UInt16 → Except Err τ} {st : Step τ}
    (hs : Safe E st) (hm : Moves st) (hmk : ∀ c e, mk c = .error e → E e) :
    ∀ (fuel : Nat) (acc : List τ) (n : Nat) (r0 : Rd) (b : Bytes) (e : Option Err) (q : Rd) (k : Nat),
      (Rd.buf b e q).Ok .eof → n ≤ k → Rd.Adv k r0 (.buf b e q) →
      (Rd.buf b e q).content.length < fuel →
      SafeAt E r0 (Enc.scanLoop mk st fuel acc n (.buf b e q)) := by
  intro fuel
  induction fuel with
  | zero => intro acc n r0 b e q k hr hn ha hf; omega
  | succ fuel ih =>
    intro acc n r0 b e q k hr hn ha hf
    obtain ⟨b', e', q', h1, h2, h3 | h3⟩ := peek2_spec .eof b e q hr
    · cases hmkc : mk (ofBE UInt16 ((Rd.buf b e q).content.take 2)) with
      | error e0 =>
        simp only [Enc.scanLoop, h3.2, hmkc]
        exact ⟨⟨k, hn, by simpa using ha.trans h1⟩, h2, fun e1 he1 => by cases he1; exact hmk _ _ hmkc⟩
      | ok z =>
        obtain ⟨⟨m1, hm1, a1⟩, o1, e1⟩ := hs z (.buf b' e' q') h2
        have hmv := hm z (.buf b' e' q') h2
        rcases hst : st z (.buf b' e' q') with ⟨v, n1, ee, r1⟩
        rw [hst] at hm1 a1 o1 e1 hmv
        simp only at hm1 a1 o1 e1 hmv
        have ha1 : Rd.Adv (k + m1) r0 r1 := by simpa using (ha.trans h1).trans a1
        cases ee with
        | some ee =>
          simp only [Enc.scanLoop, h3.2, hmkc, hst]
          refine ⟨⟨k + m1, by simp only; omega, ha1⟩, o1, ?_⟩
          intro e' he'
          exact e1 e' (by rw [skipEOF_some he'])
        | none =>
          simp only [Enc.scanLoop, h3.2, hmkc, hst]
          obtain ⟨b2, e2, q2, hb2⟩ := a1.isBuf
          subst hb2
          have hl1 : (Rd.buf b' e' q').content = (Rd.buf b e q).content := by
            rw [h1.content.2]; simp
          have hl : (Rd.buf b2 e2 q2).content.length = (Rd.buf b' e' q').content.length - m1 := by
            rw [a1.content.2]; simp
          have := a1.content.1
          rw [hl1] at hl this
          exact ih _ _ r0 b2 e2 q2 (k + m1) o1 (by omega) ha1 (by have := hmv rfl; omega)
    · simp only [Enc.scanLoop, h3.2]
      refine ⟨⟨k, hn, by simpa using ha.trans h1⟩, h2, ?_⟩
      intro e1 he1
      simp [skipEOF] at he1

theorem unwrapBuf_adv {k : Nat} {r r' : Rd} (h : Rd.Adv k r.wrapBuf r') :
    ∃ m, k ≤ m ∧ Rd.Adv m r (r.unwrapBuf r') := by
  have aux : ∀ (q : Rd), Rd.Adv k (.buf [] none q) r' →
      ∃ b' e' r0' j, r' = .buf b' e' r0' ∧ k ≤ j ∧ Rd.Adv j q r0' := by
    intro q h
    have hc := h.content
    obtain ⟨b', e', r0', hb⟩ := h.isBuf
    subst hb
    simp only [Rd.Adv] at h
    obtain ⟨h1, h2, j, h3⟩ := h
    have hj := h3.content
    refine ⟨b', e', r0', j, rfl, ?_, h3⟩
    have l1 := congrArg List.length h2
    have l2 := congrArg List.length hj.2
    simp [Rd.content] at l1 l2 hc
    omega
  cases r with
  | buf b e r0 =>
    obtain ⟨b', e', r1, hr'⟩ := Rd.Adv.isBuf h
    subst hr'; exact ⟨k, Nat.le_refl _, h⟩
  | src d s f t =>
    obtain ⟨b', e', r0', j, h1, hj, h2⟩ := aux (.src d s f t) h
    subst h1; exact ⟨j, hj, h2⟩
  | lim n r =>
    obtain ⟨b', e', r0', j, h1, hj, h2⟩ := aux (.lim n r) h
    subst h1; exact ⟨j, hj, h2⟩

theorem Safe.scanFrom {E : Err → Prop} {mk : UInt16 → Except Err τ} {st : Step τ}
    (hs : Safe E st) (hm : Moves st) (hmk : ∀ c e, mk c = .error e → E e) :
    Safe E (Enc.scanFrom mk st) := by
  intro s r hr
  obtain ⟨b, e, q, hw⟩ := Rd.wrapBuf_isBuf r
  have hcw := Rd.content_wrapBuf r
  have how := hr.wrapBuf
  rw [hw] at hcw how
  obtain ⟨⟨m, hm1, a1⟩, o1, e1⟩ := scanLoop_safe hs hm hmk (r.content.length + 1) s 0 (.buf b e q) b e q 0
    how (Nat.le_refl _) (Rd.Adv.refl _) (by rw [hcw]; omega)
  rw [← hw] at a1 hm1 o1 e1
  obtain ⟨m', hm', a2⟩ := unwrapBuf_adv a1
  exact ⟨⟨m', by simp only [Enc.scanFrom]; omega, a2⟩, o1.unwrapBuf, e1⟩

/-- Proves `Safe` of a combination of steps; facts about the named decoders are taken from
the context. -/
macro "safe" : tactic => `(tactic|
  with_reducible repeat' first
    | assumption
    | exact Safe.nil
    | exact Safe.assign
    | exact Safe.rest
    | exact Safe.rest0
    | exact Flat.num.safe
    | exact Flat.skip.safe
    | exact Flat.bin.safe
    | apply Safe.cons
    | apply Safe.withLocal
    | apply Safe.sub
    | apply Safe.subVal
    | apply Safe.always
    | apply Safe.limited
    | (refine Safe.andThen ?_ (fun _ => ?_))
    | (apply Safe.dyn; intro _))

/-- Proves `Flat` of a list of fixed-size fields. -/
macro "flat" : tactic => `(tactic|
  with_reducible repeat' first
    | assumption
    | exact Flat.nil
    | exact Flat.num
    | exact Flat.skip
    | exact Flat.bin
    | exact Flat.pair32
    | exact Flat.quad32
    | apply Flat.cons
    | apply Flat.sub
    | apply Flat.withLocal)

/-- Proves `Moves` from the first field. -/
macro "moves" : tactic => `(tactic|
  with_reducible repeat' first
    | assumption
    | exact Flat.moves Flat.num (by with_unfolding_all decide)
    | exact Flat.moves Flat.skip (by with_unfolding_all decide)
    | apply Moves.cons
    | apply Moves.andThen
    | apply Moves.withLocal
    | apply Moves.sub
    | apply Moves.subVal)

/-! ### What a step leaves alone -/

/-- The step never changes what `f` sees of the receiver, on any input, also on errors. -/
def Keeps {α : Type} (f : σ → α) (st : Step σ) : Prop := ∀ s r, f (st s r).val = f s

section
variable {α : Type} {f : σ → α}

theorem Keeps.nil : Keeps f (Enc.readFrom []) := fun _ _ => rfl

theorem Keeps.cons {st : Step σ} {t : List (Step σ)} (h1 : Keeps f st)
    (h2 : Keeps f (Enc.readFrom t)) : Keeps f (Enc.readFrom (st :: t)) := by
  intro s r
  have h := h1 s r
  rcases hst : st s r with ⟨v, n, e, r1⟩
  rw [hst] at h
  cases e with
  | some e => simpa [Enc.readFrom, hst] using h
  | none =>
    have h' := h2 v r1
    simp only [Enc.readFrom, hst]
    exact h'.trans h

theorem Keeps.bin {k : Nat} {set : Bytes → σ → σ} (h : ∀ b s, f (set b s) = f s) :
    Keeps f (Enc.bin k set) := by
  intro s r
  simp only [Enc.bin]
  split <;> simp [h]

theorem Keeps.num {β : Type} [Wire β] {set : β → σ → σ} (h : ∀ b s, f (set b s) = f s) :
    Keeps f (Enc.num set) := Keeps.bin fun _ s => h _ s

theorem Keeps.skip {k : Nat} : Keeps f (Enc.skip k) := Keeps.bin fun _ _ => rfl

theorem Keeps.subVal {get : σ → τ} {st : Step τ} : Keeps f (Enc.subVal get st) := fun _ _ => rfl

theorem Keeps.dyn {g : σ → Step σ} (h : ∀ s, Keeps f (g s)) : Keeps f (Enc.dyn g) :=
  fun s r => h s s r

theorem Keeps.limited {n : Nat} {st : Step σ} (h : Keeps f st) : Keeps f (Enc.limited n st) :=
  fun s _ => h s _

theorem Keeps.ignoreErr {st : Step σ} (h : Keeps f st) : Keeps f (Enc.ignoreErr st) :=
  fun s r => h s r

theorem Keeps.withLocal {l : Type} {init : l} {st : Step (σ × l)}
    (h : Keeps (fun s => f s.1) st) : Keeps f (Enc.withLocal init st) := fun s r => h (s, init) r

theorem Keeps.sub {get : σ → τ} {set : τ → σ → σ} {st : Step τ}
    (h : ∀ s r, f (set (st (get s) r).val s) = f s) : Keeps f (Enc.sub get set st) :=
  fun s r => h s r

end

end Verif
