import Verif.SafeOn

/-!
# Decoding the same bytes from different readers

A relational logic for decoders: one receiver, two readers with the same content (different
fragmentation, different nesting of `bufio.Reader` and `io.LimitedReader`).

* `Stable P st`, for the contents that satisfy `P`: the two runs report the same count and the same error and leave the same value;
  when they succeed they have taken the same number of bytes from their readers.
* `StableV st`: the same without the last part.  A list of typed elements reads ahead, and what
  it has read ahead is lost.
* `StableL st`: as `Stable`, for two readers that are limited to the same length.
* `EofEnd st`: the step reports `io.EOF` only when the reader has come to its end.
-/

namespace Verif

variable {σ τ : Type}

/-- The two runs cannot be told apart by their results. -/
structure SameResult (o p : Out σ) : Prop where
  n : o.n = p.n
  err : o.err = p.err
  val : o.val = p.val

/-- Nor, when they succeed, by what they have taken from their readers. -/
structure SameFrag (r q : Rd) (o p : Out σ) : Prop extends SameResult o p where
  next : o.err = none → o.rd.Ok .eof ∧ p.rd.Ok .eof ∧ ∃ m, Rd.Adv m r o.rd ∧ Rd.Adv m q p.rd

def Stable (P : Bytes → Prop) (st : Step σ) : Prop := ∀ s r q, r.Ok .eof → q.Ok .eof → r.content = q.content → P r.content →
  SameFrag r q (st s r) (st s q)

def StableV (P : Bytes → Prop) (st : Step σ) : Prop := ∀ s r q, r.Ok .eof → q.Ok .eof → r.content = q.content → P r.content →
  SameResult (st s r) (st s q)

def StableL (P : Bytes → Prop) (st : Step σ) : Prop := ∀ s k r q, r.Ok .eof → q.Ok .eof → r.content = q.content → P r.content →
  SameFrag (.lim k r) (.lim k q) (st s (.lim k r)) (st s (.lim k q))

def EofEnd (P : Bytes → Prop) (st : Step σ) : Prop := ∀ s r, r.Ok .eof → P r.content → (st s r).err = some .eof → (st s r).rd.content = []

def NoEof (st : Step σ) : Prop := ∀ s r, r.Ok .eof → (st s r).err ≠ some .eof

variable {P : Bytes → Prop}

/-- As `EofEnd`, for the elements a reader maker makes, each on bytes that begin with its code. -/
def EofMade (P : Bytes → Prop) (mk : UInt16 → Except Err τ) (st : Step τ) : Prop :=
  ∀ c z, mk c = .ok z → ∀ r, r.Ok .eof → P r.content → r.content.take 2 = be c →
    (st z r).err = some .eof → (st z r).rd.content = []

instance : Hereditary (fun _ => True) := ⟨fun _ _ _ => trivial, fun _ _ _ => trivial⟩

theorem EofEnd.made {P : Bytes → Prop} {mk : UInt16 → Except Err τ} {st : Step τ} (h : EofEnd P st) :
    EofMade P mk st := fun _ z _ r hr hP _ he => h z r hr hP he

theorem Stable.v {st : Step σ} (h : Stable P st) : StableV P st := fun s r q hr hq hc hP =>
  (h s r q hr hq hc hP).toSameResult

theorem Rd.content_lim {k : Nat} {r q : Rd} (h : r.content = q.content) :
    (Rd.lim k r).content = (Rd.lim k q).content := by simp only [Rd.content, h]

theorem Stable.l [Hereditary P] {st : Step σ} (h : Stable P st) : StableL P st := fun s k r q hr hq hc hP =>
  h s (.lim k r) (.lim k q) ⟨rfl, hr⟩ ⟨rfl, hq⟩ (Rd.content_lim hc) (Hereditary.take _ _ hP)

theorem NoEof.eofEnd {st : Step σ} (h : NoEof st) : EofEnd P st := fun s r hr _ he => absurd he (h s r hr)

/-! ### Stable -/

theorem Stable.nil : Stable P (Enc.readFrom (σ := σ) []) := fun _ r q hr hq _ _ =>
  ⟨⟨rfl, rfl, rfl⟩, fun _ => ⟨hr, hq, 0, Rd.Adv.refl r, Rd.Adv.refl q⟩⟩

theorem Stable.assign {f : σ → σ} : Stable P (Enc.assign f) := fun _ r q hr hq _ _ =>
  ⟨⟨rfl, rfl, rfl⟩, fun _ => ⟨hr, hq, 0, Rd.Adv.refl r, Rd.Adv.refl q⟩⟩

theorem Stable.bin {k : Nat} {set : Bytes → σ → σ} : Stable P (Enc.bin k set) := by
  intro s r q hr hq hc hP
  rcases readFull_spec .eof k r hr with ⟨hk, r', h1, h2, h3⟩ | ⟨hk, r', h1, h2, h3⟩
  · rcases readFull_spec .eof k q hq with ⟨hk', q', g1, g2, g3⟩ | ⟨hk', q', g1, g2, g3⟩
    · simp only [Enc.bin, h1, g1, hc]
      exact ⟨⟨rfl, rfl, rfl⟩, fun _ => ⟨h3, g3, k, h2, g2⟩⟩
    · rw [hc] at hk; omega
  · rcases readFull_spec .eof k q hq with ⟨hk', q', g1, g2, g3⟩ | ⟨hk', q', g1, g2, g3⟩
    · rw [hc] at hk; omega
    · simp only [Enc.bin, h1, g1, hc]
      exact ⟨⟨rfl, rfl, rfl⟩, fun h => by cases h⟩

theorem Stable.num {α : Type} [Wire α] {set : α → σ → σ} : Stable P (Enc.num set) := Stable.bin

theorem Stable.skip {k : Nat} : Stable P (Enc.skip (σ := σ) k) := Stable.bin

theorem Stable.pair32 {set : UInt32 × UInt32 → σ → σ} : Stable P (Enc.pair32 set) := Stable.bin

theorem Stable.quad32 {set : UInt32 × UInt32 × UInt32 × UInt32 → σ → σ} : Stable P (Enc.quad32 set) :=
  Stable.bin

theorem Stable.cons [Hereditary P] {st : Step σ} {t : List (Step σ)} (h1 : Stable P st)
    (h2 : Stable P (Enc.readFrom t)) : Stable P (Enc.readFrom (st :: t)) := by
  intro s r q hr hq hc hP
  obtain ⟨⟨hn, he, hv⟩, hx⟩ := h1 s r q hr hq hc hP
  rcases ho : st s r with ⟨v, n, e, r1⟩
  rcases hp : st s q with ⟨v', n', e', q1⟩
  rw [ho, hp] at hn he hv hx
  simp only at hn he hv hx
  subst hn he hv
  cases e with
  | some e => simp only [Enc.readFrom, ho, hp]; exact ⟨⟨rfl, rfl, rfl⟩, fun h => by cases h⟩
  | none =>
    obtain ⟨o1, o2, m, a1, a2⟩ := hx rfl
    obtain ⟨⟨gn, ge, gv⟩, gx⟩ := h2 v r1 q1 o1 o2 (by rw [a1.content.2, a2.content.2, hc])
      (by rw [a1.content.2]; exact Hereditary.drop _ _ hP)
    simp only [Enc.readFrom, ho, hp]
    refine ⟨⟨by rw [gn], ge, gv⟩, fun h => ?_⟩
    obtain ⟨o3, o4, m', a3, a4⟩ := gx h
    exact ⟨o3, o4, m + m', a1.trans a3, a2.trans a4⟩

theorem Stable.andThen [Hereditary P] {st : Step σ} {f : Nat → Step σ} (h1 : Stable P st)
    (h2 : ∀ n, Stable P (f n)) : Stable P (Enc.andThen st f) := by
  intro s r q hr hq hc hP
  obtain ⟨⟨hn, he, hv⟩, hx⟩ := h1 s r q hr hq hc hP
  rcases ho : st s r with ⟨v, n, e, r1⟩
  rcases hp : st s q with ⟨v', n', e', q1⟩
  rw [ho, hp] at hn he hv hx
  simp only at hn he hv hx
  subst hn he hv
  cases e with
  | some e => simp only [Enc.andThen, ho, hp]; exact ⟨⟨rfl, rfl, rfl⟩, fun h => by cases h⟩
  | none =>
    obtain ⟨o1, o2, m, a1, a2⟩ := hx rfl
    obtain ⟨⟨gn, ge, gv⟩, gx⟩ := h2 n v r1 q1 o1 o2 (by rw [a1.content.2, a2.content.2, hc])
      (by rw [a1.content.2]; exact Hereditary.drop _ _ hP)
    simp only [Enc.andThen, ho, hp]
    refine ⟨⟨by rw [gn], ge, gv⟩, fun h => ?_⟩
    obtain ⟨o3, o4, m', a3, a4⟩ := gx h
    exact ⟨o3, o4, m + m', a1.trans a3, a2.trans a4⟩

theorem Stable.sub {get : σ → τ} {set : τ → σ → σ} {st : Step τ} (h : Stable P st) :
    Stable P (Enc.sub get set st) := fun s r q hr hq hc hP =>
  let h := h (get s) r q hr hq hc hP
  ⟨⟨h.n, h.err, by simp only [Enc.sub, h.val]⟩, h.next⟩

theorem Stable.subVal {get : σ → τ} {st : Step τ} (h : Stable P st) : Stable P (Enc.subVal get st) :=
  fun s r q hr hq hc hP =>
  let h := h (get s) r q hr hq hc hP
  ⟨⟨h.n, h.err, rfl⟩, h.next⟩

theorem Stable.withLocal {l : Type} {init : l} {st : Step (σ × l)} (h : Stable P st) :
    Stable P (Enc.withLocal init st) := fun s r q hr hq hc hP =>
  let h := h (s, init) r q hr hq hc hP
  ⟨⟨h.n, h.err, by simp only [Enc.withLocal, h.val]⟩, h.next⟩

theorem Stable.always {f : σ → σ} {st : Step σ} (h : Stable P st) : Stable P (Enc.always f st) :=
  fun s r q hr hq hc hP =>
  let h := h s r q hr hq hc hP
  ⟨⟨h.n, h.err, by simp only [Enc.always, h.val]⟩, h.next⟩

theorem Stable.dyn {f : σ → Step σ} (h : ∀ s, Stable P (f s)) : Stable P (Enc.dyn f) :=
  fun s r q hr hq hc hP => h s s r q hr hq hc hP

/-- A fixed-size header whose error is lost. -/
theorem Stable.ignoreErr {st : Step σ} {k : Nat} (h : Stable P st) (hf : Flat st k) :
    Stable P (Enc.ignoreErr st) := by
  intro s r q hr hq hc hP
  obtain ⟨⟨hn, he, hv⟩, -⟩ := h s r q hr hq hc hP
  obtain ⟨o1, a1, -⟩ := hf s r hr
  obtain ⟨o2, a2, -⟩ := hf s q hq
  exact ⟨⟨hn, rfl, hv⟩, fun _ => ⟨o1, o2, _, a1, by rw [hn]; exact a2⟩⟩

theorem StableL.limited {k : Nat} {st : Step σ} (h : StableL P st) : Stable P (Enc.limited k st) := by
  intro s r q hr hq hc hP
  obtain ⟨⟨hn, he, hv⟩, hx⟩ := h s k r q hr hq hc hP
  refine ⟨⟨hn, he, hv⟩, fun h => ?_⟩
  obtain ⟨o1, o2, m, a1, a2⟩ := hx h
  exact ⟨o1.unlimit a1, o2.unlimit a2, m, a1.unlimit, a2.unlimit⟩

theorem StableL.sub {get : σ → τ} {set : τ → σ → σ} {st : Step τ} (h : StableL P st) :
    StableL P (Enc.sub get set st) := fun s k r q hr hq hc hP =>
  let h := h (get s) k r q hr hq hc hP
  ⟨⟨h.n, h.err, by simp only [Enc.sub, h.val]⟩, h.next⟩

theorem StableL.subVal {get : σ → τ} {st : Step τ} (h : StableL P st) : StableL P (Enc.subVal get st) :=
  fun s k r q hr hq hc hP =>
  let h := h (get s) k r q hr hq hc hP
  ⟨⟨h.n, h.err, rfl⟩, h.next⟩

theorem Stable.rest {set : Bytes → σ → σ} : Stable P (Enc.rest set) := by
  intro s r q hr hq hc hP
  obtain ⟨r', h1, h2, h3⟩ := readAll_spec .eof r hr
  obtain ⟨q', g1, g2, g3⟩ := readAll_spec .eof q hq
  simp only [Enc.rest, h1, g1, hc]
  exact ⟨⟨rfl, rfl, rfl⟩, fun _ => ⟨h3, g3, _, by rw [← hc]; exact h2, g2⟩⟩

theorem Stable.rest0 {set : Bytes → σ → σ} : Stable P (Enc.rest0 set) := by
  intro s r q hr hq hc hP
  obtain ⟨r', h1, h2, h3⟩ := readAll_spec .eof r hr
  obtain ⟨q', g1, g2, g3⟩ := readAll_spec .eof q hq
  simp only [Enc.rest0, h1, g1, hc, skipEOF]
  exact ⟨⟨rfl, rfl, rfl⟩, fun _ => ⟨h3, g3, _, by rw [← hc]; exact h2, g2⟩⟩

theorem SameFrag.wrap {f : τ → σ} {st : Step τ} {t : τ} {r q : Rd} (h : Stable P st) (hr : r.Ok .eof)
    (hq : q.Ok .eof) (hc : r.content = q.content) (hP : P r.content) : SameFrag r q (Enc.wrap f st t r) (Enc.wrap f st t q) :=
  let h := h t r q hr hq hc hP
  ⟨⟨h.n, h.err, by simp only [Enc.wrap, h.val]⟩, h.next⟩

/-! ### StableV -/

theorem StableV.cons [Hereditary P] {st : Step σ} {t : List (Step σ)} (h1 : Stable P st)
    (h2 : StableV P (Enc.readFrom t)) : StableV P (Enc.readFrom (st :: t)) := by
  intro s r q hr hq hc hP
  obtain ⟨⟨hn, he, hv⟩, hx⟩ := h1 s r q hr hq hc hP
  rcases ho : st s r with ⟨v, n, e, r1⟩
  rcases hp : st s q with ⟨v', n', e', q1⟩
  rw [ho, hp] at hn he hv hx
  simp only at hn he hv hx
  subst hn he hv
  cases e with
  | some e => simp only [Enc.readFrom, ho, hp]; exact ⟨rfl, rfl, rfl⟩
  | none =>
    obtain ⟨o1, o2, m, a1, a2⟩ := hx rfl
    obtain ⟨gn, ge, gv⟩ := h2 v r1 q1 o1 o2 (by rw [a1.content.2, a2.content.2, hc])
      (by rw [a1.content.2]; exact Hereditary.drop _ _ hP)
    simp only [Enc.readFrom, ho, hp]
    exact ⟨by rw [gn], ge, gv⟩

/-- The last step of a sequence. -/
theorem StableV.last {st : Step σ} (h : StableV P st) : StableV P (Enc.readFrom [st]) := by
  intro s r q hr hq hc hP
  obtain ⟨hn, he, hv⟩ := h s r q hr hq hc hP
  rcases ho : st s r with ⟨v, n, e, r1⟩
  rcases hp : st s q with ⟨v', n', e', q1⟩
  rw [ho, hp] at hn he hv
  simp only at hn he hv
  subst hn he hv
  cases e <;> simp only [Enc.readFrom, ho, hp] <;> exact ⟨rfl, rfl, rfl⟩

theorem StableV.sub {get : σ → τ} {set : τ → σ → σ} {st : Step τ} (h : StableV P st) :
    StableV P (Enc.sub get set st) := fun s r q hr hq hc hP =>
  let h := h (get s) r q hr hq hc hP
  ⟨h.n, h.err, by simp only [Enc.sub, h.val]⟩

theorem StableV.subVal {get : σ → τ} {st : Step τ} (h : StableV P st) : StableV P (Enc.subVal get st) :=
  fun s r q hr hq hc hP =>
  let h := h (get s) r q hr hq hc hP
  ⟨h.n, h.err, rfl⟩

theorem StableV.withLocal {l : Type} {init : l} {st : Step (σ × l)} (h : StableV P st) :
    StableV P (Enc.withLocal init st) := fun s r q hr hq hc hP =>
  let h := h (s, init) r q hr hq hc hP
  ⟨h.n, h.err, by simp only [Enc.withLocal, h.val]⟩

theorem StableV.dyn {f : σ → Step σ} (h : ∀ s, StableV P (f s)) : StableV P (Enc.dyn f) :=
  fun s r q hr hq hc hP => h s s r q hr hq hc hP

theorem StableV.limited [Hereditary P] {k : Nat} {st : Step σ} (h : StableV P st) : StableV P (Enc.limited k st) :=
  fun s r q hr hq hc hP =>
  let h := h s (.lim k r) (.lim k q) ⟨rfl, hr⟩ ⟨rfl, hq⟩ (Rd.content_lim hc) (Hereditary.take _ _ hP)
  ⟨h.n, h.err, h.val⟩

theorem SameResult.wrap {f : τ → σ} {st : Step τ} {t : τ} {r q : Rd} (h : StableV P st) (hr : r.Ok .eof)
    (hq : q.Ok .eof) (hc : r.content = q.content) (hP : P r.content) :
    SameResult (Enc.wrap f st t r) (Enc.wrap f st t q) :=
  let h := h t r q hr hq hc hP
  ⟨h.n, h.err, by simp only [Enc.wrap, h.val]⟩

/-! ### EofEnd -/

theorem EofEnd.bin {k : Nat} {set : Bytes → σ → σ} : EofEnd P (Enc.bin k set) := by
  intro s r hr _ he
  rcases readFull_spec .eof k r hr with ⟨hk, r', h1, h2, h3⟩ | ⟨hk, r', h1, h2, h3⟩
  · simp [Enc.bin, h1] at he
  · simp only [Enc.bin, h1]
    rw [h2.content.2]; simp

theorem EofEnd.num {α : Type} [Wire α] {set : α → σ → σ} : EofEnd P (Enc.num set) := EofEnd.bin

theorem EofEnd.skip {k : Nat} : EofEnd P (Enc.skip (σ := σ) k) := EofEnd.bin

theorem NoEof.nil : NoEof (Enc.readFrom (σ := σ) []) := by intro s r hr; simp [Enc.readFrom]

theorem NoEof.assign {f : σ → σ} : NoEof (Enc.assign f) := by intro s r hr; simp [Enc.assign]

theorem NoEof.rest {set : Bytes → σ → σ} : NoEof (Enc.rest set) := by
  intro s r hr
  obtain ⟨r', h1, h2, h3⟩ := readAll_spec .eof r hr
  simp [Enc.rest, h1, skipEOF]

theorem NoEof.sub {get : σ → τ} {set : τ → σ → σ} {st : Step τ} (h : NoEof st) :
    NoEof (Enc.sub get set st) := fun s r hr => h (get s) r hr

theorem NoEof.subVal {get : σ → τ} {st : Step τ} (h : NoEof st) :
    NoEof (Enc.subVal get st) := fun s r hr => h (get s) r hr

theorem NoEof.limited {k : Nat} {st : Step σ} (h : NoEof st) : NoEof (Enc.limited k st) :=
  fun s r hr => h s (.lim k r) ⟨rfl, hr⟩

theorem skipEOF_ne_eof {e : Err} : skipEOF e ≠ some .eof := by cases e <;> simp [skipEOF]

theorem readFuncLoop_noEof {zero : τ} {st : Step τ} : ∀ (fuel : Nat) (acc : List τ) (n : Nat) (r : Rd),
    (Enc.readFuncLoop zero st fuel acc n r).err ≠ some .eof := by
  intro fuel
  induction fuel with
  | zero => intro acc n r; simp [Enc.readFuncLoop]
  | succ fuel ih =>
    intro acc n r
    rcases hst : st zero r with ⟨v, k, e, r1⟩
    cases e with
    | some e => simp only [Enc.readFuncLoop, hst]; exact skipEOF_ne_eof
    | none => simp only [Enc.readFuncLoop, hst]; exact ih _ _ _

theorem NoEof.readSliceFrom {zero : τ} {st : Step τ} : NoEof (Enc.readSliceFrom zero st) :=
  fun _ _ _ => readFuncLoop_noEof _ _ _ _

theorem scanLoop_noEof {mk : UInt16 → Except Err τ} {st : Step τ} (hmk : ∀ c e, mk c = .error e → e ≠ .eof) :
    ∀ (fuel : Nat) (acc : List τ) (n : Nat) (r : Rd), (Enc.scanLoop mk st fuel acc n r).err ≠ some .eof := by
  intro fuel
  induction fuel with
  | zero => intro acc n r; simp [Enc.scanLoop]
  | succ fuel ih =>
    intro acc n r
    rcases hp : r.peek2 with ⟨b, e, r1⟩
    cases e with
    | some e => simp only [Enc.scanLoop, hp]; exact skipEOF_ne_eof
    | none =>
      rcases hm : mk (ofBE UInt16 b) with e | z
      · simp only [Enc.scanLoop, hp, hm]; simpa using hmk _ _ hm
      · rcases hst : st z r1 with ⟨v, k, e, r2⟩
        cases e with
        | some e => simp only [Enc.scanLoop, hp, hm, hst]; exact skipEOF_ne_eof
        | none => simp only [Enc.scanLoop, hp, hm, hst]; exact ih _ _ _

theorem NoEof.scanFrom {mk : UInt16 → Except Err τ} {st : Step τ} (hmk : ∀ c e, mk c = .error e → e ≠ .eof) :
    NoEof (Enc.scanFrom mk st) := fun _ _ _ => scanLoop_noEof hmk _ _ _ _

theorem EofEnd.cons [Hereditary P] {st : Step σ} {t : List (Step σ)} (hs : Stable P st) (h1 : EofEnd P st)
    (h2 : EofEnd P (Enc.readFrom t)) : EofEnd P (Enc.readFrom (st :: t)) := by
  intro s r hr hP he
  have h := h1 s r hr hP
  have hx := (hs s r r hr hr rfl hP).next
  rcases hst : st s r with ⟨v, n, e, r1⟩
  rw [hst] at h hx
  cases e with
  | some e =>
    simp only [Enc.readFrom, hst] at he ⊢
    exact h he
  | none =>
    simp only [Enc.readFrom, hst] at he ⊢
    obtain ⟨ho, -, m, ha, -⟩ := hx rfl
    exact h2 v r1 ho (by rw [ha.content.2]; exact Hereditary.drop _ _ hP) he

theorem EofEnd.sub {get : σ → τ} {set : τ → σ → σ} {st : Step τ} (h : EofEnd P st) :
    EofEnd P (Enc.sub get set st) := fun s r hr => h (get s) r hr

theorem EofEnd.subVal {get : σ → τ} {st : Step τ} (h : EofEnd P st) :
    EofEnd P (Enc.subVal get st) := fun s r hr => h (get s) r hr

theorem EofEnd.withLocal {l : Type} {init : l} {st : Step (σ × l)} (h : EofEnd P st) :
    EofEnd P (Enc.withLocal init st) := fun s r hr => h (s, init) r hr

theorem EofEnd.always {f : σ → σ} {st : Step σ} (h : EofEnd P st) : EofEnd P (Enc.always f st) :=
  fun s r hr => h s r hr

theorem EofEnd.dyn {f : σ → Step σ} (h : ∀ s, EofEnd P (f s)) : EofEnd P (Enc.dyn f) :=
  fun s r hr => h s s r hr

/-- A field below a limit that is not zero (unless the field is empty). -/
theorem EofEnd.limitedBin {n k : Nat} {set : Bytes → σ → σ} (h : k = 0 ∨ 0 < n) :
    EofEnd P (Enc.limited n (Enc.bin k set)) := by
  intro s r hr _ he
  have hl : (Rd.lim n r).Ok .eof := ⟨rfl, hr⟩
  rcases readFull_spec .eof k (.lim n r) hl with ⟨hk, r', h1, h2, h3⟩ | ⟨hk, r', h1, h2, h3⟩
  · simp [Enc.limited, Enc.bin, h1] at he
  · simp only [Enc.limited, Enc.bin, h1] at he ⊢
    have hc : (Rd.lim n r).content = [] := by
      simp only [Option.some.injEq] at he
      unfold shortErr at he
      split at he
      · cases he
      · rename_i hx
        by_cases hcc : (Rd.lim n r).content = []
        · exact hcc
        · exact absurd ⟨hcc, rfl⟩ hx
    have hr0 : r.content = [] := by
      simp only [Rd.content, List.take_eq_nil_iff] at hc
      rcases hc with hc | hc
      · rcases h with h | h <;> omega
      · exact hc
    rw [h2.unlimit.content.2, hr0]; simp

/-! ### Loops -/

theorem readFuncLoop_same [Hereditary P] {zero : τ} {st : Step τ} (hs : Stable P st) : ∀ (fuel : Nat) (acc : List τ) (n : Nat)
    (r q : Rd), r.Ok .eof → q.Ok .eof → r.content = q.content → P r.content →
    SameResult (Enc.readFuncLoop zero st fuel acc n r) (Enc.readFuncLoop zero st fuel acc n q) := by
  intro fuel
  induction fuel with
  | zero => intro acc n r q hr hq hc _; exact ⟨rfl, rfl, rfl⟩
  | succ fuel ih =>
    intro acc n r q hr hq hc hP
    obtain ⟨⟨hn, he, hv⟩, hx⟩ := hs zero r q hr hq hc hP
    rcases ho : st zero r with ⟨v, k, e, r1⟩
    rcases hp : st zero q with ⟨v', k', e', q1⟩
    rw [ho, hp] at hn he hv hx
    simp only at hn he hv hx
    subst hn he hv
    cases e with
    | some e => simp only [Enc.readFuncLoop, ho, hp]; exact ⟨rfl, rfl, rfl⟩
    | none =>
      obtain ⟨o1, o2, m, a1, a2⟩ := hx rfl
      simp only [Enc.readFuncLoop, ho, hp]
      exact ih _ _ r1 q1 o1 o2 (by rw [a1.content.2, a2.content.2, hc])
        (by rw [a1.content.2]; exact Hereditary.drop _ _ hP)

/-- A list that ends well ends at the end of the reader. -/
theorem readFuncLoop_end [Hereditary P] {E : Err → Prop} {zero : τ} {st : Step τ} (hs : Safe E st) (he : EofEnd P st) :
    ∀ (fuel : Nat) (acc : List τ) (n : Nat) (r : Rd), r.Ok .eof → P r.content →
    (Enc.readFuncLoop zero st fuel acc n r).err = none →
    (Enc.readFuncLoop zero st fuel acc n r).rd.Ok .eof ∧
    (Enc.readFuncLoop zero st fuel acc n r).rd.content = [] ∧
    ∃ m, Rd.Adv m r (Enc.readFuncLoop zero st fuel acc n r).rd := by
  intro fuel
  induction fuel with
  | zero => intro acc n r hr _ h; simp [Enc.readFuncLoop] at h
  | succ fuel ih =>
    intro acc n r hr hP h
    obtain ⟨⟨m1, hm1, a1⟩, o1, e1⟩ := hs zero r hr
    have hc := he zero r hr hP
    rcases hst : st zero r with ⟨v, k, e, r1⟩
    rw [hst] at a1 o1 hc
    simp only at a1 o1 hc
    cases e with
    | some e =>
      simp only [Enc.readFuncLoop, hst] at h ⊢
      have : e = .eof := by cases e <;> simp [skipEOF] at h ⊢
      subst this
      exact ⟨o1, hc rfl, m1, a1⟩
    | none =>
      simp only [Enc.readFuncLoop, hst] at h ⊢
      obtain ⟨h1, h2, m, h3⟩ := ih _ _ r1 o1 (by rw [a1.content.2]; exact Hereditary.drop _ _ hP) h
      exact ⟨h1, h2, _, a1.trans h3⟩

theorem readFunc_same [Hereditary P] {E : Err → Prop} {zero : τ} {st : Step τ} (hs : Stable P st) (hE : Safe E st)
    (he : EofEnd P st) (r q : Rd) (hr : r.Ok .eof) (hq : q.Ok .eof) (hc : r.content = q.content)
    (hP : P r.content) : SameFrag r q (Enc.readFunc zero st r) (Enc.readFunc zero st q) := by
  have h := readFuncLoop_same (zero := zero) hs (r.content.length + 1) [] 0 r q hr hq hc hP
  unfold Enc.readFunc
  rw [← hc]
  refine ⟨h, fun h0 => ?_⟩
  obtain ⟨h1, h2, m, h3⟩ := readFuncLoop_end (zero := zero) hE he (r.content.length + 1) [] 0 r hr hP h0
  obtain ⟨g1, g2, k, g3⟩ := readFuncLoop_end (zero := zero) hE he (r.content.length + 1) [] 0 q hq (hc ▸ hP)
    (by rw [← h.err, h0])
  have hmk : m = k := by rw [h3.all h2, hc, ← g3.all g2]
  exact ⟨h1, g1, m, h3, hmk ▸ g3⟩

theorem Stable.readSliceFrom [Hereditary P] {E : Err → Prop} {zero : τ} {st : Step τ} (hs : Stable P st) (hE : Safe E st)
    (he : EofEnd P st) : Stable P (Enc.readSliceFrom zero st) := fun _ r q hr hq hc hP =>
  let h := readFunc_same (zero := zero) hs hE he r q hr hq hc hP
  ⟨⟨h.n, h.err, rfl⟩, h.next⟩

theorem StableV.readSliceFrom [Hereditary P] {zero : τ} {st : Step τ} (hs : Stable P st) :
    StableV P (Enc.readSliceFrom zero st) := fun _ r q hr hq hc hP =>
  let h := readFuncLoop_same (zero := zero) hs (r.content.length + 1) [] 0 r q hr hq hc hP
  ⟨by simp only [Enc.readSliceFrom, Enc.readFunc, ← hc]; exact h.n,
   by simp only [Enc.readSliceFrom, Enc.readFunc, ← hc]; exact h.err, rfl⟩

theorem scanLoop_same [Hereditary P] {mk : UInt16 → Except Err τ} {st : Step τ} (hs : Stable P st) :
    ∀ (fuel : Nat) (acc : List τ) (n : Nat) (b : Bytes) (e : Option Err) (r : Rd) (c : Bytes) (f : Option Err) (q : Rd),
    (Rd.buf b e r).Ok .eof → (Rd.buf c f q).Ok .eof → (Rd.buf b e r).content = (Rd.buf c f q).content →
    P (Rd.buf b e r).content → SameResult (Enc.scanLoop mk st fuel acc n (.buf b e r)) (Enc.scanLoop mk st fuel acc n (.buf c f q)) := by
  intro fuel
  induction fuel with
  | zero => intro acc n b e r c f q hr hq hc _; exact ⟨rfl, rfl, rfl⟩
  | succ fuel ih =>
    intro acc n b e r c f q hr hq hc hP
    obtain ⟨b', e', r', h1, h2, h3 | h3⟩ := peek2_spec .eof b e r hr
    · obtain ⟨c', f', q', g1, g2, g3 | g3⟩ := peek2_spec .eof c f q hq
      · have hc1 : (Rd.buf b' e' r').content = (Rd.buf c' f' q').content := by
          rw [h1.content.2, g1.content.2, hc]
        have hP1 : P (Rd.buf b' e' r').content := by rw [h1.content.2]; exact Hereditary.drop _ _ hP
        rcases hm : mk (ofBE UInt16 ((Rd.buf c f q).content.take 2)) with ee | z
        · simp only [Enc.scanLoop, h3.2, g3.2, hc, hm]; exact ⟨rfl, rfl, rfl⟩
        · obtain ⟨⟨hn, he, hv⟩, hx⟩ := hs z _ _ h2 g2 hc1 hP1
          rcases ho : st z (.buf b' e' r') with ⟨v, k, ee, r1⟩
          rcases hp : st z (.buf c' f' q') with ⟨v', k', ee', q1⟩
          rw [ho, hp] at hn he hv hx
          simp only at hn he hv hx
          subst hn he hv
          cases ee with
          | some ee => simp only [Enc.scanLoop, h3.2, g3.2, hc, hm, ho, hp]; exact ⟨rfl, rfl, rfl⟩
          | none =>
            obtain ⟨o1, o2, m, a1, a2⟩ := hx rfl
            obtain ⟨b2, e2, r2, hb2⟩ := a1.isBuf
            obtain ⟨c2, f2, q2, hc2⟩ := a2.isBuf
            subst hb2 hc2
            simp only [Enc.scanLoop, h3.2, g3.2, hc, hm, ho, hp]
            exact ih _ _ _ _ _ _ _ _ o1 o2 (by rw [a1.content.2, a2.content.2, hc1])
              (by rw [a1.content.2]; exact Hereditary.drop _ _ hP1)
      · rw [hc] at h3; omega
    · obtain ⟨c', f', q', g1, g2, g3 | g3⟩ := peek2_spec .eof c f q hq
      · rw [hc] at h3; omega
      · simp only [Enc.scanLoop, h3.2, g3.2]; exact ⟨rfl, rfl, rfl⟩

/-- A list that ends well has emptied the reader below the `bufio.Reader`. -/
theorem scanLoop_eofEnd [Hereditary P] {E : Err → Prop} {mk : UInt16 → Except Err τ} {st : Step τ} (hs : Safe E st)
    (he : EofMade P mk st) : ∀ (fuel : Nat) (acc : List τ) (n : Nat) (b : Bytes) (e : Option Err) (r : Rd),
    (Rd.buf b e r).Ok .eof → P (Rd.buf b e r).content → (Enc.scanLoop mk st fuel acc n (.buf b e r)).err = none →
    ∃ b' e' r' m, (Enc.scanLoop mk st fuel acc n (.buf b e r)).rd = .buf b' e' r' ∧ r'.Ok .eof ∧
      r'.content = [] ∧ Rd.Adv m r r' := by
  intro fuel
  induction fuel with
  | zero => intro acc n b e r hr _ h; simp [Enc.scanLoop] at h
  | succ fuel ih =>
    intro acc n b e r hr hP h
    obtain ⟨b', e', r', h1, h2, h3 | h3⟩ := peek2_spec .eof b e r hr
    · rcases hm : mk (ofBE UInt16 ((Rd.buf b e r).content.take 2)) with ee | z
      · simp [Enc.scanLoop, h3.2, hm] at h
      · obtain ⟨⟨m1, hm1, a1⟩, o1, e1⟩ := hs z (.buf b' e' r') h2
        have hl1 : (Rd.buf b' e' r').content = (Rd.buf b e r).content := by rw [h1.content.2]; simp
        have hcE := he _ z hm (.buf b' e' r') h2 (by rw [hl1]; exact hP)
          (by rw [hl1]; exact (be_ofBE_u16 (by simp; omega)).symm)
        rcases hst : st z (.buf b' e' r') with ⟨v, k, ee, r1⟩
        rw [hst] at a1 o1 hcE
        simp only at a1 o1 hcE
        obtain ⟨b2, e2, r2, hb2⟩ := a1.isBuf
        subst hb2
        have ha := h1.trans a1
        simp only [Rd.Adv] at ha
        obtain ⟨-, -, j, ha⟩ := ha
        cases ee with
        | some ee =>
          simp only [Enc.scanLoop, h3.2, hm, hst] at h ⊢
          have : ee = .eof := by cases ee <;> simp [skipEOF] at h ⊢
          subst this
          have hcc := hcE rfl
          simp only [Rd.content, List.append_eq_nil_iff] at hcc
          exact ⟨b2, e2, r2, j, rfl, o1.1, hcc.2, ha⟩
        | none =>
          simp only [Enc.scanLoop, h3.2, hm, hst] at h ⊢
          obtain ⟨b3, e3, r3, m, g1, g2, g3, g4⟩ := ih _ _ _ _ _ o1
            (by rw [a1.content.2, hl1]; exact Hereditary.drop _ _ hP) h
          exact ⟨b3, e3, r3, _, g1, g2, g3, ha.trans g4⟩
    · obtain ⟨c, q, g1, g2, g3, g4⟩ := peek2_short hr h3.1
      simp only [Enc.scanLoop, g4]
      simp only [Rd.Adv] at g1
      obtain ⟨-, -, j, g1⟩ := g1
      exact ⟨c, none, q, j, rfl, g2, g3, g1⟩

theorem StableV.scanFrom [Hereditary P] {mk : UInt16 → Except Err τ} {st : Step τ} (hs : Stable P st) :
    StableV P (Enc.scanFrom mk st) := by
  intro s r q hr hq hc hP
  obtain ⟨b, e, r0, hw⟩ := Rd.wrapBuf_isBuf r
  obtain ⟨c, f, q0, hv⟩ := Rd.wrapBuf_isBuf q
  have h := scanLoop_same (mk := mk) hs (r.content.length + 1) s 0 b e r0 c f q0 (by rw [← hw]; exact hr.wrapBuf)
    (by rw [← hv]; exact hq.wrapBuf) (by rw [← hw, ← hv, Rd.content_wrapBuf, Rd.content_wrapBuf, hc])
    (by rw [← hw, Rd.content_wrapBuf]; exact hP)
  rw [← hw, ← hv] at h
  simp only [Enc.scanFrom, ← hc]
  exact ⟨h.n, h.err, h.val⟩

theorem StableL.scanFrom [Hereditary P] {E : Err → Prop} {mk : UInt16 → Except Err τ} {st : Step τ} (hs : Stable P st)
    (hE : Safe E st) (he : EofMade P mk st) : StableL P (Enc.scanFrom mk st) := by
  intro s k r q hr hq hc hP
  have hl := Rd.content_lim (k := k) hc
  have h := StableV.scanFrom (mk := mk) hs s (.lim k r) (.lim k q) ⟨rfl, hr⟩ ⟨rfl, hq⟩ hl
    (Hereditary.take _ _ hP)
  refine ⟨h, fun h0 => ?_⟩
  have g0 : (Enc.scanFrom mk st s (.lim k q)).err = none := by rw [← h.err, h0]
  obtain ⟨b', e', r', m, h1, h2, h3, h4⟩ := scanLoop_eofEnd (mk := mk) hE he
    ((Rd.lim k r).content.length + 1) s 0 [] none (.lim k r) ⟨⟨rfl, hr⟩, .inl rfl⟩
    (Hereditary.take _ _ hP) h0
  obtain ⟨c', f', q', m', g1, g2, g3, g4⟩ := scanLoop_eofEnd (mk := mk) hE he
    ((Rd.lim k q).content.length + 1) s 0 [] none (.lim k q) ⟨⟨rfl, hq⟩, .inl rfl⟩
    (Hereditary.take _ _ (hc ▸ hP)) g0
  have hr' : (Enc.scanFrom mk st s (.lim k r)).rd = r' := by
    simp only [Enc.scanFrom, Rd.wrapBuf, h1, Rd.unwrapBuf]
  have hq' : (Enc.scanFrom mk st s (.lim k q)).rd = q' := by
    simp only [Enc.scanFrom, Rd.wrapBuf, g1, Rd.unwrapBuf]
  rw [hr', hq']
  exact ⟨h2, g2, m, h4, by rw [h4.all h3, hl, ← g4.all g3]; exact g4⟩

/-- Proves `Stable` of a combination of steps; facts about the named decoders are taken from
the context. -/
macro "stable" : tactic => `(tactic|
  with_reducible repeat' first
    | assumption
    | exact Stable.nil
    | exact Stable.assign
    | exact Stable.rest
    | exact Stable.rest0
    | exact Stable.num
    | exact Stable.skip
    | exact Stable.bin
    | exact Stable.pair32
    | exact Stable.quad32
    | apply Stable.cons
    | apply Stable.withLocal
    | apply Stable.sub
    | apply Stable.subVal
    | apply Stable.always
    | (apply Stable.dyn; intro _)
    | (refine Stable.andThen ?_ (fun _ => ?_))
    | apply StableL.limited
    | apply StableL.sub
    | apply StableL.subVal
    | apply Stable.l)

/-- Proves `EofEnd` of a combination of steps. -/
macro "eofEnd" : tactic => `(tactic|
  with_reducible repeat' first
    | assumption
    | exact EofEnd.num
    | exact EofEnd.skip
    | exact EofEnd.bin
    | exact NoEof.nil
    | exact NoEof.assign
    | exact NoEof.rest
    | apply EofEnd.cons
    | apply EofEnd.withLocal
    | apply EofEnd.always
    | (apply EofEnd.dyn; intro _)
    | exact NoEof.readSliceFrom
    | apply NoEof.limited
    | apply NoEof.sub
    | apply NoEof.subVal
    | apply NoEof.eofEnd
    | stable)

end Verif
