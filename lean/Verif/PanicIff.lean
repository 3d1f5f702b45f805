import Verif.SafeOn

/-!
# Which inputs make a decoder of actions panic

`MakeReader` panics for type code 27 (ofp/action.go:110-128, 201-210).  Whether a decoder gets
there is decided by the bytes alone: not by how they are cut into reads.
-/

namespace Verif

variable {σ τ : Type}

/-- On any reader over a stream that ends, the step panics exactly when `Q` holds of the
receiver and of the bytes of the input. -/
def PanicIff (st : Step σ) (Q : σ → Bytes → Prop) : Prop :=
  ∀ s r, r.Ok .eof → ((st s r).err = some .panic ↔ Q s r.content)

theorem ShortErr.not_panic {e : Err} (h : ShortErr e) : e ≠ .panic := by
  rcases h with h | h <;> simp [h]

theorem PanicIff.never {st : Step σ} {E : Err → Prop} (h : Safe E st) (hE : ¬ E .panic) :
    PanicIff st (fun _ _ => False) := fun s r hr =>
  ⟨fun h1 => hE ((h s r hr).err _ h1), False.elim⟩

theorem PanicIff.bin {k : Nat} {set : Bytes → σ → σ} {t : List (Step σ)} {Q : σ → Bytes → Prop}
    (h : PanicIff (Enc.readFrom t) Q) :
    PanicIff (Enc.readFrom (Enc.bin k set :: t))
      (fun s b => k ≤ b.length ∧ Q (set (b.take k) s) (b.drop k)) := by
  intro s r hr
  rcases readFull_spec .eof k r hr with ⟨hk, r', h1, h2, h3⟩ | ⟨hk, r', h1, h2, h3⟩
  · simp only [Enc.readFrom, Enc.bin, h1]
    rw [h _ _ h3, h2.content.2]
    simp [hk]
  · simp only [Enc.readFrom, Enc.bin, h1, shortErr]
    split <;> simp <;> omega

theorem PanicIff.num {α : Type} [Wire α] {set : α → σ → σ} {t : List (Step σ)} {Q : σ → Bytes → Prop}
    (h : PanicIff (Enc.readFrom t) Q) :
    PanicIff (Enc.readFrom (Enc.num set :: t))
      (fun s b => Wire.size α ≤ b.length ∧ Q (set (ofBE α (b.take (Wire.size α))) s) (b.drop (Wire.size α))) :=
  PanicIff.bin h

theorem PanicIff.skip {k : Nat} {t : List (Step σ)} {Q : σ → Bytes → Prop}
    (h : PanicIff (Enc.readFrom t) Q) :
    PanicIff (Enc.readFrom (Enc.skip k :: t)) (fun s b => k ≤ b.length ∧ Q s (b.drop k)) :=
  PanicIff.bin h

theorem PanicIff.assign {f : σ → σ} {t : List (Step σ)} {Q : σ → Bytes → Prop}
    (h : PanicIff (Enc.readFrom t) Q) :
    PanicIff (Enc.readFrom (Enc.assign f :: t)) (fun s b => Q (f s) b) := by
  intro s r hr
  simp only [Enc.readFrom, Enc.assign]
  exact h _ _ hr

/-- What follows cannot panic. -/
theorem PanicIff.head {st : Step σ} {t : List (Step σ)} {Q : σ → Bytes → Prop} {E E' : Err → Prop}
    (h : PanicIff st Q) (hs : Safe E' st) (ht : Safe E (Enc.readFrom t)) (hE : ¬ E .panic) :
    PanicIff (Enc.readFrom (st :: t)) Q := by
  intro s r hr
  rw [← h s r hr]
  have ho := (hs s r hr).ok
  rcases hst : st s r with ⟨v, n, e, r1⟩
  rw [hst] at ho
  cases e with
  | some e => simp [Enc.readFrom, hst]
  | none =>
    simp only [Enc.readFrom, hst]
    simpa using (fun h1 => hE ((ht v r1 ho).err _ h1))

theorem PanicIff.dyn {f : σ → Step σ} {Q : σ → σ → Bytes → Prop} (h : ∀ s, PanicIff (f s) (Q s)) :
    PanicIff (Enc.dyn f) (fun s b => Q s s b) := fun s r hr => h s s r hr

theorem PanicIff.limited {n : Nat} {st : Step σ} {Q : σ → Bytes → Prop} (h : PanicIff st Q) :
    PanicIff (Enc.limited n st) (fun s b => Q s (b.take n)) := fun s r hr =>
  h s (.lim n r) ⟨rfl, hr⟩

theorem PanicIff.sub {get : σ → τ} {set : τ → σ → σ} {st : Step τ} {Q : τ → Bytes → Prop}
    (h : PanicIff st Q) : PanicIff (Enc.sub get set st) (fun s b => Q (get s) b) :=
  fun s r hr => h (get s) r hr

theorem PanicIff.withLocal {l : Type} {init : l} {st : Step (σ × l)} {Q : σ × l → Bytes → Prop}
    (h : PanicIff st Q) : PanicIff (Enc.withLocal init st) (fun s b => Q (s, init) b) :=
  fun s r hr => h (s, init) r hr

/-- A header of a fixed size, decoded into a value. -/
theorem PanicIff.reads {st : Step σ} {t : List (Step σ)} {Q : σ → Bytes → Prop} {k : Nat} {f : σ → Bytes → σ}
    (hf : Flat st k) (hv : ∀ s b, b.length = k → Reads st s b (f s b)) (h : PanicIff (Enc.readFrom t) Q) :
    PanicIff (Enc.readFrom (st :: t)) (fun s b => k ≤ b.length ∧ Q (f s (b.take k)) (b.drop k)) := by
  intro s r hr
  by_cases hk : k ≤ r.content.length
  · have hl : (r.content.take k).length = k := by simp; omega
    obtain ⟨r', h1, h2, h3⟩ := (hv s _ hl).clean r (r.content.drop k) hr (List.take_append_drop k _).symm
    rw [hl] at h2
    simp only [Enc.readFrom, h1, hk, true_and]
    rw [h _ _ h3, h2.content.2]
  · obtain ⟨⟨e, h1, h2⟩, _⟩ := (hf s r hr).2.2.2 (by omega)
    rcases hst : st s r with ⟨v, n, e', r1⟩
    rw [hst] at h1
    simp only at h1; subst h1
    simp [Enc.readFrom, hst, h2.not_panic, hk]

/-! ### After well-formed data -/

/-- The step panics on exactly these bytes, however they are cut into reads. -/
def Panics (st : Step σ) (s : σ) (b : Bytes) : Prop :=
  ∀ r, r.Ok .eof → r.content = b → (st s r).err = some .panic

theorem Panics.cons {st : Step σ} {t : List (Step σ)} {s s1 : σ} {bs b : Bytes} (h : Reads st s bs s1)
    (ht : Panics (Enc.readFrom t) s1 b) : Panics (Enc.readFrom (st :: t)) s (bs ++ b) := by
  intro r hr hc
  obtain ⟨r', h1, h2, h3⟩ := h.clean r b hr hc
  simp only [Enc.readFrom, h1]
  exact ht r' h3 (by rw [h2.content.2, hc]; simp)

theorem Panics.last {st : Step σ} {s : σ} {b : Bytes} (h : Panics st s b) :
    Panics (Enc.readFrom [st]) s b := by
  intro r hr hc
  have := h r hr hc
  rcases hst : st s r with ⟨v, n, e, r1⟩
  rw [hst] at this
  simp only at this; subst this
  simp [Enc.readFrom, hst]

theorem Panics.assignCons {f : σ → σ} {t : List (Step σ)} {s : σ} {b : Bytes}
    (h : Panics (Enc.readFrom t) (f s) b) : Panics (Enc.readFrom (Enc.assign f :: t)) s b := by
  intro r hr hc
  simp only [Enc.readFrom, Enc.assign]
  exact h r hr hc

theorem Panics.sub {get : σ → τ} {set : τ → σ → σ} {st : Step τ} {s : σ} {b : Bytes}
    (h : Panics st (get s) b) : Panics (Enc.sub get set st) s b := fun r hr hc => h r hr hc

theorem scanLoop_panics {mk : UInt16 → Except Err τ} {st : Step τ} {enc : τ → Bytes} {zero : τ → τ}
    {code : τ → UInt16} {z : τ} {tail : Bytes} (hl : 2 ≤ tail.length)
    (hz : mk (ofBE UInt16 (tail.take 2)) = .ok z) (hp : Panics st z tail)
    (xs : List τ) (h : ∀ x ∈ xs, Reads st (zero x) (enc x) x) (hmk : ∀ x ∈ xs, mk (code x) = .ok (zero x))
    (hcode : ∀ x ∈ xs, ∃ t, enc x = be (code x) ++ t) :
    ∀ (fuel : Nat) (acc : List τ) (n : Nat) (b : Bytes) (e : Option Err) (r0 : Rd),
      (Rd.buf b e r0).Ok .eof → (Rd.buf b e r0).content = xs.flatMap enc ++ tail →
      (Rd.buf b e r0).content.length < fuel →
      (Enc.scanLoop mk st fuel acc n (.buf b e r0)).err = some .panic := by
  induction xs with
  | nil =>
    intro fuel acc n b e r0 hr hc hf
    cases fuel with
    | zero => omega
    | succ fuel =>
      simp only [List.flatMap_nil, List.nil_append] at hc
      obtain ⟨b', e', r', h1, h2, h3 | h3⟩ := peek2_spec .eof b e r0 hr
      · have hc' : (Rd.buf b' e' r').content = tail := by rw [h1.content.2, hc]; simp
        have := hp _ h2 hc'
        rcases hst : st z (.buf b' e' r') with ⟨v, k, ee, r1⟩
        rw [hst] at this
        simp only at this; subst this
        simp [Enc.scanLoop, h3.2, hc, hz, hst, skipEOF]
      · rw [hc] at h3; omega
  | cons x xs ih =>
    intro fuel acc n b e r0 hr hc hf
    cases fuel with
    | zero => omega
    | succ fuel =>
      obtain ⟨t, ht⟩ := hcode x (by simp)
      have hlen : 2 ≤ (enc x).length := by rw [ht]; simp
      have hcl : (Rd.buf b e r0).content.length = (enc x).length + (xs.flatMap enc ++ tail).length := by
        rw [hc]; simp
      obtain ⟨b', e', r', h1, h2, h3 | h3⟩ := peek2_spec .eof b e r0 hr
      · have htk : (Rd.buf b e r0).content.take 2 = be (code x) := by
          rw [hc, List.flatMap_cons, ht]
          simp only [List.append_assoc]
          rw [List.take_append_of_le_length (by simp), List.take_of_length_le (by simp)]
        have hc' : (Rd.buf b' e' r').content = enc x ++ (xs.flatMap enc ++ tail) := by
          rw [h1.content.2, hc]; simp
        obtain ⟨r1, e1, a1, o1⟩ := h x (by simp) (.buf b' e' r') _ h2 hc'
        obtain ⟨b2, e2, r2, hb2⟩ := a1.isBuf
        subst hb2
        have hc2 : (Rd.buf b2 e2 r2).content = xs.flatMap enc ++ tail := by
          rw [a1.content.2, hc']; simp
        simp only [Enc.scanLoop, h3.2, htk, ofBE_be, hmk x (by simp), e1]
        exact ih (fun y hy => h y (by simp [hy])) (fun y hy => hmk y (by simp [hy]))
          (fun y hy => hcode y (by simp [hy])) fuel _ _ b2 e2 r2 o1 hc2 (by rw [hc2]; omega)
      · omega

theorem Panics.scanFrom {mk : UInt16 → Except Err τ} {st : Step τ} {enc : τ → Bytes} {zero : τ → τ}
    {code : τ → UInt16} {z : τ} {tail : Bytes} {s : List τ} (hl : 2 ≤ tail.length)
    (hz : mk (ofBE UInt16 (tail.take 2)) = .ok z) (hp : Panics st z tail)
    (xs : List τ) (h : ∀ x ∈ xs, Reads st (zero x) (enc x) x) (hmk : ∀ x ∈ xs, mk (code x) = .ok (zero x))
    (hcode : ∀ x ∈ xs, ∃ t, enc x = be (code x) ++ t) :
    Panics (Enc.scanFrom mk st) s (xs.flatMap enc ++ tail) := by
  intro r hr hc
  obtain ⟨b, e, r0, hw⟩ := Rd.wrapBuf_isBuf r
  have hcw := Rd.content_wrapBuf r
  have how := hr.wrapBuf
  rw [hw] at hcw how
  have := scanLoop_panics hl hz hp xs h hmk hcode (r.content.length + 1) s 0 b e r0
    how (by rw [hcw, hc]) (by rw [hcw]; omega)
  simpa [Enc.scanFrom, hw] using this

theorem readFuncLoop_panics {zero : τ} {st : Step τ} {enc : τ → Bytes} {tail : Bytes} (hp : Panics st zero tail)
    (xs : List τ) (h : ∀ x ∈ xs, Reads st zero (enc x) x) (hne : ∀ x ∈ xs, 0 < (enc x).length) :
    ∀ (fuel : Nat) (acc : List τ) (n : Nat) (r : Rd), r.Ok .eof → r.content = xs.flatMap enc ++ tail →
      r.content.length < fuel → (Enc.readFuncLoop zero st fuel acc n r).err = some .panic := by
  induction xs with
  | nil =>
    intro fuel acc n r hr hc hf
    cases fuel with
    | zero => omega
    | succ fuel =>
      have := hp r hr (by simpa using hc)
      rcases hst : st zero r with ⟨v, k, ee, r1⟩
      rw [hst] at this
      simp only at this; subst this
      simp [Enc.readFuncLoop, hst, skipEOF]
  | cons x xs ih =>
    intro fuel acc n r hr hc hf
    cases fuel with
    | zero => omega
    | succ fuel =>
      have hc' : r.content = enc x ++ (xs.flatMap enc ++ tail) := by rw [hc]; simp
      obtain ⟨r1, e1, a1, o1⟩ := h x (by simp) r _ hr hc'
      have hc2 : r1.content = xs.flatMap enc ++ tail := by rw [a1.content.2, hc']; simp
      have := hne x (by simp)
      simp only [Enc.readFuncLoop, e1]
      refine ih (fun y hy => h y (by simp [hy])) (fun y hy => hne y (by simp [hy])) fuel _ _ r1 o1 hc2 ?_
      rw [hc2]; rw [hc', List.length_append] at hf; omega

theorem Panics.readSliceFrom {zero : τ} {st : Step τ} {enc : τ → Bytes} {tail : Bytes} {s : List τ}
    (hp : Panics st zero tail) (xs : List τ) (h : ∀ x ∈ xs, Reads st zero (enc x) x)
    (hne : ∀ x ∈ xs, 0 < (enc x).length) :
    Panics (Enc.readSliceFrom zero st) s (xs.flatMap enc ++ tail) := fun r hr hc =>
  readFuncLoop_panics hp xs h hne _ _ _ r hr hc (by omega)

/-! ### Actions -/

/-- Success is decided by the receiver and the bytes: `T s b` is the number of bytes the step
takes from the front of `b` when it succeeds; it does not panic. -/
def Sized (st : Step σ) (T : σ → Bytes → Option Nat) : Prop :=
  ∀ s r, r.Ok .eof →
    match T s r.content with
    | some k => (st s r).err = none ∧ Rd.Adv k r (st s r).rd ∧ (st s r).rd.Ok .eof
    | none => ∃ e, (st s r).err = some e ∧ e ≠ .panic

theorem Flat.sized {st : Step σ} {k : Nat} (h : Flat st k) :
    Sized st (fun _ b => if k ≤ b.length then some k else none) := by
  intro z r hr
  obtain ⟨h1, h2, h3, h4⟩ := h z r hr
  by_cases hk : k ≤ r.content.length
  · simp only [hk, if_true]
    obtain ⟨h5, h6⟩ := h3 hk
    rw [h6] at h2
    exact ⟨h5, h2, h1⟩
  · simp only [hk, if_false]
    obtain ⟨⟨e, h5, h6⟩, _⟩ := h4 (by omega)
    exact ⟨e, h5, h6.not_panic⟩

theorem Sized.congr {st : Step σ} {T T' : σ → Bytes → Option Nat} (h : Sized st T)
    (he : ∀ s b, T s b = T' s b) : Sized st T' := by
  have : T = T' := funext fun s => funext fun b => he s b
  exact this ▸ h

theorem Sized.nil : Sized (Enc.readFrom (σ := σ) []) (fun _ _ => some 0) := fun _ r hr =>
  ⟨rfl, Rd.Adv.refl r, hr⟩

theorem Sized.bin {k : Nat} {set : Bytes → σ → σ} {t : List (Step σ)} {T : σ → Bytes → Option Nat}
    (h : Sized (Enc.readFrom t) T) :
    Sized (Enc.readFrom (Enc.bin k set :: t))
      (fun s b => if k ≤ b.length then (T (set (b.take k) s) (b.drop k)).map (k + ·) else none) := by
  intro s r hr
  rcases readFull_spec .eof k r hr with ⟨hk, r', h1, h2, h3⟩ | ⟨hk, r', h1, h2, h3⟩
  · simp only [Enc.readFrom, Enc.bin, h1, hk, if_true]
    have := h (set (r.content.take k) s) r' h3
    rw [h2.content.2] at this
    rcases hT : T (set (r.content.take k) s) (r.content.drop k) with _ | j
    · rw [hT] at this; simpa using this
    · rw [hT] at this
      exact ⟨this.1, h2.trans this.2.1, this.2.2⟩
  · simp only [Enc.readFrom, Enc.bin, h1, Nat.not_le.mpr hk, if_false, shortErr]
    split <;> simp

theorem Sized.cons {st : Step σ} {t : List (Step σ)} {T0 : σ → Bytes → Option Nat} {T : Bytes → Option Nat}
    (h0 : Sized st T0) (h : Sized (Enc.readFrom t) (fun _ => T)) :
    Sized (Enc.readFrom (st :: t)) (fun s b => (T0 s b).bind fun k => (T (b.drop k)).map (k + ·)) := by
  intro s r hr
  have g0 := h0 s r hr
  rcases hst : st s r with ⟨v, n, e, r1⟩
  rw [hst] at g0
  simp only [Enc.readFrom, hst]
  rcases hT : T0 s r.content with _ | k
  · rw [hT] at g0
    obtain ⟨e', h1, h2⟩ := g0
    simp only at h1; subst h1
    simpa using h2
  · rw [hT] at g0
    obtain ⟨h1, h2, h3⟩ := g0
    simp only at h1 h2 h3; subst h1
    have := h v r1 h3
    simp only [h2.content.2] at this
    simp only [Option.bind_some]
    rcases hT' : T (r.content.drop k) with _ | j
    · rw [hT'] at this; simpa using this
    · rw [hT'] at this
      exact ⟨this.1, h2.trans this.2.1, this.2.2⟩

theorem Sized.assign {f : σ → σ} {t : List (Step σ)} {T : σ → Bytes → Option Nat}
    (h : Sized (Enc.readFrom t) T) :
    Sized (Enc.readFrom (Enc.assign f :: t)) (fun s b => T (f s) b) := by
  intro s r hr
  have := h (f s) r hr
  simp only [Enc.readFrom, Enc.assign]
  exact this

theorem Sized.last {st : Step σ} {T : σ → Bytes → Option Nat} (h : Sized st T) :
    Sized (Enc.readFrom [st]) T := by
  intro s r hr
  have := h s r hr
  rcases hst : st s r with ⟨v, n, e, r1⟩
  rw [hst] at this
  cases e <;> simpa [Enc.readFrom, hst] using this

theorem Sized.dyn {f : σ → Step σ} {T : σ → σ → Bytes → Option Nat} (h : ∀ s, Sized (f s) (T s)) :
    Sized (Enc.dyn f) (fun s b => T s s b) := fun s r hr => h s s r hr

theorem Sized.sub {get : σ → τ} {set : τ → σ → σ} {st : Step τ} {T : τ → Bytes → Option Nat}
    (h : Sized st T) : Sized (Enc.sub get set st) (fun s b => T (get s) b) :=
  fun s r hr => h (get s) r hr

theorem Sized.withLocal {l : Type} {init : l} {st : Step (σ × l)} {T : σ × l → Bytes → Option Nat}
    (h : Sized st T) : Sized (Enc.withLocal init st) (fun s b => T (s, init) b) :=
  fun s r hr => h (s, init) r hr

theorem Sized.limited {n : Nat} {st : Step σ} {T : σ → Bytes → Option Nat} (h : Sized st T) :
    Sized (Enc.limited n st) (fun s b => T s (b.take n)) := by
  intro s r hr
  have := h s (.lim n r) ⟨rfl, hr⟩
  simp only [Rd.content] at this
  simp only
  rcases hT : T s (r.content.take n) with _ | k
  · rw [hT] at this; exact this
  · rw [hT] at this
    exact ⟨this.1, this.2.1.unlimit, this.2.2.unlimit this.2.1⟩

theorem Sized.rest {set : Bytes → σ → σ} : Sized (Enc.rest set) (fun _ b => some b.length) := by
  intro s r hr
  obtain ⟨r', h1, h2, h3⟩ := readAll_spec .eof r hr
  simp only [Enc.rest, h1]
  exact ⟨by simp [skipEOF], h2, h3⟩

theorem ofBE_u8 (n : UInt8) : ofBE UInt8 [n] = n := by simp [ofBE, getBE, Wire.ofNat]

theorem ofBE_u16 (a b : UInt8) : (ofBE UInt16 [a, b]).toNat = a.toNat * 256 + b.toNat := by
  have ha := a.toNat_lt
  have hb := b.toNat_lt
  simp [ofBE, getBE, Wire.ofNat]
  omega

theorem readFrom_step {st : Step σ} {t : List (Step σ)} {s s1 : σ} {k : Nat} {r r1 : Rd}
    (h : st s r = ⟨s1, k, none, r1⟩) : Enc.readFrom (st :: t) s r =
      ⟨(Enc.readFrom t s1 r1).val, k + (Enc.readFrom t s1 r1).n, (Enc.readFrom t s1 r1).err,
        (Enc.readFrom t s1 r1).rd⟩ := by
  simp only [Enc.readFrom, h]

theorem readFrom_one {st : Step σ} {s : σ} {r : Rd} : Enc.readFrom [st] s r = st s r := by
  rcases h : st s r with ⟨v, n, e, r1⟩
  cases e <;> simp [Enc.readFrom, h]

/-- The bytes an `OXM` in `b` takes, if it is complete. -/
def xmTake (b : Bytes) : Option Nat :=
  match b with
  | _ :: _ :: _ :: n :: t => if n.toNat ≤ t.length then some (4 + n.toNat) else none
  | _ => none

theorem XM.readFrom_sized : Sized XM.readFrom (fun _ => xmTake) := by
  have h := Sized.withLocal (init := ((0, false) : XMLocal)) <|
    Sized.bin (k := Wire.size UInt16) (set := fun b (s : XM × XMLocal) => ({ s.1 with cls := ofBE UInt16 b }, s.2)) <|
    Sized.bin (k := Wire.size UInt8) (set := fun b (s : XM × XMLocal) => ({ s.1 with type := ofBE UInt8 b }, s.2)) <|
    Sized.bin (k := Wire.size UInt8) (set := fun b (s : XM × XMLocal) => (s.1, (ofBE UInt8 b, s.2.2))) <|
    Sized.assign (f := fun s =>
      ({ s.1 with type := s.1.type >>> 1, value := zeros s.2.1.toNat, mask := [] },
        (s.2.1, s.1.type &&& 1 == 1))) <|
    Sized.cons (T := fun _ => some 0) (Sized.dyn (fun s : XM × XMLocal =>
      (Flat.bin (k := s.2.1.toNat) (set := fun b (s : XM × XMLocal) => ({ s.1 with value := b }, s.2))).sized)) <|
    Sized.assign (f := fun s =>
      if s.2.2 then
        let length := s.2.1.toNat / 2
        ({ s.1 with mask := (s.1.value.drop length).take length,
                    value := s.1.value.take length }, s.2)
      else s) <| Sized.nil
  refine Sized.congr h ?_
  clear h
  intro s b
  match b with
  | [] => rfl
  | [_] => rfl
  | [_, _] => rfl
  | [_, _, _] => rfl
  | a :: c :: d :: n :: t =>
    have hn : ofBE UInt8 [n] = n := ofBE_u8 n
    by_cases h : n.toNat ≤ t.length
    · simp [xmTake, hn, h]; omega
    · simp [xmTake, hn, h]

/-- The bytes of the body of a set-field action with these two bytes as its length. -/
def sfBody (hi lo : UInt8) (t : Bytes) : Bytes := t.take ((hi.toNat * 256 + lo.toNat + 65532) % 65536)

/-- The bytes a set-field action in `b` takes, if its decoder succeeds. -/
def sfTake (b : Bytes) : Option Nat :=
  match b with
  | _ :: _ :: hi :: lo :: t =>
    if xmTake (sfBody hi lo t) = none then none else some (4 + (sfBody hi lo t).length)
  | _ => none

theorem setField_sized : Sized setField.readFrom (fun _ => sfTake) := by
  intro s r hr
  have hf : Flat (Enc.sub (σ := XM × (UInt16 × UInt16)) (fun s => s.2) (fun h s => (s.1, h)) actionHeader.readFrom) 4 :=
    actionHeader.flat.sub
  have short : r.content.length < 4 → ∃ e, (setField.readFrom s r).err = some e ∧ e ≠ .panic := by
    intro hl
    rcases Flat.prefix_err (l := [_]) (Flat.cons hf Flat.nil) (s, ((0, 0) : UInt16 × UInt16)) r hr hl with h | h
    · exact ⟨_, h, by simp⟩
    · exact ⟨_, h, by simp⟩
  match hc : r.content with
  | [] => exact short (by simp [hc])
  | [_] => exact short (by simp [hc])
  | [_, _] => exact short (by simp [hc])
  | [_, _, _] => exact short (by simp [hc])
  | a :: c :: hi :: lo :: t =>
    have hc' : r.content = (be (ofBE UInt16 [a, c]) ++ be (ofBE UInt16 [hi, lo])) ++ t := by
      rw [hc, be_ofBE_u16 rfl, be_ofBE_u16 rfl]; rfl
    simp only
    generalize hg : sfTake (a :: c :: hi :: lo :: t) = g
    have hrd : Reads (Enc.sub (σ := XM × (UInt16 × UInt16)) (fun s => s.2) (fun h s => (s.1, h))
        actionHeader.readFrom) (s, (0, 0)) (be (ofBE UInt16 [a, c]) ++ be (ofBE UInt16 [hi, lo]))
        (s, (ofBE UInt16 [a, c], ofBE UInt16 [hi, lo])) := Reads.sub (actionHeader.reads _ _ _)
    generalize hL : ofBE UInt16 [hi, lo] = L at *
    generalize ofBE UInt16 [a, c] = K at *
    have hlen : (be K ++ be L).length = 4 := by simp
    have hcl := hrd.clean r t hr hc'
    rw [hlen] at hcl
    obtain ⟨r1, h1, h2, h3⟩ := hcl
    have hn : (L - 4).toNat = (hi.toNat * 256 + lo.toNat + 65532) % 65536 := by
      rw [UInt16.toNat_sub, ← hL, ofBE_u16]; simp; omega
    have ht : r1.content = t := by rw [h2.content.2, hc]; rfl
    have hbody := (Sized.limited (n := (L - 4).toNat)
      (Sized.cons (t := [Enc.rest (fun _ s => s)]) (Sized.sub (σ := XM × (UInt16 × UInt16)) (get := fun s => s.1)
        (set := fun x s => (x, s.2)) XM.readFrom_sized) (Sized.last Sized.rest)))
      (s, (K, L)) r1 h3
    simp only [ht] at hbody
    have he : setField.readFrom s r = 
        let o := Enc.limited (L - 4).toNat (Enc.readFrom [
          Enc.sub (fun s : XM × (UInt16 × UInt16) => s.1) (fun x s => (x, s.2)) XM.readFrom,
          Enc.rest (fun _ s => s)]) (s, (K, L)) r1
        ⟨o.val.1, 4 + o.n, o.err, o.rd⟩ := by
      unfold setField.readFrom Enc.withLocal
      simp only
      rw [readFrom_step h1, readFrom_one]
      rfl
    simp only [he]
    have hb : t.take (L - 4).toNat = sfBody hi lo t := by unfold sfBody; rw [hn]
    simp only [hb] at hbody
    simp only [sfTake] at hg
    clear hn hb
    generalize sfBody hi lo t = body at hbody hg
    have hx : ∀ k, xmTake body = some k → k ≤ body.length := by
      intro k hk
      match body, hk with
      | _ :: _ :: _ :: n :: t, hk =>
        simp only [xmTake] at hk
        split at hk
        · simp only [Option.some.injEq] at hk; simp only [List.length_cons]; omega
        · simp at hk
    rcases hxm : xmTake body with _ | k
    · simp only [hxm, Option.bind_none] at hbody
      simp only [hxm, if_true] at hg
      subst hg
      exact hbody
    · have := hx k hxm
      simp only [hxm, Option.bind_some, Option.map_some, List.length_drop] at hbody
      rw [show k + (body.length - k) = body.length by omega] at hbody
      simp only [hxm, reduceCtorEq, if_false] at hg
      subst hg
      exact ⟨hbody.1, h2.trans hbody.2.1, hbody.2.2⟩

/-- What the loop of `ScanFrom` meets before it panics. -/
inductive ScanPanic (mk : UInt16 → Except Err τ) (T : τ → Bytes → Option Nat) : Bytes → Prop
  | here {b : Bytes} : 2 ≤ b.length → mk (ofBE UInt16 (b.take 2)) = .error .panic → ScanPanic mk T b
  | next {b : Bytes} {z : τ} {k : Nat} : 2 ≤ b.length → mk (ofBE UInt16 (b.take 2)) = .ok z → T z b = some k →
      ScanPanic mk T (b.drop k) → ScanPanic mk T b

theorem scanLoop_panicIff {mk : UInt16 → Except Err τ} {st : Step τ} {T : τ → Bytes → Option Nat}
    (hs : Sized st T) (hT : ∀ z b k, T z b = some k → 0 < k) :
    ∀ (fuel : Nat) (acc : List τ) (n : Nat) (b : Bytes) (e : Option Err) (q : Rd),
      (Rd.buf b e q).Ok .eof → (Rd.buf b e q).content.length < fuel →
      ((Enc.scanLoop mk st fuel acc n (.buf b e q)).err = some .panic ↔
        ScanPanic mk T (Rd.buf b e q).content) := by
  intro fuel
  induction fuel with
  | zero => intro acc n b e q hr hf; omega
  | succ fuel ih =>
    intro acc n b e q hr hf
    obtain ⟨b', e', q', h1, h2, h3 | h3⟩ := peek2_spec .eof b e q hr
    · have hl1 : (Rd.buf b' e' q').content = (Rd.buf b e q).content := by
        rw [h1.content.2]; simp
      cases hmkc : mk (ofBE UInt16 ((Rd.buf b e q).content.take 2)) with
      | error e0 =>
        simp only [Enc.scanLoop, h3.2, hmkc]
        constructor
        · intro h
          simp only [Option.some.injEq] at h
          exact .here h3.1 (h ▸ hmkc)
        · intro h
          cases h with
          | here _ h => rw [hmkc] at h; simp only [Except.error.injEq] at h; rw [h]
          | next _ h => rw [hmkc] at h; simp at h
      | ok z =>
        have g := hs z (.buf b' e' q') h2
        rw [hl1] at g
        rcases hst : st z (.buf b' e' q') with ⟨v, n1, ee, r1⟩
        rw [hst] at g
        rcases hTk : T z (Rd.buf b e q).content with _ | k
        · rw [hTk] at g
          obtain ⟨e1, g1, g2⟩ := g
          simp only at g1; subst g1
          simp only [Enc.scanLoop, h3.2, hmkc, hst]
          constructor
          · intro h; exact absurd (skipEOF_some h).symm g2
          · intro h
            cases h with
            | here _ h => rw [hmkc] at h; simp at h
            | next _ h h' => rw [hmkc] at h; cases h; rw [hTk] at h'; simp at h'
        · rw [hTk] at g
          obtain ⟨g1, g2, g3⟩ := g
          simp only at g1 g2 g3; subst g1
          obtain ⟨b2, e2, q2, hb2⟩ := g2.isBuf
          subst hb2
          have hc2 : (Rd.buf b2 e2 q2).content = (Rd.buf b e q).content.drop k := by
            rw [g2.content.2, hl1]
          have hk := hT _ _ _ hTk
          have hle : (Rd.buf b2 e2 q2).content.length < fuel := by
            rw [hc2, List.length_drop]; omega
          simp only [Enc.scanLoop, h3.2, hmkc, hst]
          rw [ih _ _ b2 e2 q2 g3 hle, hc2]
          constructor
          · intro h; exact .next h3.1 hmkc hTk h
          · intro h
            cases h with
            | here _ h => rw [hmkc] at h; simp at h
            | next _ h h' h'' =>
              rw [hmkc] at h; cases h; rw [hTk] at h'; cases h'; exact h''
    · simp only [Enc.scanLoop, h3.2]
      constructor
      · intro h; simp [skipEOF] at h
      · intro h; cases h <;> omega

theorem PanicIff.scanFrom {mk : UInt16 → Except Err τ} {st : Step τ} {T : τ → Bytes → Option Nat}
    (hs : Sized st T) (hT : ∀ z b k, T z b = some k → 0 < k) :
    PanicIff (Enc.scanFrom mk st) (fun _ => ScanPanic mk T) := by
  intro s r hr
  obtain ⟨b, e, q, hw⟩ := Rd.wrapBuf_isBuf r
  have hcw := Rd.content_wrapBuf r
  have how := hr.wrapBuf
  rw [hw] at hcw how
  have := scanLoop_panicIff (mk := mk) hs hT (r.content.length + 1) s 0 b e q how (by rw [hcw]; omega)
  rw [hcw] at this
  simpa [Enc.scanFrom, hw] using this

/-- The bytes the decoder of an action takes from the front of `b`. -/
def Action.take : Action → Bytes → Option Nat
  | .output _ _, b => if 16 ≤ b.length then some 16 else none
  | .setField _, b => sfTake b
  | _, b => if 8 ≤ b.length then some 8 else none

theorem Action.take_pos (a : Action) (b : Bytes) (k : Nat) (h : a.take b = some k) : 0 < k := by
  unfold Action.take at h
  split at h
  · split at h <;> simp at h; omega
  · unfold sfTake at h
    split at h
    · split at h <;> simp at h; omega
    · simp at h
  · split at h <;> simp at h; omega

theorem Action.readFrom_sized : Sized Action.readFrom Action.take := by
  intro a r hr
  have h1 : Flat (skipActionHeader (σ := UInt32 × UInt16)) 4 := fun s r hr => actionHeader.flat _ r hr
  have h2 : Flat (skipActionHeader (σ := UInt8)) 4 := fun s r hr => actionHeader.flat _ r hr
  have key : ∀ {β : Type} (f : β → Action) (st : Step β) (t : β) (k : Nat), Flat st k →
      match (if k ≤ r.content.length then some k else none) with
      | some k => (Enc.wrap f st t r).err = none ∧ Rd.Adv k r (Enc.wrap f st t r).rd ∧ (Enc.wrap f st t r).rd.Ok .eof
      | none => ∃ e, (Enc.wrap f st t r).err = some e ∧ e ≠ .panic := fun f st t k h => h.sized t r hr
  cases a with
  | setField f => exact setField_sized f r hr
  | output p m => exact key _ _ _ (4 + (Wire.size UInt32 + (Wire.size UInt16 + (6 + 0)))) (by flat)
  | copyTTLOut => exact key _ _ _ (8 + 0) (by flat)
  | copyTTLIn => exact key _ _ _ (8 + 0) (by flat)
  | decMPLSTTL => exact key _ _ _ (8 + 0) (by flat)
  | popVLAN => exact key _ _ _ (8 + 0) (by flat)
  | decNwTTL => exact key _ _ _ (8 + 0) (by flat)
  | setMPLSTTL => exact key _ _ _ (4 + (Wire.size UInt8 + (3 + 0))) (by flat)
  | setNwTTL => exact key _ _ _ (4 + (Wire.size UInt8 + (3 + 0))) (by flat)
  | pushVLAN => exact key _ _ _ (4 + (Wire.size UInt16 + (2 + 0))) (by flat)
  | pushMPLS => exact key _ _ _ (4 + (Wire.size UInt16 + (2 + 0))) (by flat)
  | popMPLS => exact key _ _ _ (4 + (Wire.size UInt16 + (2 + 0))) (by flat)
  | pushPBB => exact key _ _ _ (4 + (Wire.size UInt16 + (2 + 0))) (by flat)
  | setQueue => exact key _ _ _ (4 + (Wire.size UInt32 + 0)) (by flat)
  | group => exact key _ _ _ (4 + (Wire.size UInt32 + 0)) (by flat)
  | experimenter => exact key _ _ _ (4 + (Wire.size UInt32 + 0)) (by flat)

theorem Actions.readFrom_panicIff :
    PanicIff Actions.readFrom (fun _ => ScanPanic actionMake Action.take) := by
  refine PanicIff.assign (Q := fun _ => ScanPanic actionMake Action.take) ?_
  intro s r hr
  rw [readFrom_one]
  exact PanicIff.scanFrom Action.readFrom_sized Action.take_pos s r hr

end Verif
