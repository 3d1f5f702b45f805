import Verif.Scan

/-!
# Decoders on inputs that end or go wrong inside

`Fails st s b e`: started with `s`, the step fails with `e` on every input that begins with
`b`.  `FailsAll st s b e`: on the input `b`.
-/

namespace Verif

variable {σ τ : Type}

def Fails (st : Step σ) (s : σ) (b : Bytes) (e : Err) : Prop :=
  ∀ (r : Rd) (tail : Bytes), r.Ok .eof → r.content = b ++ tail → (st s r).err = some e

def FailsAll (st : Step σ) (s : σ) (b : Bytes) (e : Err) : Prop :=
  ∀ r : Rd, r.Ok .eof → r.content = b → (st s r).err = some e

theorem Fails.all {st : Step σ} {s : σ} {b : Bytes} {e : Err} (h : Fails st s b e) (tail : Bytes) :
    FailsAll st s (b ++ tail) e := fun r hr hc => h r tail hr hc

theorem Fails.here {st : Step σ} {t : List (Step σ)} {s : σ} {b : Bytes} {e : Err}
    (h : Fails st s b e) : Fails (Enc.readFrom (st :: t)) s b e := by
  intro r tail hr hc
  have := h r tail hr hc
  rcases hst : st s r with ⟨v, n, e', r1⟩
  rw [hst] at this; simp only at this; subst this
  simp [Enc.readFrom, hst]

theorem FailsAll.here {st : Step σ} {t : List (Step σ)} {s : σ} {b : Bytes} {e : Err}
    (h : FailsAll st s b e) : FailsAll (Enc.readFrom (st :: t)) s b e := by
  intro r hr hc
  have := h r hr hc
  rcases hst : st s r with ⟨v, n, e', r1⟩
  rw [hst] at this; simp only at this; subst this
  simp [Enc.readFrom, hst]

theorem Fails.cons {st : Step σ} {t : List (Step σ)} {s s1 : σ} {b1 b2 : Bytes} {e : Err}
    (h1 : Reads st s b1 s1) (h2 : Fails (Enc.readFrom t) s1 b2 e) :
    Fails (Enc.readFrom (st :: t)) s (b1 ++ b2) e := by
  intro r tail hr hc
  obtain ⟨r1, e1, a1, o1⟩ := h1 r (b2 ++ tail) hr (by rw [hc, List.append_assoc])
  have := h2 r1 tail o1 (by rw [a1.content.2, hc, List.append_assoc]; simp)
  simp only [Enc.readFrom, e1, this]

theorem FailsAll.cons {st : Step σ} {t : List (Step σ)} {s s1 : σ} {b1 b2 : Bytes} {e : Err}
    (h1 : Reads st s b1 s1) (h2 : FailsAll (Enc.readFrom t) s1 b2 e) :
    FailsAll (Enc.readFrom (st :: t)) s (b1 ++ b2) e := by
  intro r hr hc
  obtain ⟨r1, e1, a1, o1⟩ := h1 r b2 hr hc
  have := h2 r1 o1 (by rw [a1.content.2, hc]; simp)
  simp only [Enc.readFrom, e1, this]

theorem Fails.assignCons {f : σ → σ} {t : List (Step σ)} {s : σ} {b : Bytes} {e : Err}
    (h : Fails (Enc.readFrom t) (f s) b e) : Fails (Enc.readFrom (Enc.assign f :: t)) s b e := by
  have := Fails.cons (t := t) (Reads.assign (f := f) (s := s)) h
  simpa using this

theorem FailsAll.assignCons {f : σ → σ} {t : List (Step σ)} {s : σ} {b : Bytes} {e : Err}
    (h : FailsAll (Enc.readFrom t) (f s) b e) : FailsAll (Enc.readFrom (Enc.assign f :: t)) s b e := by
  have := FailsAll.cons (t := t) (Reads.assign (f := f) (s := s)) h
  simpa using this

theorem Fails.sub {get : σ → τ} {set : τ → σ → σ} {st : Step τ} {s : σ} {b : Bytes} {e : Err}
    (h : Fails st (get s) b e) : Fails (Enc.sub get set st) s b e := h

theorem FailsAll.sub {get : σ → τ} {set : τ → σ → σ} {st : Step τ} {s : σ} {b : Bytes} {e : Err}
    (h : FailsAll st (get s) b e) : FailsAll (Enc.sub get set st) s b e := h

theorem Fails.subVal {get : σ → τ} {st : Step τ} {s : σ} {b : Bytes} {e : Err}
    (h : Fails st (get s) b e) : Fails (Enc.subVal get st) s b e := h

theorem FailsAll.subVal {get : σ → τ} {st : Step τ} {s : σ} {b : Bytes} {e : Err}
    (h : FailsAll st (get s) b e) : FailsAll (Enc.subVal get st) s b e := h

theorem Fails.dyn {f : σ → Step σ} {s : σ} {b : Bytes} {e : Err} (h : Fails (f s) s b e) :
    Fails (Enc.dyn f) s b e := h

theorem FailsAll.dyn {f : σ → Step σ} {s : σ} {b : Bytes} {e : Err} (h : FailsAll (f s) s b e) :
    FailsAll (Enc.dyn f) s b e := h

theorem Fails.withLocal {l : Type} {init : l} {st : Step (σ × l)} {s : σ} {b : Bytes} {e : Err}
    (h : Fails st (s, init) b e) : Fails (Enc.withLocal init st) s b e := h

theorem FailsAll.withLocal {l : Type} {init : l} {st : Step (σ × l)} {s : σ} {b : Bytes} {e : Err}
    (h : FailsAll st (s, init) b e) : FailsAll (Enc.withLocal init st) s b e := h

theorem FailsAll.always {f : σ → σ} {st : Step σ} {s : σ} {b : Bytes} {e : Err}
    (h : FailsAll st s b e) : FailsAll (Enc.always f st) s b e := h

/-- The limit is beyond the trouble. -/
theorem Fails.limited {n : Nat} {st : Step σ} {s : σ} {b : Bytes} {e : Err} (h : Fails st s b e)
    (hn : b.length ≤ n) : Fails (Enc.limited n st) s b e := by
  intro r tail hr hc
  exact h (.lim n r) (tail.take (n - b.length)) ⟨rfl, hr⟩ (by
    simp only [Rd.content, hc]
    rw [List.take_append, List.take_of_length_le hn])

/-- The trouble extends to the end of the limited part. -/
theorem FailsAll.limit {n : Nat} {st : Step σ} {s : σ} {b : Bytes} {e : Err} (h : FailsAll st s b e)
    (hn : n = b.length) : Fails (Enc.limited n st) s b e := by
  intro r tail hr hc
  exact h (.lim n r) ⟨rfl, hr⟩ (by simp [Rd.content, hc, hn])

/-- The input ends before the limit. -/
theorem FailsAll.limited {n : Nat} {st : Step σ} {s : σ} {b : Bytes} {e : Err} (h : FailsAll st s b e)
    (hn : b.length ≤ n) : FailsAll (Enc.limited n st) s b e := by
  intro r hr hc
  exact h (.lim n r) ⟨rfl, hr⟩ (by simp only [Rd.content, hc]; exact List.take_of_length_le hn)

/-! ## Inputs that end inside -/

variable {d : Nat}

/-- The reader is not a `bufio.Reader`. -/
def Rd.NotBuf : Rd → Prop
  | .buf .. => False
  | _ => True

theorem Rd.NotBuf.adv {m : Nat} {r r' : Rd} (h : r.NotBuf) (a : Rd.Adv m r r') : r'.NotBuf := by
  cases r <;> cases r' <;> simp_all [Rd.NotBuf, Rd.Adv]

/-- On the input `b` the step ends with the error `eo`, the receiver satisfies `V`, and at
most `d` bytes are left; none, unless the reader is a `bufio.Reader`. -/
def Stops (st : Step σ) (s : σ) (b : Bytes) (eo : Option Err) (V : σ → Prop) (d : Nat := 1) : Prop :=
  ∀ r : Rd, r.Ok .eof → r.content = b →
    (st s r).err = eo ∧ V (st s r).val ∧ (st s r).rd.Ok .eof ∧
      ∃ m, Rd.Adv m r (st s r).rd ∧ b.length ≤ m + d ∧ (r.NotBuf → b.length ≤ m)

theorem Stops.failsAll {st : Step σ} {s : σ} {b : Bytes} {e : Err} {V : σ → Prop}
    (h : Stops st s b (some e) V d) : FailsAll st s b e := fun r hr hc => (h r hr hc).1

theorem Stops.mono {st : Step σ} {s : σ} {b : Bytes} {eo : Option Err} {V W : σ → Prop}
    (h : Stops st s b eo V d) (hVW : ∀ v, V v → W v) : Stops st s b eo W d := fun r hr hc =>
  let h := h r hr hc
  ⟨h.1, hVW _ h.2.1, h.2.2⟩

theorem ReadsAll.stops {st : Step σ} {s s' : σ} {b : Bytes} (h : ReadsAll st s b s') :
    Stops st s b none (· = s') d := by
  intro r hr hc
  obtain ⟨r', h1, h2, h3⟩ := h r hr hc
  rw [h1]
  exact ⟨rfl, rfl, h3, _, h2, by omega, fun _ => by omega⟩

theorem Fields.stops {st : Step σ} {ks : List Nat} (h : Fields st ks) {s : σ} {b : Bytes}
    (hb : b.length < ks.sum) :
    Stops st s b (some (if b.length ∈ cuts ks then .eof else .unexpectedEOF)) (fun _ => True) d := by
  intro r hr hc
  rw [← hc] at hb ⊢
  obtain ⟨ho, ha, _, hk⟩ := h.1 s r hr
  obtain ⟨⟨e, he, hs⟩, hn⟩ := hk hb
  have := h.2 s r hr hb
  refine ⟨?_, trivial, ho, _, ha, by omega, fun _ => by omega⟩
  split
  · rename_i hm; exact this.2 hm
  · rename_i hm
    rw [he] at this ⊢
    rcases hs with rfl | rfl
    · exact absurd (this.1 rfl) hm
    · rfl

/-- A short field leaves the receiver alone. -/
theorem Stops.bin {k : Nat} {set : Bytes → σ → σ} {s : σ} {b : Bytes} (hb : b.length < k) :
    Stops (Enc.bin k set) s b (some (if b = [] then .eof else .unexpectedEOF)) (· = s) d := by
  intro r hr hc
  obtain ⟨hl, r', h1, h2, h3⟩ := (readFull_spec .eof k r hr).resolve_left (by rw [hc]; omega)
  simp only [Enc.bin, h1]
  refine ⟨?_, trivial, h3, _, h2, by rw [hc]; omega, fun _ => by rw [hc]; omega⟩
  unfold shortErr
  rw [hc]
  split <;> simp_all

theorem Stops.num {α : Type} [Wire α] {set : α → σ → σ} {s : σ} {b : Bytes} (hb : b.length < Wire.size α) :
    Stops (Enc.num set) s b (some (if b = [] then .eof else .unexpectedEOF)) (· = s) d := Stops.bin hb

theorem Stops.skip {k : Nat} {s : σ} {b : Bytes} (hb : b.length < k) :
    Stops (Enc.skip k) s b (some (if b = [] then .eof else .unexpectedEOF)) (· = s) d := Stops.bin hb

theorem Stops.here {st : Step σ} {t : List (Step σ)} {s : σ} {b : Bytes} {e : Err} {V : σ → Prop}
    (h : Stops st s b (some e) V d) : Stops (Enc.readFrom (st :: t)) s b (some e) V d := by
  intro r hr hc
  obtain ⟨h1, h2, h3, h4⟩ := h r hr hc
  rcases hst : st s r with ⟨v, n, e', r1⟩
  rw [hst] at h1 h2 h3 h4; simp only at h1 h2 h3 h4; subst h1
  simp only [Enc.readFrom, hst]
  exact ⟨trivial, h2, h3, h4⟩

theorem Stops.pre {l t : List (Step σ)} {s : σ} {b : Bytes} {e : Err} {V : σ → Prop}
    (h : Stops (Enc.readFrom l) s b (some e) V d) : Stops (Enc.readFrom (l ++ t)) s b (some e) V d := by
  have key : ∀ (l : List (Step σ)) (s : σ) (r : Rd) (e : Err), (Enc.readFrom l s r).err = some e →
      Enc.readFrom (l ++ t) s r = Enc.readFrom l s r := by
    intro l
    induction l with
    | nil => intro s r e h; simp [Enc.readFrom] at h
    | cons st l ih =>
      intro s r e h
      rcases hst : st s r with ⟨v, n, ee, r1⟩
      cases ee with
      | some ee => simp [Enc.readFrom, hst]
      | none =>
        simp only [Enc.readFrom, hst, List.cons_append] at h ⊢
        rw [ih v r1 e h]
  intro r hr hc
  rw [key l s r e (h r hr hc).1]
  exact h r hr hc

theorem Stops.last {st : Step σ} {s : σ} {b : Bytes} {eo : Option Err} {V : σ → Prop}
    (h : Stops st s b eo V d) : Stops (Enc.readFrom [st]) s b eo V d := by
  cases eo with
  | some e => exact h.here
  | none =>
    intro r hr hc
    obtain ⟨h1, h2, h3, h4⟩ := h r hr hc
    rcases hst : st s r with ⟨v, n, e', r1⟩
    rw [hst] at h1 h2 h3 h4; simp only at h1 h2 h3 h4; subst h1
    simp only [Enc.readFrom, hst]
    exact ⟨trivial, h2, h3, h4⟩

theorem Stops.cons {st : Step σ} {t : List (Step σ)} {s s1 : σ} {b1 b2 : Bytes} {eo : Option Err}
    {V : σ → Prop} (h1 : Reads st s b1 s1) (h2 : Stops (Enc.readFrom t) s1 b2 eo V d) :
    Stops (Enc.readFrom (st :: t)) s (b1 ++ b2) eo V d := by
  intro r hr hc
  obtain ⟨r1, e1, a1, o1⟩ := h1 r b2 hr hc
  obtain ⟨h3, h4, h5, m, h6, h7, h8⟩ := h2 r1 o1 (by rw [a1.content.2, hc]; simp)
  simp only [Enc.readFrom, e1]
  refine ⟨h3, h4, h5, _, a1.trans h6, by rw [List.length_append]; omega, fun hn => ?_⟩
  have := h8 (hn.adv a1)
  rw [List.length_append]; omega

theorem Stops.assignCons {f : σ → σ} {t : List (Step σ)} {s : σ} {b : Bytes} {eo : Option Err}
    {V : σ → Prop} (h : Stops (Enc.readFrom t) (f s) b eo V d) :
    Stops (Enc.readFrom (Enc.assign f :: t)) s b eo V d := by
  have := Stops.cons (t := t) (Reads.assign (f := f) (s := s)) h
  simpa using this

theorem Stops.sub {get : σ → τ} {set : τ → σ → σ} {st : Step τ} {s : σ} {b : Bytes} {eo : Option Err}
    {V : τ → Prop} (h : Stops st (get s) b eo V d) :
    Stops (Enc.sub get set st) s b eo (fun x => ∃ v, V v ∧ x = set v s) d := fun r hr hc =>
  let h := h r hr hc
  ⟨h.1, ⟨_, h.2.1, rfl⟩, h.2.2⟩

theorem Stops.subVal {get : σ → τ} {st : Step τ} {s : σ} {b : Bytes} {eo : Option Err}
    {V : τ → Prop} (h : Stops st (get s) b eo V d) :
    Stops (Enc.subVal get st) s b eo (· = s) d := fun r hr hc =>
  let h := h r hr hc
  ⟨h.1, rfl, h.2.2⟩

theorem Stops.dyn {f : σ → Step σ} {s : σ} {b : Bytes} {eo : Option Err} {V : σ → Prop}
    (h : Stops (f s) s b eo V d) : Stops (Enc.dyn f) s b eo V d := h

theorem Stops.withLocal {l : Type} {init : l} {st : Step (σ × l)} {s : σ} {b : Bytes} {eo : Option Err}
    {V : σ × l → Prop} (h : Stops st (s, init) b eo V d) :
    Stops (Enc.withLocal init st) s b eo (fun x => ∃ y, V (x, y)) d := fun r hr hc =>
  let h := h r hr hc
  ⟨h.1, ⟨_, h.2.1⟩, h.2.2⟩

/-- The input ends before the limit.  Nothing is left: the limited reader is not a
`bufio.Reader`. -/
theorem Stops.limited {n : Nat} {st : Step σ} {s : σ} {b : Bytes} {eo : Option Err} {V : σ → Prop}
    (h : Stops st s b eo V) (hn : b.length ≤ n) : Stops (Enc.limited n st) s b eo V d := by
  intro r hr hc
  obtain ⟨h1, h2, h3, m, h4, h5, h6⟩ := h (.lim n r) ⟨rfl, hr⟩
    (by simp only [Rd.content, hc]; exact List.take_of_length_le hn)
  have h6 := h6 trivial
  exact ⟨h1, h2, h3.unlimit h4, m, h4.unlimit, by omega, fun _ => h6⟩

theorem Stops.wrap {f : τ → σ} {st : Step τ} {dec : Step σ} {s : σ} {t : τ} {b : Bytes} {eo : Option Err}
    {V : τ → Prop} (h : Stops st t b eo V d) (hd : ∀ r, dec s r = Enc.wrap f st t r) :
    Stops dec s b eo (fun x => ∃ v, V v ∧ x = f v) d := by
  intro r hr hc
  have h := h r hr hc
  rw [hd r]
  exact ⟨h.1, ⟨_, h.2.1, rfl⟩, h.2.2⟩

section
variable {mk : UInt16 → Except Err τ} {st : Step τ} {enc : τ → Bytes} {zero : τ → τ} {code : τ → UInt16}

/-- The loop of `ScanFrom` goes through well-formed elements. -/
theorem scanLoop_through (xs : List τ) (h : ∀ x ∈ xs, Reads st (zero x) (enc x) x)
    (hmk : ∀ x ∈ xs, mk (code x) = .ok (zero x))
    (hcode : ∀ x ∈ xs, ∃ t, enc x = be (code x) ++ t) (b0 : Bytes) :
    ∀ (fuel : Nat) (acc : List τ) (n : Nat) (b : Bytes) (e : Option Err) (r0 : Rd),
      (Rd.buf b e r0).Ok .eof → (Rd.buf b e r0).content = xs.flatMap enc ++ b0 →
      (Rd.buf b e r0).content.length < fuel →
      ∃ fuel' b' e' r', (Rd.buf b' e' r').Ok .eof ∧ (Rd.buf b' e' r').content = b0 ∧ b0.length < fuel' ∧
        Rd.Adv (xs.flatMap enc).length (.buf b e r0) (.buf b' e' r') ∧
        Enc.scanLoop mk st fuel acc n (.buf b e r0) =
          Enc.scanLoop mk st fuel' (acc ++ xs) (n + (xs.flatMap enc).length) (.buf b' e' r') := by
  induction xs with
  | nil =>
    intro fuel acc n b e r0 hr hc hf
    refine ⟨fuel, b, e, r0, hr, by simpa using hc, ?_, by simpa using Rd.Adv.refl _, by simp⟩
    simpa [hc] using hf
  | cons x xs ih =>
    intro fuel acc n b e r0 hr hc hf
    cases fuel with
    | zero => omega
    | succ fuel =>
      obtain ⟨t, ht⟩ := hcode x (by simp)
      have hlen : 2 ≤ (enc x).length := by rw [ht]; simp
      have hcl : (Rd.buf b e r0).content.length =
          (enc x).length + (xs.flatMap enc ++ b0).length := by
        rw [hc]; simp
      obtain ⟨b', e', r', h1, h2, h3 | h3⟩ := peek2_spec .eof b e r0 hr
      · have htk : (Rd.buf b e r0).content.take 2 = be (code x) := by
          rw [hc, List.flatMap_cons, ht]
          simp only [List.append_assoc]
          rw [List.take_append_of_le_length (by simp), List.take_of_length_le (by simp)]
        have hc' : (Rd.buf b' e' r').content = enc x ++ (xs.flatMap enc ++ b0) := by
          rw [h1.content.2, hc]; simp
        obtain ⟨r1, e1, a1, o1⟩ := h x (by simp) (.buf b' e' r') _ h2 hc'
        obtain ⟨b2, e2, r2, hb2⟩ := a1.isBuf
        subst hb2
        have hc2 : (Rd.buf b2 e2 r2).content = xs.flatMap enc ++ b0 := by
          rw [a1.content.2, hc']; simp
        obtain ⟨fuel', b3, e3, r3, g1, g2, g3, g4, g5⟩ := ih (fun y hy => h y (by simp [hy]))
          (fun y hy => hmk y (by simp [hy])) (fun y hy => hcode y (by simp [hy]))
          fuel (acc ++ [x]) (n + (enc x).length) b2 e2 r2 o1 hc2 (by rw [hc2]; omega)
        refine ⟨fuel', b3, e3, r3, g1, g2, g3, ?_, ?_⟩
        · have := (h1.trans a1).trans g4
          simpa using this
        · simp only [Enc.scanLoop, h3.2, htk, ofBE_be, hmk x (by simp), e1, g5]
          simp [Nat.add_assoc]
      · omega

theorem scanLoop_end (b0 : Bytes) (hb : b0.length < 2) (fuel : Nat) (acc : List τ) (n : Nat) (b : Bytes)
    (e : Option Err) (r0 : Rd) (hr : (Rd.buf b e r0).Ok .eof) (hc : (Rd.buf b e r0).content = b0)
    (hf : b0.length < fuel) : ∃ b' e' r', Enc.scanLoop mk st fuel acc n (.buf b e r0) = ⟨acc, n, none, .buf b' e' r'⟩ ∧
      Rd.Adv 0 (.buf b e r0) (.buf b' e' r') ∧ (Rd.buf b' e' r').Ok .eof ∧ r'.content = [] := by
  cases fuel with
  | zero => omega
  | succ fuel =>
    obtain ⟨b', r', h1, h2, h3, h4⟩ := peek2_short hr (by rw [hc]; exact hb)
    exact ⟨b', none, r', by simp [Enc.scanLoop, h4, skipEOF], h1, ⟨h2, .inl rfl⟩, h3⟩

/-- What the caller is left with when nothing is left below the `bufio.Reader`. -/
theorem unwrapBuf_empty {k : Nat} {r r' : Rd} {b : Bytes} {e : Option Err} (h : Rd.Adv k r.wrapBuf (.buf b e r'))
    (hc : r'.content = []) : ∃ m, k ≤ m ∧ Rd.Adv m r (r.unwrapBuf (.buf b e r')) ∧
      (r.NotBuf → r.content.length ≤ m) := by
  obtain ⟨m, hm, ha⟩ := unwrapBuf_adv h
  refine ⟨m, hm, ha, fun hn => ?_⟩
  have : (r.unwrapBuf (.buf b e r')).content = [] := by
    cases r <;> simp_all [Rd.unwrapBuf, Rd.NotBuf]
  rw [ha.all this]; exact Nat.le_refl _

/-- After well-formed elements, a single byte: it is ignored. -/
theorem Stops.scanOne (b0 : Bytes) (hb : b0.length < 2) (s xs : List τ)
    (h : ∀ x ∈ xs, Reads st (zero x) (enc x) x) (hmk : ∀ x ∈ xs, mk (code x) = .ok (zero x))
    (hcode : ∀ x ∈ xs, ∃ t, enc x = be (code x) ++ t) :
    Stops (Enc.scanFrom mk st) s (xs.flatMap enc ++ b0) none (· = s ++ xs) := by
  intro r hr hc
  obtain ⟨b, e, r0, hw⟩ := Rd.wrapBuf_isBuf r
  have hcw := Rd.content_wrapBuf r
  have how := hr.wrapBuf
  rw [hw] at hcw how
  obtain ⟨f', b', e', r', g1, g2, g3, g4, g5⟩ := scanLoop_through xs h hmk hcode b0 (r.content.length + 1)
    s 0 b e r0 how (by rw [hcw, hc]) (by rw [hcw]; omega)
  obtain ⟨b2, e2, r2, k1, k2, k3, k4⟩ := scanLoop_end (mk := mk) (st := st) b0 hb f' (s ++ xs)
    (0 + (xs.flatMap enc).length) b' e' r' g1 g2 g3
  have ha := g4.trans k2
  rw [← hw] at ha
  obtain ⟨m, hm, ha, hn⟩ := unwrapBuf_empty ha k4
  simp only [Enc.scanFrom, hw, g5, k1]
  exact ⟨trivial, trivial, k3.unwrapBuf, m, ha, by rw [List.length_append]; omega, by rw [← hc]; exact hn⟩

/-- After well-formed elements, the decoder of the next one stops at the end of the input with
`eo`: the list ends there, with the half-decoded element in it, and the error is `eo` unless
that is `io.EOF`. -/
theorem Stops.scanFrom {b0 : Bytes} {eo : Option Err} {V : τ → Prop} {c : UInt16} {z : τ} {t : Bytes}
    (hb : b0 = be c ++ t) (hz : mk c = .ok z) (hS : Stops st z b0 eo V 0) (s xs : List τ)
    (h : ∀ x ∈ xs, Reads st (zero x) (enc x) x) (hmk : ∀ x ∈ xs, mk (code x) = .ok (zero x))
    (hcode : ∀ x ∈ xs, ∃ t, enc x = be (code x) ++ t) :
    Stops (Enc.scanFrom mk st) s (xs.flatMap enc ++ b0) (eo.bind skipEOF)
      (fun l => ∃ v, V v ∧ l = s ++ xs ++ [v]) := by
  intro r hr hc
  obtain ⟨b, e, r0, hw⟩ := Rd.wrapBuf_isBuf r
  have hcw := Rd.content_wrapBuf r
  have how := hr.wrapBuf
  rw [hw] at hcw how
  obtain ⟨f', b', e', r', g1, g2, g3, g4, g5⟩ := scanLoop_through xs h hmk hcode b0 (r.content.length + 1)
    s 0 b e r0 how (by rw [hcw, hc]) (by rw [hcw]; omega)
  cases f' with
  | zero => omega
  | succ f' =>
    have hl2 : 2 ≤ b0.length := by rw [hb]; simp
    obtain ⟨b2, e2, r2, h1, h2, h3 | h3⟩ := peek2_spec .eof b' e' r' g1
    · have htk : (Rd.buf b' e' r').content.take 2 = be c := by
        rw [g2, hb, List.take_append_of_le_length (by simp), List.take_of_length_le (by simp)]
      have hc' : (Rd.buf b2 e2 r2).content = b0 := by rw [h1.content.2, g2]; simp
      obtain ⟨k1, k2, k3, m, k4, k5, -⟩ := hS _ h2 hc'
      rcases hst : st z (.buf b2 e2 r2) with ⟨v, n1, ee, r3⟩
      rw [hst] at k1 k2 k3 k4; simp only at k1 k2 k3 k4; subst k1
      obtain ⟨b4, e4, r4, hb4⟩ := k4.isBuf
      subst hb4
      have hc4 := k4.content
      rw [hc'] at hc4
      have hl4 : (Rd.buf b4 e4 r4).content = [] := by
        rw [hc4.2]; exact List.drop_eq_nil_of_le (by omega)
      have hl4' : r4.content = [] := by
        simp only [Rd.content, List.append_eq_nil_iff] at hl4; exact hl4.2
      have ha : Rd.Adv ((xs.flatMap enc).length + m) r.wrapBuf (.buf b4 e4 r4) := by
        rw [hw]; simpa using (g4.trans h1).trans k4
      cases ee with
      | some ee =>
        obtain ⟨m', hm', ha', hn⟩ := unwrapBuf_empty ha hl4'
        simp only [Enc.scanFrom, hw, g5]
        simp only [Enc.scanLoop, h3.2, htk, ofBE_be, hz, hst]
        exact ⟨rfl, ⟨v, k2, rfl⟩, k3.unwrapBuf, m', ha', by rw [List.length_append]; omega,
          by rw [← hc]; exact hn⟩
      | none =>
        obtain ⟨b5, e5, r5, j1, j2, j3, j4⟩ := scanLoop_end (mk := mk) (st := st) [] (by simp) f' (s ++ xs ++ [v])
          (0 + (xs.flatMap enc).length + n1) b4 e4 r4 k3 hl4 (by simp; omega)
        have ha5 := ha.trans j2
        obtain ⟨m', hm', ha', hn⟩ := unwrapBuf_empty ha5 j4
        simp only [Enc.scanFrom, hw, g5]
        simp only [Enc.scanLoop, h3.2, htk, ofBE_be, hz, hst, j1]
        exact ⟨rfl, ⟨v, k2, rfl⟩, j3.unwrapBuf, m', ha', by rw [List.length_append]; omega,
          by rw [← hc]; exact hn⟩
    · rw [g2] at h3; omega

end

theorem readFuncLoop_stops {zero : τ} {st : Step τ} {enc : τ → Bytes} {val : τ → τ} (b0 : Bytes) (e0 : Err)
    (h0 : FailsAll st zero b0 e0) (xs : List τ) (h : ∀ x ∈ xs, Reads st zero (enc x) (val x))
    (hpos : ∀ x ∈ xs, 0 < (enc x).length) :
    ∀ (fuel : Nat) (acc : List τ) (n : Nat) (r : Rd), r.Ok .eof →
      r.content = xs.flatMap enc ++ b0 → r.content.length < fuel →
      (Enc.readFuncLoop zero st fuel acc n r).val = acc ++ xs.map val ∧
      (Enc.readFuncLoop zero st fuel acc n r).err = skipEOF e0 := by
  induction xs with
  | nil =>
    intro fuel acc n r hr hc hf
    cases fuel with
    | zero => omega
    | succ fuel =>
      have hF := h0 r hr (by simpa using hc)
      rcases hst : st zero r with ⟨v, n1, ee, r1⟩
      rw [hst] at hF; simp only at hF; subst hF
      simp [Enc.readFuncLoop, hst]
  | cons x xs ih =>
    intro fuel acc n r hr hc hf
    cases fuel with
    | zero => omega
    | succ fuel =>
      have hp := hpos x (by simp)
      obtain ⟨r1, e1, a1, o1⟩ := h x (by simp) r (xs.flatMap enc ++ b0) hr (by rw [hc]; simp)
      have hc2 : r1.content = xs.flatMap enc ++ b0 := by rw [a1.content.2, hc]; simp
      have hcl : r.content.length = (enc x).length + (xs.flatMap enc ++ b0).length := by rw [hc]; simp
      have := ih (fun y hy => h y (by simp [hy])) (fun y hy => hpos y (by simp [hy])) fuel
        (acc ++ [val x]) (n + (enc x).length) r1 o1 hc2 (by rw [hc2]; omega)
      simp only [Enc.readFuncLoop, e1]
      simpa using this

/-! ## What a list decoder reports when it fails -/

theorem scanLoop_mono (mk : UInt16 → Except Err τ) (st : Step τ) :
    ∀ (fuel : Nat) (acc : List τ) (n : Nat) (r : Rd), n ≤ (Enc.scanLoop mk st fuel acc n r).n := by
  intro fuel
  induction fuel with
  | zero => intro acc n r; exact Nat.le_refl _
  | succ fuel ih =>
    intro acc n r
    unfold Enc.scanLoop
    split
    · exact Nat.le_refl _
    · split
      · exact Nat.le_refl _
      · split
        · exact Nat.le_add_right _ _
        · exact Nat.le_trans (Nat.le_add_right _ _) (ih _ _ _)

/-- The count of `ScanFrom` covers the well-formed elements at the start of the input,
whatever follows. -/
theorem scanFrom_count {mk : UInt16 → Except Err τ} {st : Step τ} {enc : τ → Bytes} {zero : τ → τ}
    {code : τ → UInt16} (s xs : List τ) (h : ∀ x ∈ xs, Reads st (zero x) (enc x) x)
    (hmk : ∀ x ∈ xs, mk (code x) = .ok (zero x)) (hcode : ∀ x ∈ xs, ∃ t, enc x = be (code x) ++ t) (b0 : Bytes)
    (r : Rd) (hr : r.Ok .eof) (hc : r.content = xs.flatMap enc ++ b0) :
    (xs.flatMap enc).length ≤ (Enc.scanFrom mk st s r).n := by
  obtain ⟨b, e, r0, hw⟩ := Rd.wrapBuf_isBuf r
  have hcw := Rd.content_wrapBuf r
  have how := hr.wrapBuf
  rw [hw] at hcw how
  obtain ⟨f', b', e', r', g1, g2, g3, g4, g5⟩ := scanLoop_through xs h hmk hcode b0 (r.content.length + 1)
    s 0 b e r0 how (by rw [hcw, hc]) (by rw [hcw]; omega)
  simp only [Enc.scanFrom, hw, g5]
  exact Nat.le_trans (by omega) (scanLoop_mono _ _ _ _ _ _)

theorem readFuncLoop_mono (zero : τ) (st : Step τ) :
    ∀ (fuel : Nat) (acc : List τ) (n : Nat) (r : Rd), n ≤ (Enc.readFuncLoop zero st fuel acc n r).n := by
  intro fuel
  induction fuel with
  | zero => intro acc n r; exact Nat.le_refl _
  | succ fuel ih =>
    intro acc n r
    unfold Enc.readFuncLoop
    split
    · exact Nat.le_add_right _ _
    · exact Nat.le_trans (Nat.le_add_right _ _) (ih _ _ _)

theorem readFuncLoop_count {zero : τ} {st : Step τ} {enc : τ → Bytes} {val : τ → τ} (b0 : Bytes)
    (xs : List τ) (h : ∀ x ∈ xs, Reads st zero (enc x) (val x)) (hpos : ∀ x ∈ xs, 0 < (enc x).length) :
    ∀ (fuel : Nat) (acc : List τ) (n : Nat) (r : Rd), r.Ok .eof →
      r.content = xs.flatMap enc ++ b0 → r.content.length < fuel →
      n + (xs.flatMap enc).length ≤ (Enc.readFuncLoop zero st fuel acc n r).n := by
  induction xs with
  | nil => intro fuel acc n r hr hc hf; exact readFuncLoop_mono _ _ _ _ _ _
  | cons x xs ih =>
    intro fuel acc n r hr hc hf
    cases fuel with
    | zero => omega
    | succ fuel =>
      have hp := hpos x (by simp)
      obtain ⟨r1, e1, a1, o1⟩ := h x (by simp) r (xs.flatMap enc ++ b0) hr (by rw [hc]; simp)
      have hc2 : r1.content = xs.flatMap enc ++ b0 := by rw [a1.content.2, hc]; simp
      have hcl : r.content.length = (enc x).length + (xs.flatMap enc ++ b0).length := by rw [hc]; simp
      have := ih (fun y hy => h y (by simp [hy])) (fun y hy => hpos y (by simp [hy])) fuel
        (acc ++ [val x]) (n + (enc x).length) r1 o1 hc2 (by rw [hc2]; omega)
      simp only [Enc.readFuncLoop, e1, List.flatMap_cons, List.length_append]
      omega

theorem readSliceFrom_count {zero : τ} {st : Step τ} {enc : τ → Bytes} {val : τ → τ} (b0 : Bytes)
    (s xs : List τ) (h : ∀ x ∈ xs, Reads st zero (enc x) (val x)) (hpos : ∀ x ∈ xs, 0 < (enc x).length)
    (r : Rd) (hr : r.Ok .eof) (hc : r.content = xs.flatMap enc ++ b0) :
    (xs.flatMap enc).length ≤ (Enc.readSliceFrom zero st s r).n := by
  have := readFuncLoop_count b0 xs h hpos (r.content.length + 1) [] 0 r hr hc (by omega)
  simpa [Enc.readSliceFrom, Enc.readFunc] using this

end Verif
