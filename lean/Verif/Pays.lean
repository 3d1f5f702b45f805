import Verif.Counts
import Verif.Spec.Held

/-!
# What decoded values cost

`Pays K D μ st`: the step makes its receiver bigger, as `μ` measures it, by at most `K` for each
byte that it takes from the reader; when it fails it may exceed that by `D`.
-/

namespace Verif

variable {σ τ : Type}

def Pays (K D : Nat) (μ : σ → Nat) (st : Step σ) : Prop :=
  ∀ s r, r.Ok .eof → ∃ m, Rd.Adv m r (st s r).rd ∧ (st s r).rd.Ok .eof ∧
    ((st s r).err = none → μ (st s r).val ≤ μ s + K * m) ∧ μ (st s r).val ≤ μ s + K * m + D

/-- The same with room for the element itself, if there is a byte to start with. -/
def Bills (K D : Nat) (μ : σ → Nat) (st : Step σ) : Prop :=
  ∀ s r, r.Ok .eof → 0 < r.content.length → ∃ m, Rd.Adv m r (st s r).rd ∧ (st s r).rd.Ok .eof ∧
    ((st s r).err = none → μ (st s r).val + 1 ≤ μ s + K * m) ∧
      μ (st s r).val + 1 ≤ μ s + K * m + D

theorem listSize_append (f : τ → Nat) (a b : List τ) : listSize f (a ++ b) = listSize f a + listSize f b := by
  induction a with
  | nil => simp [listSize]
  | cons x a ih => simp [listSize, ih]; omega

theorem listSize_snoc (f : τ → Nat) (a : List τ) (x : τ) : listSize f (a ++ [x]) = listSize f a + f x + 1 := by
  rw [listSize_append]; simp [listSize]; omega

theorem Pays.bin {K D k : Nat} {μ : σ → Nat} {set : Bytes → σ → σ}
    (h : ∀ b s, b.length = k → μ (set b s) ≤ μ s + K * k) : Pays K D μ (Enc.bin k set) := by
  intro s r hr
  rcases readFull_spec .eof k r hr with ⟨hk, r', h1, h2, h3⟩ | ⟨hk, r', h1, h2, h3⟩
  · have := h (r.content.take k) s (by simp; omega)
    simp only [Enc.bin, h1]
    exact ⟨k, h2, h3, fun _ => this, by omega⟩
  · simp only [Enc.bin, h1]
    exact ⟨_, h2, h3, fun h => by simp at h, by omega⟩

theorem Pays.num {α : Type} [Wire α] {K D : Nat} {μ : σ → Nat} {set : α → σ → σ}
    (h : ∀ x s, μ (set x s) ≤ μ s) : Pays K D μ (Enc.num set) :=
  Pays.bin fun _ _ _ => Nat.le_trans (h _ _) (Nat.le_add_right _ _)

theorem Pays.skip {K D k : Nat} {μ : σ → Nat} : Pays K D μ (Enc.skip k) :=
  Pays.bin fun _ _ _ => Nat.le_add_right _ _

theorem Pays.assign {K D : Nat} {μ : σ → Nat} {f : σ → σ} (h : ∀ s, μ (f s) ≤ μ s) :
    Pays K D μ (Enc.assign f) := fun s r hr =>
  ⟨0, Rd.Adv.refl r, hr, fun _ => h s, Nat.le_trans (h s) (by omega)⟩

theorem Pays.nil {K D : Nat} {μ : σ → Nat} : Pays K D μ (Enc.readFrom []) := fun s r hr =>
  ⟨0, Rd.Adv.refl r, hr, fun _ => Nat.le_refl _, by simp only [Enc.readFrom]; omega⟩

theorem Pays.cons {K D : Nat} {μ : σ → Nat} {st : Step σ} {t : List (Step σ)} (h1 : Pays K D μ st)
    (h2 : Pays K D μ (Enc.readFrom t)) : Pays K D μ (Enc.readFrom (st :: t)) := by
  intro s r hr
  obtain ⟨m, a, o, p, q⟩ := h1 s r hr
  rcases hst : st s r with ⟨v, n, e, r1⟩
  rw [hst] at a o p q
  cases e with
  | some e => simp only [Enc.readFrom, hst]; exact ⟨m, a, o, fun h => by simp at h, q⟩
  | none =>
    obtain ⟨m2, a2, o2, p2, q2⟩ := h2 v r1 o
    have hp := p rfl
    simp only [Enc.readFrom, hst] at *
    have : K * (m + m2) = K * m + K * m2 := Nat.mul_add ..
    exact ⟨m + m2, a.trans a2, o2, fun h => by have := p2 h; omega, by omega⟩

theorem Pays.andThen {K D : Nat} {μ : σ → Nat} {st : Step σ} {f : Nat → Step σ} (h1 : Pays K D μ st)
    (h2 : ∀ n, Pays K D μ (f n)) : Pays K D μ (Enc.andThen st f) := by
  intro s r hr
  obtain ⟨m, a, o, p, q⟩ := h1 s r hr
  rcases hst : st s r with ⟨v, n, e, r1⟩
  rw [hst] at a o p q
  cases e with
  | some e => simp only [Enc.andThen, hst]; exact ⟨m, a, o, fun h => by simp at h, q⟩
  | none =>
    obtain ⟨m2, a2, o2, p2, q2⟩ := h2 n v r1 o
    have hp := p rfl
    simp only [Enc.andThen, hst] at *
    have : K * (m + m2) = K * m + K * m2 := Nat.mul_add ..
    exact ⟨m + m2, a.trans a2, o2, fun h => by have := p2 h; omega, by omega⟩

theorem Pays.sub {K D : Nat} {μ : σ → Nat} {ν : τ → Nat} {get : σ → τ} {set : τ → σ → σ} {st : Step τ}
    (h : Pays K D ν st) (hs : ∀ x s, μ (set x s) + ν (get s) ≤ μ s + ν x) :
    Pays K D μ (Enc.sub get set st) := by
  intro s r hr
  obtain ⟨m, a, o, p, q⟩ := h (get s) r hr
  have h1 := hs (st (get s) r).val s
  exact ⟨m, a, o, fun h => by have := p h; simp only [Enc.sub]; omega, by simp only [Enc.sub]; omega⟩

theorem Pays.subVal {K D : Nat} {μ : σ → Nat} {E : Err → Prop} {get : σ → τ} {st : Step τ} (h : Safe E st) :
    Pays K D μ (Enc.subVal get st) := by
  intro s r hr
  obtain ⟨⟨m, _, a⟩, o, _⟩ := h (get s) r hr
  exact ⟨m, a, o, fun _ => Nat.le_add_right _ _, by simp only [Enc.subVal]; omega⟩

theorem Pays.dyn {K D : Nat} {μ : σ → Nat} {f : σ → Step σ} (h : ∀ s, Pays K D μ (f s)) :
    Pays K D μ (Enc.dyn f) := fun s r hr => h s s r hr

theorem Pays.withLocal {K D : Nat} {μ : σ → Nat} {l : Type} {init : l} {st : Step (σ × l)}
    (h : Pays K D (fun s => μ s.1) st) : Pays K D μ (Enc.withLocal init st) := fun s r hr =>
  h (s, init) r hr

theorem Pays.limited {K D n : Nat} {μ : σ → Nat} {st : Step σ} (h : Pays K D μ st) :
    Pays K D μ (Enc.limited n st) := by
  intro s r hr
  obtain ⟨m, a, o, p, q⟩ := h s (.lim n r) ⟨rfl, hr⟩
  exact ⟨m, a.unlimit, o.unlimit a, p, q⟩

theorem Pays.rest {K D : Nat} {μ : σ → Nat} {set : Bytes → σ → σ}
    (h : ∀ b s, μ (set b s) ≤ μ s + K * b.length) : Pays K D μ (Enc.rest set) := by
  intro s r hr
  obtain ⟨r', h1, h2, h3⟩ := readAll_spec .eof r hr
  have := h r.content s
  simp only [Enc.rest, h1]
  exact ⟨_, h2, h3, fun _ => this, by omega⟩

theorem Pays.rest0 {K D : Nat} {μ : σ → Nat} {set : Bytes → σ → σ}
    (h : ∀ b s, μ (set b s) ≤ μ s + K * b.length) : Pays K D μ (Enc.rest0 set) := by
  intro s r hr
  obtain ⟨r', h1, h2, h3⟩ := readAll_spec .eof r hr
  have := h r.content s
  simp only [Enc.rest0, h1, skipEOF]
  exact ⟨_, h2, h3, fun _ => this, Nat.le_trans this (Nat.le_add_right _ _)⟩

theorem Pays.wrap {K D : Nat} {μ : σ → Nat} {ν : τ → Nat} {f : τ → σ} {st : Step τ} (h : Pays K D ν st)
    (hf : ∀ x, μ (f x) = ν x) (t : τ) (r : Rd) (hr : r.Ok .eof) :
    ∃ m, Rd.Adv m r (Enc.wrap f st t r).rd ∧ (Enc.wrap f st t r).rd.Ok .eof ∧
      ((Enc.wrap f st t r).err = none → μ (Enc.wrap f st t r).val ≤ μ (f t) + K * m) ∧
        μ (Enc.wrap f st t r).val ≤ μ (f t) + K * m + D := by
  obtain ⟨m, a, o, p, q⟩ := h t r hr
  simp only [Enc.wrap, hf]
  exact ⟨m, a, o, p, q⟩

/-! ### Elements -/

/-- Elements that start with a field that is not measured. -/
theorem Bills.cons {K D k : Nat} {μ : σ → Nat} {st : Step σ} {t : List (Step σ)} (hK : 0 < K)
    (h1 : Flat st k) (hk : 0 < k) (hn : ∀ s r, μ (st s r).val ≤ μ s) (h2 : Pays K D μ (Enc.readFrom t)) :
    Bills K D μ (Enc.readFrom (st :: t)) := by
  intro s r hr hc
  obtain ⟨o, a, ok, sh⟩ := h1 s r hr
  have hn := hn s r
  have hpos : 0 < (st s r).n := by
    by_cases h : k ≤ r.content.length
    · rw [(ok h).2]; exact hk
    · rw [(sh (by omega)).2]; exact hc
  rcases hst : st s r with ⟨v, n, e, r1⟩
  rw [hst] at a o hn hpos
  simp only at a o hn hpos
  have hKn : 1 ≤ K * n := Nat.mul_pos hK hpos
  cases e with
  | some e => simp only [Enc.readFrom, hst]; exact ⟨n, a, o, fun h => by simp at h, by omega⟩
  | none =>
    obtain ⟨m2, a2, o2, p2, q2⟩ := h2 v r1 o
    simp only [Enc.readFrom, hst] at *
    have : K * (n + m2) = K * n + K * m2 := Nat.mul_add ..
    exact ⟨n + m2, a.trans a2, o2, fun h => by have := p2 h; omega, by omega⟩

theorem Bills.withLocal {K D : Nat} {μ : σ → Nat} {l : Type} {init : l} {st : Step (σ × l)}
    (h : Bills K D (fun s => μ s.1) st) : Bills K D μ (Enc.withLocal init st) := fun s r hr hc =>
  h (s, init) r hr hc

theorem Bills.wrap {K D : Nat} {μ : σ → Nat} {ν : τ → Nat} {f : τ → σ} {st : Step τ} (h : Bills K D ν st)
    (hf : ∀ x, μ (f x) = ν x) (t : τ) (r : Rd) (hr : r.Ok .eof) (hc : 0 < r.content.length) :
    ∃ m, Rd.Adv m r (Enc.wrap f st t r).rd ∧ (Enc.wrap f st t r).rd.Ok .eof ∧
      ((Enc.wrap f st t r).err = none → μ (Enc.wrap f st t r).val + 1 ≤ μ (f t) + K * m) ∧
        μ (Enc.wrap f st t r).val + 1 ≤ μ (f t) + K * m + D := by
  obtain ⟨m, a, o, p, q⟩ := h t r hr hc
  simp only [Enc.wrap, hf]
  exact ⟨m, a, o, p, q⟩

/-- Lists of typed elements.  An element that fails with `io.EOF` stays in the list and is no
error, so the surplus shows up in lists that were decoded successfully. -/
theorem scanLoop_pays {K D : Nat} {ν : τ → Nat} {mk : UInt16 → Except Err τ} {st : Step τ}
    (hz : ∀ c z, mk c = .ok z → ν z = 0) (hb : Bills K D ν st) :
    ∀ (fuel : Nat) (acc : List τ) (n : Nat) (r0 : Rd) (b : Bytes) (e : Option Err) (q : Rd) (m : Nat) (c : Nat),
      (Rd.buf b e q).Ok .eof → Rd.Adv m r0 (.buf b e q) → listSize ν acc ≤ c + K * m →
      ∃ m', Rd.Adv m' r0 (Enc.scanLoop mk st fuel acc n (.buf b e q)).rd ∧
        (Enc.scanLoop mk st fuel acc n (.buf b e q)).rd.Ok .eof ∧
        listSize ν (Enc.scanLoop mk st fuel acc n (.buf b e q)).val ≤ c + K * m' + D := by
  intro fuel
  induction fuel with
  | zero => intro acc n r0 b e q m c hr ha hl; exact ⟨m, ha, hr, by simp only [Enc.scanLoop]; omega⟩
  | succ fuel ih =>
    intro acc n r0 b e q m c hr ha hl
    obtain ⟨b', e', q', h1, h2, h3⟩ := peek2_spec .eof b e q hr
    have ha0 : Rd.Adv m r0 (.buf b' e' q') := by simpa using ha.trans h1
    rcases h3 with ⟨hc, h3⟩ | ⟨hc, h3⟩
    · cases hmk : mk (ofBE UInt16 ((Rd.buf b e q).content.take 2)) with
      | error e => simp only [Enc.scanLoop, h3, hmk]; exact ⟨m, ha0, h2, by omega⟩
      | ok z =>
        have hl1 : (Rd.buf b' e' q').content = (Rd.buf b e q).content := by rw [h1.content.2]; simp
        obtain ⟨m1, a1, o1, p1, q1⟩ := hb z (.buf b' e' q') h2 (by rw [hl1]; omega)
        rw [hz _ _ hmk] at p1 q1
        rcases hst : st z (.buf b' e' q') with ⟨v, k, ee, r1⟩
        rw [hst] at a1 o1 p1 q1
        simp only at a1 o1 p1 q1
        have hm : K * (m + m1) = K * m + K * m1 := Nat.mul_add ..
        have hs := listSize_snoc ν acc v
        cases ee with
        | some ee =>
          simp only [Enc.scanLoop, h3, hmk, hst]
          exact ⟨m + m1, ha0.trans a1, o1, by omega⟩
        | none =>
          simp only [Enc.scanLoop, h3, hmk, hst]
          obtain ⟨b2, e2, q2, hb2⟩ := a1.isBuf
          subst hb2
          have := p1 rfl
          exact ih _ _ r0 b2 e2 q2 (m + m1) c o1 (ha0.trans a1) (by omega)
    · simp only [Enc.scanLoop, h3]
      exact ⟨m, ha0, h2, by omega⟩

theorem scanFrom_pays {K D : Nat} {ν : τ → Nat} {mk : UInt16 → Except Err τ} {st : Step τ}
    (hz : ∀ c z, mk c = .ok z → ν z = 0) (hb : Bills K D ν st) (s : List τ) (r : Rd) (hr : r.Ok .eof) :
    ∃ m, Rd.Adv m r (Enc.scanFrom mk st s r).rd ∧ (Enc.scanFrom mk st s r).rd.Ok .eof ∧
      listSize ν (Enc.scanFrom mk st s r).val ≤ listSize ν s + K * m + D := by
  obtain ⟨b, e, q, hw⟩ : ∃ b e q, r.wrapBuf = .buf b e q := by
    cases r <;> exact ⟨_, _, _, rfl⟩
  have hok : (Rd.buf b e q).Ok .eof := by rw [← hw]; exact hr.wrapBuf
  obtain ⟨m, a, o, p⟩ := scanLoop_pays hz hb (r.content.length + 1) s 0 (.buf b e q) b e q 0
    (listSize ν s) hok (Rd.Adv.refl _) (by omega)
  rw [← hw] at a o p
  obtain ⟨m', hm, ha⟩ := unwrapBuf_adv a
  refine ⟨m', ha, ?_, ?_⟩
  · exact o.unwrapBuf
  · have : K * m ≤ K * m' := Nat.mul_le_mul_left _ hm
    simp only [Enc.scanFrom]
    omega

theorem Pays.scanFrom {K : Nat} {ν : τ → Nat} {mk : UInt16 → Except Err τ} {st : Step τ}
    (hz : ∀ c z, mk c = .ok z → ν z = 0) (hb : Bills K 0 ν st) :
    Pays K 0 (listSize ν) (Enc.scanFrom mk st) := by
  intro s r hr
  obtain ⟨m, a, o, p⟩ := scanFrom_pays hz hb s r hr
  exact ⟨m, a, o, fun _ => by omega, p⟩

/-- Proves `Pays` of a combination of steps; facts about the named decoders are taken from the
context. -/
macro "pays" : tactic => `(tactic|
  with_reducible repeat' first
    | assumption
    | exact Pays.nil
    | exact Pays.skip
    | refine Pays.num ?_
    | refine Pays.assign ?_
    | refine Pays.cons ?_ ?_
    | refine Pays.andThen ?_ ?_
    | refine Pays.withLocal ?_
    | refine Pays.dyn ?_
    | refine Pays.limited ?_
    | refine Pays.rest ?_
    | refine Pays.rest0 ?_
    | intro)

theorem Pays.mono {K K' D : Nat} {μ : σ → Nat} {st : Step σ} (h : Pays K D μ st) (hK : K ≤ K') :
    Pays K' D μ st := by
  intro s r hr
  obtain ⟨m, a, o, p, q⟩ := h s r hr
  have : K * m ≤ K' * m := Nat.mul_le_mul_right _ hK
  exact ⟨m, a, o, fun h => by have := p h; omega, by omega⟩

/-! ### Extensible matches -/

/-- Splitting the mask from the value does not change the size. -/
private theorem xmSplit_size (x : XM) (l : UInt8 × Bool) (hm : x.mask = []) :
    (if l.2 then
        let length := l.1.toNat / 2
        (({ x with mask := (x.value.drop length).take length,
                   value := x.value.take length }, l) : XM × XMLocal)
      else (x, l)).1.held ≤ x.value.length := by
  split
  · simp only [XM.held, List.length_take, List.length_drop]; omega
  · simp [XM.held, hm]

theorem XM.read_cost (p : Bool) (s : XM) (r : Rd) (hr : r.Ok .eof) :
    ∃ m, Rd.Adv m r (XM.read p s r).rd ∧ (XM.read p s r).rd.Ok .eof ∧
      ((XM.read p s r).err = none → 4 ≤ m ∧ (XM.read p s r).val.held ≤ 255 ∧
        (p = true → (XM.read p s r).val.held + 4 ≤ m)) ∧
      ((XM.read p s r).val.held ≤ s.held ∨ 4 ≤ m ∧ (XM.read p s r).val.held ≤ 255) ∧
      (0 < r.content.length → 0 < m) := by
  rcases readFull_spec .eof 2 r hr with ⟨hk1, r1, h1, a1, o1⟩ | ⟨hk, r', h1, h2, h3⟩
  rotate_left
  · simp only [XM.read, Enc.withLocal, Enc.readFrom, Enc.num, Wire.size, Enc.bin, h1]
    exact ⟨_, h2, h3, fun h => by simp at h, .inl (Nat.le_refl _), fun h => h⟩
  rcases readFull_spec .eof 1 r1 o1 with ⟨hk2, r2, h2, a2, o2⟩ | ⟨hk, r', h2, h3, h4⟩
  rotate_left
  · simp only [XM.read, Enc.withLocal, Enc.readFrom, Enc.num, Wire.size, Enc.bin, h1, h2]
    exact ⟨_, a1.trans h3, h4, fun h => by simp at h, .inl (Nat.le_refl _), fun h => by omega⟩
  rcases readFull_spec .eof 1 r2 o2 with ⟨hk3, r3, h3, a3, o3⟩ | ⟨hk, r', h3, h4, h5⟩
  rotate_left
  · simp only [XM.read, Enc.withLocal, Enc.readFrom, Enc.num, Wire.size, Enc.bin, h1, h2, h3]
    exact ⟨_, (a1.trans a2).trans h4, h5, fun h => by simp at h, .inl (Nat.le_refl _), fun h => by omega⟩
  have A := (a1.trans a2).trans a3
  generalize hcl : ofBE UInt16 (r.content.take 2) = c
  generalize htt : ofBE UInt8 (r1.content.take 1) = t
  generalize hll : ofBE UInt8 (r2.content.take 1) = l
  have hl : l.toNat ≤ 255 := by have := l.toNat_lt; omega
  cases p
  · have hs := Nat.le_trans (xmSplit_size ⟨c, t >>> 1, zeros l.toNat, []⟩ (l, t &&& 1 == 1) rfl)
      (Nat.le_of_eq (by simp [zeros]) : (zeros l.toNat).length ≤ l.toNat)
    simp only at hs
    simp only [XM.read, Enc.withLocal, Enc.readFrom, Enc.num, Wire.size, Enc.bin, h1, h2, h3, hcl, htt, hll,
      Enc.assign, id, Bool.false_eq_true, if_false]
    exact ⟨_, A, o3, fun _ => ⟨by omega, by omega, fun h => by simp at h⟩, .inr ⟨by omega, by omega⟩,
      fun h => by omega⟩
  · rcases readFull_spec .eof l.toNat r3 o3 with ⟨hk4, r4, h4, a4, o4⟩ | ⟨hk, r', h4, h5, h6⟩
    · have hs := xmSplit_size ⟨c, t >>> 1, r3.content.take l.toNat, []⟩ (l, t &&& 1 == 1) rfl
      simp only [List.length_take] at hs
      simp only [XM.read, Enc.withLocal, Enc.readFrom, Enc.num, Wire.size, Enc.bin, h1, h2, h3, hcl, htt, hll,
        Enc.assign, Enc.dyn, if_true, h4]
      exact ⟨_, A.trans a4, o4, fun _ => ⟨by omega, by omega, fun _ => by omega⟩, .inr ⟨by omega, by omega⟩,
        fun h => by omega⟩
    · simp only [XM.read, Enc.withLocal, Enc.readFrom, Enc.num, Wire.size, Enc.bin, h1, h2, h3, hcl, htt, hll,
        Enc.assign, Enc.dyn, if_true, h4]
      exact ⟨_, A.trans h5, h6, fun h => by simp at h, .inr ⟨by omega, by simp [XM.held, zeros]; omega⟩,
        fun h => by omega⟩

theorem XM.read_pays (p : Bool) : Pays 64 0 XM.held (XM.read p) := by
  intro s r hr
  obtain ⟨m, a, o, h1, h2, _⟩ := XM.read_cost p s r hr
  refine ⟨m, a, o, fun h => by have := h1 h; omega, ?_⟩
  rcases h2 with h2 | h2 <;> omega

theorem XM.readFrom_pays : Pays 1 255 XM.held XM.readFrom := by
  intro s r hr
  obtain ⟨m, a, o, h1, h2, _⟩ := XM.read_cost true s r hr
  refine ⟨m, a, o, fun h => by have := (h1 h).2.2 rfl; simp only [XM.readFrom]; omega, ?_⟩
  simp only [XM.readFrom]
  rcases h2 with h2 | h2 <;> omega

/-- `readAllXM`: matches that could not be read are not in the list. -/
theorem readAllXMLoop_pays {K : Nat} {p : Bool} (h : K = 64 ∨ 1 ≤ K ∧ p = true) :
    ∀ (fuel : Nat) (acc : List XM) (r : Rd), r.Ok .eof →
      listSize XM.held (readAllXMLoop p fuel acc r).1 ≤ listSize XM.held acc + K * r.content.length := by
  intro fuel
  induction fuel with
  | zero => intro acc r _; simp only [readAllXMLoop]; omega
  | succ fuel ih =>
    intro acc r hr
    obtain ⟨m, a, o, h1, _, _⟩ := XM.read_cost p XM.zero r hr
    by_cases h4 : 4 ≤ r.content.length
    · rcases hst : XM.read p XM.zero r with ⟨v, n1, ee, r1⟩
      rw [hst] at a o h1
      simp only at a o h1
      cases ee with
      | some ee => simp only [readAllXMLoop, h4, if_true, hst]; omega
      | none =>
        simp only [readAllXMLoop, h4, if_true, hst]
        have hi := ih (acc ++ [v]) r1 o
        rw [listSize_snoc] at hi
        have hc := a.content
        have hl : r1.content.length = r.content.length - m := by rw [hc.2]; simp
        have h1 := h1 rfl
        have hm : K * r.content.length = K * m + K * r1.content.length := by
          rw [← Nat.mul_add, hl]; congr 1; omega
        have : v.held + 1 ≤ K * m := by
          rcases h with h | ⟨h, hp⟩
          · subst h; omega
          · have := h1.2.2 hp
            have : 1 * m ≤ K * m := Nat.mul_le_mul_right _ h
            omega
        omega
    · simp only [readAllXMLoop, h4, if_false]; omega

theorem readAllXM_pays {K : Nat} {p : Bool} (h : K = 64 ∨ 1 ≤ K ∧ p = true) :
    Pays K 0 (listSize XM.held) (readAllXM p) := by
  intro s r hr
  obtain ⟨r', h1, h2, h3⟩ := readAll_spec .eof r hr
  have := readAllXMLoop_pays h (r.content.length + 1) s (.src r.content [] .eof false) (by simp [Rd.Ok])
  simp only [Rd.content] at this
  simp only [readAllXM, h1, skipEOF]
  exact ⟨_, h2, h3, fun _ => this, this⟩

theorem Match.readFrom_pays : Pays 1 0 Match.held Match.readFrom := by
  unfold Match.readFrom
  pays
  · simp [Match.held, listSize]
  · exact Nat.le_refl _
  · exact Nat.le_refl _
  · exact Pays.sub (ν := listSize XM.held) (readAllXM_pays (.inr ⟨Nat.le_refl _, rfl⟩))
      fun x s => by simp only [Match.held]; omega

/-! ### Actions and instructions -/

private theorem skip_neutral {μ : σ → Nat} {k : Nat} (s : σ) (r : Rd) : μ (Enc.skip k s r).val ≤ μ s := by
  unfold Enc.skip Enc.bin
  rcases readFull k r with ⟨o, _ | e, r'⟩ <;> exact Nat.le_refl _

private theorem num_neutral {α : Type} [Wire α] {μ : σ → Nat} {set : α → σ → σ}
    (h : ∀ x s, μ (set x s) ≤ μ s) (s : σ) (r : Rd) : μ (Enc.num set s r).val ≤ μ s := by
  unfold Enc.num Enc.bin
  rcases readFull _ r with ⟨o, _ | e, r'⟩
  · exact h _ _
  · exact Nat.le_refl _

private theorem bin_neutral {μ : σ → Nat} {k : Nat} {set : Bytes → σ → σ}
    (h : ∀ x s, μ (set x s) ≤ μ s) (s : σ) (r : Rd) : μ (Enc.bin k set s r).val ≤ μ s := by
  unfold Enc.bin
  rcases readFull _ r with ⟨o, _ | e, r'⟩
  · exact h _ _
  · exact Nat.le_refl _

private theorem skipActionHeader_flat : Flat (skipActionHeader (σ := σ)) 4 :=
  fun _ r hr => actionHeader.flat (0, 0) r hr

private theorem skipInstructionHeader_flat : Flat (skipInstructionHeader (σ := σ)) 4 :=
  fun _ r hr => instructionHeader.flat (0, 0) r hr

theorem setField_bills : Bills 64 0 XM.held setField.readFrom := by
  unfold setField.readFrom
  refine Bills.withLocal ?_
  refine Bills.cons (by omega) (Flat.sub actionHeader.flat) (by omega) (fun s r => Nat.le_refl _) ?_
  pays
  · exact Pays.sub (ν := XM.held) (XM.read_pays true) fun x s => by simp only; omega
  · omega

theorem Action.readFrom_bills : Bills 64 0 Action.held Action.readFrom := by
  intro a r hr hc
  have hs {τ : Type} {k : Nat} {t : List (Step τ)} (hk : 0 < k)
      (h : Pays 64 0 (fun _ => 0) (Enc.readFrom t)) :
      Bills 64 0 (fun _ : τ => 0) (Enc.readFrom (Enc.skip k :: t)) :=
    Bills.cons (by omega) Flat.skip hk (fun _ _ => Nat.le_refl _) h
  have hh {τ : Type} {t : List (Step τ)} (h : Pays 64 0 (fun _ => 0) (Enc.readFrom t)) :
      Bills 64 0 (fun _ : τ => 0) (Enc.readFrom (skipActionHeader :: t)) :=
    Bills.cons (by omega) skipActionHeader_flat (by omega) (fun _ _ => Nat.le_refl _) h
  cases a with
  | setField f => exact Bills.wrap setField_bills (fun _ => rfl) f r hr hc
  | _ =>
    simp only [Action.readFrom]
    refine Bills.wrap (ν := fun _ => 0) ?_ (fun _ => rfl) _ r hr hc
    first
      | (refine hs (by omega) ?_; pays <;> exact Nat.le_refl _)
      | (refine hh ?_; pays <;> exact Nat.le_refl _)

theorem actionMake_held (c : UInt16) (z : Action) (h : actionMake c = .ok z) : z.held = 0 := by
  unfold actionMake at h
  split at h <;> first | (cases h; rfl) | simp at h

theorem Actions.readFrom_pays : Pays 64 0 (listSize Action.held) Actions.readFrom := by
  have h := Pays.scanFrom actionMake_held Action.readFrom_bills
  unfold Actions.readFrom
  pays
  simp [listSize]

theorem readInstructionActions_bills : Bills 64 0 (listSize Action.held) readInstructionActions := by
  unfold readInstructionActions
  refine Bills.withLocal ?_
  refine Bills.cons (by omega) (Flat.sub instructionHeader.flat) (by omega) (fun s r => Nat.le_refl _) ?_
  pays
  exact Pays.sub Actions.readFrom_pays fun x s => by simp only; omega

theorem Instruction.readFrom_bills : Bills 64 0 Instruction.held Instruction.readFrom := by
  intro a r hr hc
  have hs {τ : Type} {k : Nat} {t : List (Step τ)} (hk : 0 < k)
      (h : Pays 64 0 (fun _ => 0) (Enc.readFrom t)) :
      Bills 64 0 (fun _ : τ => 0) (Enc.readFrom (Enc.skip k :: t)) :=
    Bills.cons (by omega) Flat.skip hk (fun _ _ => Nat.le_refl _) h
  have hh {τ : Type} {t : List (Step τ)} (h : Pays 64 0 (fun _ => 0) (Enc.readFrom t)) :
      Bills 64 0 (fun _ : τ => 0) (Enc.readFrom (skipInstructionHeader :: t)) :=
    Bills.cons (by omega) skipInstructionHeader_flat (by omega) (fun _ _ => Nat.le_refl _) h
  cases a with
  | writeActions as => exact Bills.wrap readInstructionActions_bills (fun _ => rfl) as r hr hc
  | applyActions as => exact Bills.wrap readInstructionActions_bills (fun _ => rfl) as r hr hc
  | _ =>
    simp only [Instruction.readFrom]
    refine Bills.wrap (ν := fun _ => 0) ?_ (fun _ => rfl) _ r hr hc
    first
      | (refine hs (by omega) ?_; pays <;> exact Nat.le_refl _)
      | (refine hh ?_; pays <;> exact Nat.le_refl _)

theorem instructionMake_held (c : UInt16) (z : Instruction) (h : instructionMake c = .ok z) : z.held = 0 := by
  unfold instructionMake at h
  split at h <;> first | (cases h; rfl) | simp at h

theorem Instructions.readFrom_pays : Pays 64 0 (listSize Instruction.held) Instructions.readFrom :=
  Pays.scanFrom instructionMake_held Instruction.readFrom_bills

/-! ### Properties of tables -/

/-- As `Pays`, whether or not the step succeeds. -/
def PaysW (K D : Nat) (μ : σ → Nat) (st : Step σ) : Prop :=
  ∀ s r, r.Ok .eof → ∃ m, Rd.Adv m r (st s r).rd ∧ (st s r).rd.Ok .eof ∧ μ (st s r).val ≤ μ s + K * m + D

theorem PaysW.cons {K D : Nat} {μ : σ → Nat} {st : Step σ} {t : List (Step σ)} (h1 : Pays K 0 μ st)
    (h2 : PaysW K D μ (Enc.readFrom t)) : PaysW K D μ (Enc.readFrom (st :: t)) := by
  intro s r hr
  obtain ⟨m, a, o, p, q⟩ := h1 s r hr
  rcases hst : st s r with ⟨v, n, e, r1⟩
  rw [hst] at a o p q
  cases e with
  | some e => simp only [Enc.readFrom, hst] at q ⊢; exact ⟨m, a, o, by omega⟩
  | none =>
    obtain ⟨m2, a2, o2, q2⟩ := h2 v r1 o
    have hp := p rfl
    simp only [Enc.readFrom, hst] at *
    have : K * (m + m2) = K * m + K * m2 := Nat.mul_add ..
    exact ⟨m + m2, a.trans a2, o2, by omega⟩

theorem PaysW.last {K D : Nat} {μ : σ → Nat} {st : Step σ} (h1 : PaysW K D μ st) :
    PaysW K D μ (Enc.readFrom [st]) := by
  intro s r hr
  obtain ⟨m, a, o, q⟩ := h1 s r hr
  rcases hst : st s r with ⟨v, n, e, r1⟩
  rw [hst] at a o q
  cases e <;> simp only [Enc.readFrom, hst] at q ⊢ <;> exact ⟨m, a, o, q⟩

theorem PaysW.sub {K D : Nat} {μ : σ → Nat} {ν : τ → Nat} {get : σ → τ} {set : τ → σ → σ} {st : Step τ}
    (h : PaysW K D ν st) (hs : ∀ x s, μ (set x s) + ν (get s) ≤ μ s + ν x) :
    PaysW K D μ (Enc.sub get set st) := by
  intro s r hr
  obtain ⟨m, a, o, q⟩ := h (get s) r hr
  have h1 := hs (st (get s) r).val s
  exact ⟨m, a, o, by simp only [Enc.sub]; omega⟩

theorem PaysW.limited {K D n : Nat} {μ : σ → Nat} {st : Step σ} (h : PaysW K D μ st) :
    PaysW K D μ (Enc.limited n st) := by
  intro s r hr
  obtain ⟨m, a, o, q⟩ := h s (.lim n r) ⟨rfl, hr⟩
  exact ⟨m, a.unlimit, o.unlimit a, q⟩

theorem PaysW.withLocal {K D : Nat} {μ : σ → Nat} {l : Type} {init : l} {st : Step (σ × l)}
    (h : PaysW K D (fun s => μ s.1) st) : PaysW K D μ (Enc.withLocal init st) := fun s r hr =>
  h (s, init) r hr

theorem PaysW.dyn {K D : Nat} {μ : σ → Nat} {f : σ → Step σ} (h : ∀ s, PaysW K D μ (f s)) :
    PaysW K D μ (Enc.dyn f) := fun s r hr => h s s r hr

theorem readFuncLoop_pays {zero : τ} {st : Step τ} {k : Nat} (hf : Flat st k) (hk : 0 < k) :
    ∀ (fuel : Nat) (acc : List τ) (n : Nat) (r0 r : Rd) (m : Nat), r.Ok .eof → Rd.Adv m r0 r →
      ∃ m', Rd.Adv m' r0 (Enc.readFuncLoop zero st fuel acc n r).rd ∧
        (Enc.readFuncLoop zero st fuel acc n r).rd.Ok .eof ∧
        (Enc.readFuncLoop zero st fuel acc n r).val.length + m ≤ acc.length + m' := by
  intro fuel
  induction fuel with
  | zero => intro acc n r0 r m hr ha; exact ⟨m, ha, hr, Nat.le_refl _⟩
  | succ fuel ih =>
    intro acc n r0 r m hr ha
    obtain ⟨o1, a1, ok, sh⟩ := hf zero r hr
    rcases hst : st zero r with ⟨v, n1, e, r1⟩
    rw [hst] at o1 a1 ok sh
    simp only at o1 a1 ok sh
    cases e with
    | some e =>
      simp only [Enc.readFuncLoop, hst]
      exact ⟨m + n1, ha.trans a1, o1, by omega⟩
    | none =>
      simp only [Enc.readFuncLoop, hst]
      obtain ⟨m', h1, h2, h3⟩ := ih (acc ++ [v]) (n + n1) r0 r1 (m + n1) o1 (ha.trans a1)
      refine ⟨m', h1, h2, ?_⟩
      have : n1 = k := by
        by_cases h : k ≤ r.content.length
        · exact (ok h).2
        · obtain ⟨⟨e, he, _⟩, _⟩ := sh (by omega)
          simp at he
      simp at h3
      omega

theorem readTypeCodes_pays {K D : Nat} {st : Step (UInt16 × UInt16)} {k : Nat} (hK : 0 < K) (hf : Flat st k)
    (hk : 0 < k) : Pays K D List.length (readTypeCodes st) := by
  intro s r hr
  obtain ⟨m, a, o, p⟩ := readFuncLoop_pays (zero := (0, 0)) hf hk (r.content.length + 1) [] 0 r r 0 hr
    (Rd.Adv.refl r)
  have : 1 * m ≤ K * m := Nat.mul_le_mul_right _ hK
  have hl : (readTypeCodes st s r).val.length ≤ s.length + K * m := by
    simp only [readTypeCodes, Enc.readFunc, List.length_append, List.length_map]
    simp at p
    omega
  exact ⟨m, a, o, fun _ => hl, by omega⟩

theorem yield_flat {hm : Bool} : Flat (yieldTableProp (σ := σ) hm) 4 := Flat.bin

theorem readTablePropXM_bills {D : Nat} (hm : Bool) :
    Bills 64 D (fun s => listSize XM.held s.2) (readTablePropXM hm) := by
  unfold readTablePropXM
  refine Bills.withLocal ?_
  refine Bills.cons (by omega) yield_flat (by omega)
    (bin_neutral (μ := fun s : (Bool × List XM) × UInt16 => listSize XM.held s.1.2) fun _ _ => Nat.le_refl _) ?_
  have h0 : Pays 64 0 (listSize XM.held) (readAllXM false) := readAllXM_pays (.inl rfl)
  have h : Pays 64 D (listSize XM.held) (readAllXM false) := fun s r hr => by
    obtain ⟨m, a, o, p, q⟩ := h0 s r hr
    exact ⟨m, a, o, p, by omega⟩
  pays
  · simp [listSize]
  · exact Pays.sub h fun x s => by simp only; omega

theorem readTablePropCodes_bills {D k : Nat} {st : Step (UInt16 × UInt16)} (hf : Flat st k) (hk : 0 < k) :
    Bills 64 D (fun s => s.2.length) (readTablePropCodes st) := by
  unfold readTablePropCodes
  refine Bills.withLocal ?_
  refine Bills.cons (by omega) yield_flat (by omega)
    (bin_neutral (μ := fun s : (Bool × List UInt16) × UInt16 => s.1.2.length) fun _ _ => Nat.le_refl _) ?_
  have h : Pays 64 D List.length (readTypeCodes st) := readTypeCodes_pays (by omega) hf hk
  pays
  · simp
  · exact Pays.sub h fun x s => by simp only; omega

theorem readTablePropExperimenter_bills {D : Nat} :
    Bills 64 D (fun s => s.2.2.length) readTablePropExperimenter := by
  unfold readTablePropExperimenter
  refine Bills.withLocal ?_
  refine Bills.cons (by omega) Flat.bin (by omega)
    (bin_neutral (μ := fun s : (UInt32 × UInt32 × Bytes) × UInt16 => s.1.2.2.length) fun _ _ => Nat.le_refl _) ?_
  pays
  all_goals simp only
  all_goals omega

/-- The list of the next tables is allocated before it is read. -/
theorem readNextTables_bills : Bills 64 65535 (fun s => s.2.length) readNextTables := by
  intro s r hr hc
  rcases readFull_spec .eof 4 r hr with ⟨hk1, r1, h1, a1, o1⟩ | ⟨hk, r', h1, h2, h3⟩
  rotate_left
  · simp only [readNextTables, Enc.withLocal, Enc.readFrom, yieldTableProp, Enc.bin, h1]
    exact ⟨_, h2, h3, fun h => by simp at h, by omega⟩
  generalize hcl : ofBE UInt16 ((r.content.take 4).drop 2) = c
  have hl : (c - 4).toNat ≤ 65535 := by have := (c - 4).toNat_lt; omega
  rcases readFull_spec .eof (c - 4).toNat r1 o1 with ⟨hk2, r2, h2, a2, o2⟩ | ⟨hk, r', h2, h3, h4⟩
  · have hlen : (r1.content.take (c - 4).toNat).length = (c - 4).toNat := by
      rw [List.length_take]; omega
    rcases readFull_spec .eof (padLen c.toNat) r2 o2 with ⟨hk3, r3, h3, a3, o3⟩ | ⟨hk, r', h3, h4, h5⟩
    · simp only [readNextTables, Enc.withLocal, Enc.readFrom, yieldTableProp, Enc.bin, h1, Enc.assign, Enc.dyn,
        hcl, h2, Enc.skip, h3, hlen]
      exact ⟨_, (a1.trans a2).trans a3, o3, fun _ => by omega, by omega⟩
    · simp only [readNextTables, Enc.withLocal, Enc.readFrom, yieldTableProp, Enc.bin, h1, Enc.assign, Enc.dyn,
        hcl, h2, Enc.skip, h3, hlen]
      exact ⟨_, (a1.trans a2).trans h4, h5, fun h => by simp at h, by omega⟩
  · simp only [readNextTables, Enc.withLocal, Enc.readFrom, yieldTableProp, Enc.bin, h1, Enc.assign, Enc.dyn,
      hcl, h2, zeros, List.length_replicate]
    exact ⟨_, a1.trans h3, h4, fun h => by simp at h, by omega⟩

theorem TableProp.readFrom_bills : Bills 64 65535 TableProp.held TableProp.readFrom := by
  intro p r hr hc
  have hi := readTablePropCodes_bills (D := 65535) instructionHeader.flat (by omega)
  have ha := readTablePropCodes_bills (D := 65535) actionHeader.flat (by omega)
  cases p with
  | instructions m ts =>
    exact Bills.wrap (μ := TableProp.held) (f := fun s => .instructions s.1 s.2)
      hi (fun _ => rfl) (m, ts) r hr hc
  | nextTables m ts =>
    exact Bills.wrap (μ := TableProp.held) (f := fun s => .nextTables s.1 s.2)
      readNextTables_bills (fun _ => rfl) (m, ts) r hr hc
  | writeActions m ts =>
    exact Bills.wrap (μ := TableProp.held) (f := fun s => .writeActions s.1 s.2)
      ha (fun _ => rfl) (m, ts) r hr hc
  | applyActions m ts =>
    exact Bills.wrap (μ := TableProp.held) (f := fun s => .applyActions s.1 s.2)
      ha (fun _ => rfl) (m, ts) r hr hc
  | «matches» xs =>
    exact Bills.wrap (μ := TableProp.held) (f := fun s : Bool × List XM => .matches s.2)
      (readTablePropXM_bills false) (fun _ => rfl) (false, xs) r hr hc
  | wildcards xs =>
    exact Bills.wrap (μ := TableProp.held) (f := fun s : Bool × List XM => .wildcards s.2)
      (readTablePropXM_bills false) (fun _ => rfl) (false, xs) r hr hc
  | writeSetField m xs =>
    exact Bills.wrap (μ := TableProp.held) (f := fun s : Bool × List XM => .writeSetField s.1 s.2)
      (readTablePropXM_bills true) (fun _ => rfl) (m, xs) r hr hc
  | applySetField m xs =>
    exact Bills.wrap (μ := TableProp.held) (f := fun s : Bool × List XM => .applySetField s.1 s.2)
      (readTablePropXM_bills true) (fun _ => rfl) (m, xs) r hr hc
  | experimenter m e t d =>
    exact Bills.wrap (μ := TableProp.held)
      (f := fun s : UInt32 × UInt32 × Bytes => .experimenter m s.1 s.2.1 s.2.2)
      readTablePropExperimenter_bills (fun _ => rfl) (e, t, d) r hr hc

theorem tablePropMake_held (c : UInt16) (z : TableProp) (h : tablePropMake c = .ok z) : z.held = 0 := by
  unfold tablePropMake at h
  split at h <;> first | (cases h; rfl) | simp at h

theorem TableFeatures.readFrom_pays :
    PaysW 64 65535 TableFeatures.held TableFeatures.readFrom := by
  have h : PaysW 64 65535 (listSize TableProp.held) (Enc.scanFrom tablePropMake TableProp.readFrom) :=
    fun s r hr => scanFrom_pays tablePropMake_held TableProp.readFrom_bills s r hr
  unfold TableFeatures.readFrom
  refine PaysW.withLocal ?_
  refine PaysW.cons (Pays.num fun _ _ => Nat.le_refl _) ?_
  refine PaysW.cons (Pays.num fun _ _ => Nat.le_refl _) ?_
  refine PaysW.cons Pays.skip ?_
  refine PaysW.cons (Pays.bin fun _ _ _ => Nat.le_add_right _ _) ?_
  refine PaysW.cons (Pays.num fun _ _ => Nat.le_refl _) ?_
  refine PaysW.cons (Pays.num fun _ _ => Nat.le_refl _) ?_
  refine PaysW.cons (Pays.num fun _ _ => Nat.le_refl _) ?_
  refine PaysW.cons (Pays.num fun _ _ => Nat.le_refl _) ?_
  refine PaysW.cons (Pays.assign fun _ => by simp [TableFeatures.held, listSize]) ?_
  refine PaysW.last (PaysW.dyn fun _ => PaysW.limited ?_)
  exact PaysW.sub h fun x s => by simp only [TableFeatures.held]; omega

end Verif
