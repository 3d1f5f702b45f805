import Verif.Encoding

/-!
# Decoding twice into different receivers

A relational logic for decoders: the same reader, two receivers.  `SameS st s t Q`: the two
runs of the step report the same count and the same error and leave the reader in the same
state; when they succeed, the receivers satisfy `Q`.
-/

namespace Verif

variable {σ τ : Type}

structure SameOut (Q : σ → σ → Prop) (o p : Out σ) : Prop where
  n : o.n = p.n
  err : o.err = p.err
  rd : o.rd = p.rd
  val : o.err = none → Q o.val p.val

def SameS (st : Step σ) (s t : σ) (Q : σ → σ → Prop) : Prop := ∀ r, SameOut Q (st s r) (st t r)

/-- The decoder forgets what the receiver held. -/
def Forgets (st : Step σ) : Prop := ∀ s t, SameS st s t (· = ·)

theorem SameS.mono {st : Step σ} {s t : σ} {P Q : σ → σ → Prop} (h : SameS st s t P) (hPQ : ∀ a b, P a b → Q a b) :
    SameS st s t Q := fun r => let x := h r; ⟨x.n, x.err, x.rd, fun he => hPQ _ _ (x.val he)⟩

theorem SameS.refl {st : Step σ} {s t : σ} {Q : σ → σ → Prop} (h : s = t) (hQ : ∀ a, Q a a) : SameS st s t Q := by
  subst h; exact fun r => ⟨rfl, rfl, rfl, fun _ => hQ _⟩

theorem SameS.nil {s t : σ} {Q : σ → σ → Prop} (h : Q s t) : SameS (Enc.readFrom []) s t Q :=
  fun _ => ⟨rfl, rfl, rfl, fun _ => h⟩

theorem SameS.cons {st : Step σ} {l : List (Step σ)} {s t : σ} {P Q : σ → σ → Prop} (h : SameS st s t P)
    (hl : ∀ a b, P a b → SameS (Enc.readFrom l) a b Q) : SameS (Enc.readFrom (st :: l)) s t Q := by
  intro r
  obtain ⟨h1, h2, h3, h4⟩ := h r
  rcases ho : st s r with ⟨v, n, e, r1⟩
  rcases hp : st t r with ⟨v', n', e', r1'⟩
  rw [ho, hp] at h1 h2 h3 h4
  simp only at h1 h2 h3 h4
  subst h1 h2 h3
  cases e with
  | some e => simp only [Enc.readFrom, ho, hp]; exact ⟨rfl, rfl, rfl, fun h => by cases h⟩
  | none =>
    obtain ⟨g1, g2, g3, g4⟩ := hl v v' (h4 rfl) r1
    simp only [Enc.readFrom, ho, hp]
    exact ⟨by rw [g1], g2, g3, g4⟩

theorem SameS.bin {k : Nat} {set : Bytes → σ → σ} {s t : σ} {Q : σ → σ → Prop} (h : ∀ v, Q (set v s) (set v t)) :
    SameS (Enc.bin k set) s t Q := by
  intro r
  rcases ho : readFull k r with ⟨o, e, r1⟩
  cases e <;> simp only [Enc.bin, ho] <;> exact ⟨rfl, rfl, rfl, fun he => by first | exact h _ | cases he⟩

theorem SameS.binCons {k : Nat} {set : Bytes → σ → σ} {l : List (Step σ)} {s t : σ} {Q : σ → σ → Prop}
    (h : ∀ v, SameS (Enc.readFrom l) (set v s) (set v t) Q) : SameS (Enc.readFrom (Enc.bin k set :: l)) s t Q :=
  SameS.cons (P := fun a b => ∃ v, a = set v s ∧ b = set v t) (SameS.bin fun v => ⟨v, rfl, rfl⟩)
    (by rintro _ _ ⟨v, rfl, rfl⟩; exact h v)

theorem SameS.numCons {α : Type} [Wire α] {set : α → σ → σ} {l : List (Step σ)} {s t : σ} {Q : σ → σ → Prop}
    (h : ∀ v, SameS (Enc.readFrom l) (set v s) (set v t) Q) : SameS (Enc.readFrom (Enc.num set :: l)) s t Q :=
  SameS.binCons fun _ => h _

theorem SameS.pair32Cons {set : UInt32 × UInt32 → σ → σ} {l : List (Step σ)} {s t : σ} {Q : σ → σ → Prop}
    (h : ∀ v, SameS (Enc.readFrom l) (set v s) (set v t) Q) : SameS (Enc.readFrom (Enc.pair32 set :: l)) s t Q :=
  SameS.binCons fun _ => h _

theorem SameS.quad32Cons {set : UInt32 × UInt32 × UInt32 × UInt32 → σ → σ} {l : List (Step σ)} {s t : σ}
    {Q : σ → σ → Prop} (h : ∀ v, SameS (Enc.readFrom l) (set v s) (set v t) Q) :
    SameS (Enc.readFrom (Enc.quad32 set :: l)) s t Q :=
  SameS.binCons fun _ => h _

theorem SameS.skipCons {k : Nat} {l : List (Step σ)} {s t : σ} {Q : σ → σ → Prop}
    (h : SameS (Enc.readFrom l) s t Q) : SameS (Enc.readFrom (Enc.skip k :: l)) s t Q :=
  SameS.binCons fun _ => h

theorem SameS.assignCons {f : σ → σ} {l : List (Step σ)} {s t : σ} {Q : σ → σ → Prop}
    (h : SameS (Enc.readFrom l) (f s) (f t) Q) : SameS (Enc.readFrom (Enc.assign f :: l)) s t Q :=
  SameS.cons (P := fun a b => a = f s ∧ b = f t) (fun _ => ⟨rfl, rfl, rfl, fun _ => ⟨rfl, rfl⟩⟩)
    (by rintro _ _ ⟨rfl, rfl⟩; exact h)

theorem SameS.sub {get : σ → τ} {set : τ → σ → σ} {st : Step τ} {s t : σ} {P : τ → τ → Prop} {Q : σ → σ → Prop}
    (h : SameS st (get s) (get t) P) (hQ : ∀ a b, P a b → Q (set a s) (set b t)) :
    SameS (Enc.sub get set st) s t Q := fun r =>
  let x := h r; ⟨x.n, x.err, x.rd, fun he => hQ _ _ (x.val he)⟩

theorem SameS.subCons {get : σ → τ} {set : τ → σ → σ} {st : Step τ} {l : List (Step σ)} {s t : σ}
    {Q : σ → σ → Prop} (hf : Forgets st) (h : ∀ v, SameS (Enc.readFrom l) (set v s) (set v t) Q) :
    SameS (Enc.readFrom (Enc.sub get set st :: l)) s t Q :=
  SameS.cons (P := fun a b => ∃ v, a = set v s ∧ b = set v t)
    (SameS.sub (hf _ _) fun v _ e => e ▸ ⟨v, rfl, rfl⟩) (by rintro _ _ ⟨v, rfl, rfl⟩; exact h v)

/-- A nested decoder that does not forget, on receivers that agree. -/
theorem SameS.subEq {get : σ → τ} {set : τ → σ → σ} {st : Step τ} {s t : σ} (he : get s = get t) :
    SameS (Enc.sub get set st) s t (fun a b => ∃ v, a = set v s ∧ b = set v t) :=
  SameS.sub (P := (· = ·)) (SameS.refl he fun _ => rfl) fun v _ e => e ▸ ⟨v, rfl, rfl⟩

theorem SameS.subEqCons {get : σ → τ} {set : τ → σ → σ} {st : Step τ} {l : List (Step σ)} {s t : σ}
    {Q : σ → σ → Prop} (he : get s = get t) (h : ∀ v, SameS (Enc.readFrom l) (set v s) (set v t) Q) :
    SameS (Enc.readFrom (Enc.sub get set st :: l)) s t Q :=
  SameS.cons (SameS.subEq he) (by rintro _ _ ⟨v, rfl, rfl⟩; exact h v)

theorem SameS.subVal {get : σ → τ} {st : Step τ} {s t : σ} {P : τ → τ → Prop}
    (h : SameS st (get s) (get t) P) : SameS (Enc.subVal get st) s t (fun a b => a = s ∧ b = t) := fun r =>
  let x := h r; ⟨x.n, x.err, x.rd, fun _ => ⟨rfl, rfl⟩⟩

theorem SameS.subValCons {get : σ → τ} {st : Step τ} {l : List (Step σ)} {s t : σ} {P : τ → τ → Prop}
    {Q : σ → σ → Prop} (h : SameS st (get s) (get t) P) (hl : SameS (Enc.readFrom l) s t Q) :
    SameS (Enc.readFrom (Enc.subVal get st :: l)) s t Q :=
  SameS.cons (SameS.subVal h) (by rintro _ _ ⟨rfl, rfl⟩; exact hl)

theorem SameS.dyn {f : σ → Step σ} {s t : σ} {Q : σ → σ → Prop} (he : f s = f t) (h : SameS (f s) s t Q) :
    SameS (Enc.dyn f) s t Q := fun r => by
  have := h r
  unfold Enc.dyn
  rw [← he]; exact this

theorem SameS.withLocal {l : Type} {init : l} {st : Step (σ × l)} {s t : σ} {Q : σ → σ → Prop}
    (h : SameS st (s, init) (t, init) (fun a b => Q a.1 b.1)) : SameS (Enc.withLocal init st) s t Q := fun r =>
  let x := h r; ⟨x.n, x.err, x.rd, x.val⟩

theorem SameS.limited {n : Nat} {st : Step σ} {s t : σ} {Q : σ → σ → Prop} (h : SameS st s t Q) :
    SameS (Enc.limited n st) s t Q := fun r =>
  let x := h (.lim n r); ⟨x.n, x.err, congrArg Rd.unlimit x.rd, x.val⟩

theorem SameS.always {f : σ → σ} {st : Step σ} {s t : σ} {P Q : σ → σ → Prop} (h : SameS st s t P)
    (hQ : ∀ a b, P a b → Q (f a) (f b)) : SameS (Enc.always f st) s t Q := fun r =>
  let x := h r; ⟨x.n, x.err, x.rd, fun he => hQ _ _ (x.val he)⟩

theorem SameS.rest {set : Bytes → σ → σ} {s t : σ} {Q : σ → σ → Prop} (h : ∀ v, Q (set v s) (set v t)) :
    SameS (Enc.rest set) s t Q := by
  intro r
  rcases ho : readAll r with ⟨o, e, r1⟩
  simp only [Enc.rest, ho]
  exact ⟨rfl, rfl, rfl, fun _ => h _⟩

theorem SameS.rest0 {set : Bytes → σ → σ} {s t : σ} {Q : σ → σ → Prop} (h : ∀ v, Q (set v s) (set v t)) :
    SameS (Enc.rest0 set) s t Q := by
  intro r
  rcases ho : readAll r with ⟨o, e, r1⟩
  cases e <;> simp only [Enc.rest0, ho] <;> exact ⟨rfl, rfl, rfl, fun _ => h _⟩

/-- The state after a step that ends a list. -/
theorem SameS.last {st : Step σ} {s t : σ} {Q : σ → σ → Prop} (h : SameS st s t Q) :
    SameS (Enc.readFrom [st]) s t Q := SameS.cons h fun _ _ hQ => SameS.nil hQ

theorem scanLoop_acc (mk : UInt16 → Except Err τ) (st : Step τ) : ∀ (fuel : Nat) (acc : List τ) (n : Nat) (r : Rd),
    Enc.scanLoop mk st fuel acc n r =
      let o := Enc.scanLoop mk st fuel [] n r
      ⟨acc ++ o.val, o.n, o.err, o.rd⟩ := by
  intro fuel
  induction fuel with
  | zero => intro acc n r; simp [Enc.scanLoop]
  | succ fuel ih =>
    intro acc n r
    rcases hp : r.peek2 with ⟨b, e, r1⟩
    cases e with
    | some e => simp [Enc.scanLoop, hp]
    | none =>
      rcases hm : mk (ofBE UInt16 b) with e | z
      · simp [Enc.scanLoop, hp, hm]
      · rcases ho : st z r1 with ⟨x, k, e, r2⟩
        cases e with
        | some e => simp [Enc.scanLoop, hp, hm, ho]
        | none =>
          simp only [Enc.scanLoop, hp, hm, ho, List.nil_append]
          rw [ih (acc ++ [x]), ih [x]]
          simp

/-- `ScanFrom` appends the same elements to both receivers. -/
theorem SameS.scanFrom {mk : UInt16 → Except Err τ} {st : Step τ} {s t : List τ} :
    SameS (Enc.scanFrom mk st) s t (fun a b => ∃ l, a = s ++ l ∧ b = t ++ l) := by
  intro r
  simp only [Enc.scanFrom]
  rw [scanLoop_acc mk st _ s, scanLoop_acc mk st _ t]
  exact ⟨rfl, rfl, rfl, fun _ => ⟨_, rfl, rfl⟩⟩

theorem SameS.readSliceFrom {zero : τ} {st : Step τ} {s t : List τ} :
    SameS (Enc.readSliceFrom zero st) s t (fun a b => a = s ∧ b = t) := fun _ =>
  ⟨rfl, rfl, rfl, fun _ => ⟨rfl, rfl⟩⟩

theorem SameS.ignoreErr {st : Step σ} {s t : σ} (h : s = t) : SameS (Enc.ignoreErr st) s t (· = ·) :=
  SameS.refl h fun _ => rfl

/-- A nested decoder of a list that is left as it was. -/
theorem SameS.andThen {st : Step σ} {f : Nat → Step σ} {s t : σ} {P Q : σ → σ → Prop} (h : SameS st s t P)
    (hf : ∀ n a b, P a b → SameS (f n) a b Q) : SameS (Enc.andThen st f) s t Q := by
  intro r
  obtain ⟨h1, h2, h3, h4⟩ := h r
  rcases ho : st s r with ⟨v, n, e, r1⟩
  rcases hp : st t r with ⟨v', n', e', r1'⟩
  rw [ho, hp] at h1 h2 h3 h4
  simp only at h1 h2 h3 h4
  subst h1 h2 h3
  cases e with
  | some e => simp only [Enc.andThen, ho, hp]; exact ⟨rfl, rfl, rfl, fun h => by cases h⟩
  | none =>
    obtain ⟨g1, g2, g3, g4⟩ := hf n v v' (h4 rfl) r1
    simp only [Enc.andThen, ho, hp]
    exact ⟨by rw [g1], g2, g3, g4⟩

theorem SameS.dynCons {f : σ → Step σ} {l : List (Step σ)} {s t : σ} {P Q : σ → σ → Prop} (he : f s = f t)
    (h : SameS (f s) s t P) (hl : ∀ a b, P a b → SameS (Enc.readFrom l) a b Q) :
    SameS (Enc.readFrom (Enc.dyn f :: l)) s t Q := SameS.cons (SameS.dyn he h) hl

theorem SameS.dynLimSubCons {n : σ → Nat} {get : σ → τ} {set : τ → σ → σ} {st : Step τ} {l : List (Step σ)}
    {s t : σ} {Q : σ → σ → Prop} (hn : n s = n t) (he : get s = get t)
    (h : ∀ v, SameS (Enc.readFrom l) (set v s) (set v t) Q) :
    SameS (Enc.readFrom (Enc.dyn (fun s => Enc.limited (n s) (Enc.sub get set st)) :: l)) s t Q :=
  SameS.dynCons (by rw [hn]) (SameS.limited (SameS.subEq he)) (by rintro _ _ ⟨v, rfl, rfl⟩; exact h v)

theorem SameS.dynLimRestCons {n : σ → Nat} {set : Bytes → σ → σ} {l : List (Step σ)}
    {s t : σ} {Q : σ → σ → Prop} (hn : n s = n t)
    (h : ∀ v, SameS (Enc.readFrom l) (set v s) (set v t) Q) :
    SameS (Enc.readFrom (Enc.dyn (fun s => Enc.limited (n s) (Enc.rest set)) :: l)) s t Q :=
  SameS.dynCons (P := fun a b => ∃ v, a = set v s ∧ b = set v t) (by rw [hn])
    (SameS.limited (SameS.rest fun v => ⟨v, rfl, rfl⟩)) (by rintro _ _ ⟨v, rfl, rfl⟩; exact h v)

theorem SameS.dynBinCons {n : σ → Nat} {set : Bytes → σ → σ} {l : List (Step σ)}
    {s t : σ} {Q : σ → σ → Prop} (hn : n s = n t)
    (h : ∀ v, SameS (Enc.readFrom l) (set v s) (set v t) Q) :
    SameS (Enc.readFrom (Enc.dyn (fun s => Enc.bin (n s) set) :: l)) s t Q :=
  SameS.dynCons (P := fun a b => ∃ v, a = set v s ∧ b = set v t) (by rw [hn])
    (SameS.bin fun v => ⟨v, rfl, rfl⟩) (by rintro _ _ ⟨v, rfl, rfl⟩; exact h v)

theorem SameS.dynSkipCons {n : σ → Nat} {l : List (Step σ)} {s t : σ} {Q : σ → σ → Prop} (hn : n s = n t)
    (h : SameS (Enc.readFrom l) s t Q) :
    SameS (Enc.readFrom (Enc.dyn (fun s => Enc.skip (n s)) :: l)) s t Q :=
  SameS.dynBinCons (set := fun _ s => s) hn fun _ => h

/-- Steps up to the point where the two receivers agree. -/
macro "same" : tactic => `(tactic| repeat' with_reducible first
  | exact SameS.refl rfl (fun _ => rfl)
  | refine SameS.withLocal ?_
  | (refine SameS.numCons fun v => ?_; try dsimp only)
  | (refine SameS.skipCons ?_)
  | (refine SameS.binCons fun v => ?_; try dsimp only)
  | (refine SameS.pair32Cons fun v => ?_; try dsimp only)
  | (refine SameS.quad32Cons fun v => ?_; try dsimp only)
  | (refine SameS.assignCons ?_; try dsimp only)
  | (refine SameS.subCons (by assumption) fun v => ?_; try dsimp only)
  | (refine SameS.subEqCons rfl fun v => ?_; try dsimp only)
  | (refine SameS.last (SameS.rest fun v => ?_); rfl)
  | (refine SameS.last (SameS.rest0 fun v => ?_); rfl)
  | (refine SameS.rest0 fun v => ?_; rfl)
  | (refine SameS.dynLimSubCons rfl rfl fun v => ?_; try dsimp only)
  | (refine SameS.dynLimRestCons rfl fun v => ?_; try dsimp only)
  | (refine SameS.dynBinCons rfl fun v => ?_; try dsimp only)
  | (refine SameS.dynSkipCons rfl ?_))

end Verif
