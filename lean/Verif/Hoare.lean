import Verif.EncodingSafe

/-!
# Pre- and postconditions of decoding steps

`Triple P st Q`: if the step starts with a receiver satisfying `P` and *succeeds*, the
receiver satisfies `Q` afterwards, whatever the input.
-/

namespace Verif

variable {σ τ : Type}

def Triple (P : σ → Prop) (st : Step σ) (Q : σ → Prop) : Prop :=
  ∀ s r, r.Ok .eof → P s → (st s r).err = none → Q (st s r).val ∧ (st s r).rd.Ok .eof

theorem Triple.nil {P : σ → Prop} : Triple P (Enc.readFrom []) P := fun _ _ hr h _ => ⟨h, hr⟩

theorem Triple.cons {P Q R : σ → Prop} {st : Step σ} {t : List (Step σ)} (h1 : Triple P st Q)
    (h2 : Triple Q (Enc.readFrom t) R) : Triple P (Enc.readFrom (st :: t)) R := by
  intro s r hr hP he
  have h := h1 s r hr hP
  rcases hst : st s r with ⟨v, n, e, r1⟩
  rw [hst] at h
  cases e with
  | some e => simp [Enc.readFrom, hst] at he
  | none =>
    simp only [Enc.readFrom, hst] at he ⊢
    exact h2 v r1 (h rfl).2 (h rfl).1 he

theorem Triple.andThen {P Q R : σ → Prop} {st : Step σ} {f : Nat → Step σ} (h1 : Triple P st Q)
    (h2 : ∀ n, Triple Q (f n) R) : Triple P (Enc.andThen st f) R := by
  intro s r hr hP he
  have h := h1 s r hr hP
  rcases hst : st s r with ⟨v, n, e, r1⟩
  rw [hst] at h
  cases e with
  | some e => simp [Enc.andThen, hst] at he
  | none =>
    simp only [Enc.andThen, hst] at he ⊢
    exact h2 n v r1 (h rfl).2 (h rfl).1 he

theorem Triple.bin {P Q : σ → Prop} {k : Nat} {set : Bytes → σ → σ}
    (h : ∀ b s, b.length = k → P s → Q (set b s)) : Triple P (Enc.bin k set) Q := by
  intro s r hr hP he
  rcases readFull_spec .eof k r hr with ⟨hk, r', h1, h2, h3⟩ | ⟨hk, r', h1, h2, h3⟩
  · simp only [Enc.bin, h1]
    exact ⟨h _ _ (by simp; omega) hP, h3⟩
  · simp [Enc.bin, h1] at he

theorem Triple.num {α : Type} [Wire α] {P Q : σ → Prop} {set : α → σ → σ}
    (h : ∀ x s, P s → Q (set x s)) : Triple P (Enc.num set) Q :=
  Triple.bin fun _ s _ hP => h _ s hP

theorem Triple.skip {P : σ → Prop} {k : Nat} : Triple P (Enc.skip k) P :=
  Triple.bin fun _ _ _ hP => hP

theorem Triple.assign {P Q : σ → Prop} {f : σ → σ} (h : ∀ s, P s → Q (f s)) :
    Triple P (Enc.assign f) Q := fun s _ hr hP _ => ⟨h s hP, hr⟩

theorem Triple.dyn {P Q : σ → Prop} {f : σ → Step σ} (h : ∀ s0, Triple (fun s => P s ∧ s = s0) (f s0) Q) :
    Triple P (Enc.dyn f) Q := fun s r hr hP he => h s s r hr ⟨hP, rfl⟩ he

theorem Triple.sub {P Q : σ → Prop} {P' Q' : τ → Prop} {get : σ → τ} {set : τ → σ → σ} {st : Step τ}
    (h : Triple P' st Q') (h1 : ∀ s, P s → P' (get s)) (h2 : ∀ s x, P s → Q' x → Q (set x s)) :
    Triple P (Enc.sub get set st) Q := fun s r hr hP he =>
  let h := h (get s) r hr (h1 s hP) he
  ⟨h2 s _ hP h.1, h.2⟩

theorem Triple.subVal {P : σ → Prop} {P' Q' : τ → Prop} {get : σ → τ} {st : Step τ}
    (h : Triple P' st Q') (h1 : ∀ s, P s → P' (get s)) : Triple P (Enc.subVal get st) P :=
  fun s r hr hP he => ⟨hP, (h (get s) r hr (h1 s hP) he).2⟩

theorem Triple.withLocal {l : Type} {init : l} {P Q : σ → Prop} {P' Q' : σ × l → Prop}
    {st : Step (σ × l)} (h : Triple P' st Q') (h1 : ∀ s, P s → P' (s, init))
    (h2 : ∀ s, Q' s → Q s.1) : Triple P (Enc.withLocal init st) Q := fun s r hr hP he =>
  let h := h (s, init) r hr (h1 s hP) he
  ⟨h2 _ h.1, h.2⟩

/-- Limited steps need `Safe` for the reader bookkeeping. -/
theorem Triple.limited {P Q : σ → Prop} {n : Nat} {st : Step σ} {E : Err → Prop} (hs : Safe E st)
    (h : Triple P st Q) : Triple P (Enc.limited n st) Q := fun s r hr hP he =>
  ⟨(h s (.lim n r) ⟨rfl, hr⟩ hP he).1, (Safe.limited hs s r hr).ok⟩

theorem Triple.rest {P Q : σ → Prop} {set : Bytes → σ → σ} (h : ∀ b s, P s → Q (set b s)) :
    Triple P (Enc.rest set) Q := by
  intro s r hr hP he
  refine ⟨?_, (Safe.rest (E := ShortErr) (set := set) s r hr).ok⟩
  obtain ⟨r', h1, h2, h3⟩ := readAll_spec .eof r hr
  simp only [Enc.rest, h1]
  exact h _ _ hP

end Verif
