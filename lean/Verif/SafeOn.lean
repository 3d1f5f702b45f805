import Verif.Scan
import Verif.Ofp.Flow
import Verif.Ofp.Group
import Verif.Ofp.Packet

/-!
# Decoders on inputs without a forbidden pattern

`SafeOn P E st`: as `Safe E st`, for inputs satisfying `P`, a property that is inherited by
the parts of an input.
-/

namespace Verif

variable {σ τ : Type}

/-- A property of inputs that holds of every part of the input, too. -/
class Hereditary (P : Bytes → Prop) : Prop where
  drop : ∀ b k, P b → P (b.drop k)
  take : ∀ b k, P b → P (b.take k)

def SafeOn (P : Bytes → Prop) (E : Err → Prop) (st : Step σ) : Prop :=
  ∀ s r, r.Ok .eof → P r.content → SafeAt E r (st s r)

section
variable {P : Bytes → Prop} {E : Err → Prop}

theorem Safe.on {st : Step σ} (h : Safe E st) : SafeOn P E st := fun s r hr _ => h s r hr

theorem SafeOn.nil : SafeOn P E (Enc.readFrom (σ := σ) []) := Safe.on Safe.nil
theorem SafeOn.assign {f : σ → σ} : SafeOn P E (Enc.assign f) := Safe.on Safe.assign
theorem SafeOn.rest {set : Bytes → σ → σ} : SafeOn P E (Enc.rest set) := Safe.on Safe.rest
theorem SafeOn.bin [ErrSet E] {k : Nat} {set : Bytes → σ → σ} : SafeOn P E (Enc.bin k set) :=
  Safe.on Flat.bin.safe
theorem SafeOn.skip [ErrSet E] {k : Nat} : SafeOn P E (Enc.skip (σ := σ) k) := Safe.on Flat.skip.safe
theorem SafeOn.num [ErrSet E] {α : Type} [Wire α] {set : α → σ → σ} : SafeOn P E (Enc.num set) :=
  Safe.on Flat.num.safe

theorem SafeOn.andThen [Hereditary P] {st : Step σ} {f : Nat → Step σ} (h1 : SafeOn P E st)
    (h2 : ∀ n, SafeOn P E (f n)) : SafeOn P E (Enc.andThen st f) := by
  intro s r hr hP
  obtain ⟨⟨m1, hm1, a1⟩, o1, e1⟩ := h1 s r hr hP
  rcases hst : st s r with ⟨v, n, e, r1⟩
  rw [hst] at hm1 a1 o1 e1
  simp only at hm1 a1 o1 e1
  cases e with
  | some e =>
    simp only [Enc.andThen, hst]
    exact ⟨⟨m1, hm1, a1⟩, o1, fun e' he => e1 e' he⟩
  | none =>
    obtain ⟨⟨m2, hm2, a2⟩, o2, e2⟩ := h2 n v r1 o1 (by rw [a1.content.2]; exact Hereditary.drop _ _ hP)
    simp only [Enc.andThen, hst]
    exact ⟨⟨m1 + m2, by simp only; omega, a1.trans a2⟩, o2, e2⟩

theorem SafeOn.cons [Hereditary P] {st : Step σ} {t : List (Step σ)} (h1 : SafeOn P E st)
    (h2 : SafeOn P E (Enc.readFrom t)) : SafeOn P E (Enc.readFrom (st :: t)) := by
  intro s r hr hP
  obtain ⟨⟨m1, hm1, a1⟩, o1, e1⟩ := h1 s r hr hP
  rcases hst : st s r with ⟨v, n, e, r1⟩
  rw [hst] at hm1 a1 o1 e1
  simp only at hm1 a1 o1 e1
  cases e with
  | some e =>
    simp only [Enc.readFrom, hst]
    exact ⟨⟨m1, hm1, a1⟩, o1, fun e' he => e1 e' he⟩
  | none =>
    obtain ⟨⟨m2, hm2, a2⟩, o2, e2⟩ := h2 v r1 o1 (by rw [a1.content.2]; exact Hereditary.drop _ _ hP)
    simp only [Enc.readFrom, hst]
    exact ⟨⟨m1 + m2, by simp only; omega, a1.trans a2⟩, o2, e2⟩

theorem SafeOn.sub {get : σ → τ} {set : τ → σ → σ} {st : Step τ} (h : SafeOn P E st) :
    SafeOn P E (Enc.sub get set st) := fun s r hr hP =>
  let h := h (get s) r hr hP
  ⟨h.adv, h.ok, h.err⟩

theorem SafeOn.dyn {f : σ → Step σ} (h : ∀ s, SafeOn P E (f s)) :
    SafeOn P E (Enc.dyn f) := fun s r hr => h s s r hr

theorem SafeOn.withLocal {l : Type} {init : l} {st : Step (σ × l)} (h : SafeOn P E st) :
    SafeOn P E (Enc.withLocal init st) := fun s r hr hP =>
  let h := h (s, init) r hr hP
  ⟨h.adv, h.ok, h.err⟩

theorem SafeOn.limited [Hereditary P] {n : Nat} {st : Step σ} (h : SafeOn P E st) :
    SafeOn P E (Enc.limited n st) := by
  intro s r hr hP
  obtain ⟨⟨m, hm, a⟩, o, e⟩ := h s (.lim n r) ⟨rfl, hr⟩ (Hereditary.take _ _ hP)
  exact ⟨⟨m, hm, a.unlimit⟩, o.unlimit a, e⟩

theorem SafeOn.wrap {f : τ → σ} {st : Step τ} {t : τ} {r : Rd} (h : SafeOn P E st)
    (hr : r.Ok .eof) (hP : P r.content) : SafeAt E r (Enc.wrap f st t r) :=
  let h := h t r hr hP
  ⟨h.adv, h.ok, h.err⟩

theorem readFuncLoop_safeOn [Hereditary P] {zero : τ} {st : Step τ} (hs : SafeOn P E st)
    (hm : Moves st) : ∀ (fuel : Nat) (acc : List τ) (n : Nat) (r0 r : Rd) (k : Nat),
      r.Ok .eof → P r.content → n ≤ k → Rd.Adv k r0 r → r.content.length < fuel →
      SafeAt E r0 (Enc.readFuncLoop zero st fuel acc n r) := by
  intro fuel
  induction fuel with
  | zero => intro acc n r0 r k hr hP hn ha hf; omega
  | succ fuel ih =>
    intro acc n r0 r k hr hP hn ha hf
    obtain ⟨⟨m1, hm1, a1⟩, o1, e1⟩ := hs zero r hr hP
    have hmv := hm zero r hr
    rcases hst : st zero r with ⟨v, n1, e, r1⟩
    rw [hst] at hm1 a1 o1 e1 hmv
    simp only at hm1 a1 o1 e1 hmv
    cases e with
    | some e =>
      simp only [Enc.readFuncLoop, hst]
      refine ⟨⟨k + m1, by simp only; omega, ha.trans a1⟩, o1, ?_⟩
      intro e' he'
      exact e1 e' (by rw [skipEOF_some he'])
    | none =>
      simp only [Enc.readFuncLoop, hst]
      have hl : r1.content.length = r.content.length - m1 := by rw [a1.content.2]; simp
      have := a1.content.1
      exact ih _ _ r0 r1 (k + m1) o1 (by rw [a1.content.2]; exact Hereditary.drop _ _ hP) (by omega)
        (ha.trans a1) (by have := hmv rfl; omega)

theorem SafeOn.readSliceFrom [Hereditary P] {zero : τ} {st : Step τ} (hs : SafeOn P E st)
    (hm : Moves st) : SafeOn P E (Enc.readSliceFrom zero st) := fun _ r hr hP =>
  let h := readFuncLoop_safeOn (zero := zero) hs hm (r.content.length + 1) [] 0 r r 0 hr hP
    (Nat.le_refl _) (Rd.Adv.refl r) (by omega)
  ⟨h.adv, h.ok, h.err⟩

theorem scanLoop_safeOn [Hereditary P] {mk : UInt16 → Except Err τ} {st : Step τ}
    (hs : ∀ c z, mk c = .ok z → ∀ r, r.Ok .eof → P r.content → r.content.take 2 = be c → SafeAt E r (st z r))
    (hm : Moves st)
    (hmk : ∀ b c e, P b → b.take 2 = be c → mk c = .error e → E e) :
    ∀ (fuel : Nat) (acc : List τ) (n : Nat) (r0 : Rd) (b : Bytes) (e : Option Err) (q : Rd) (k : Nat),
      (Rd.buf b e q).Ok .eof → P (Rd.buf b e q).content → n ≤ k → Rd.Adv k r0 (.buf b e q) →
      (Rd.buf b e q).content.length < fuel →
      SafeAt E r0 (Enc.scanLoop mk st fuel acc n (.buf b e q)) := by
  intro fuel
  induction fuel with
  | zero => intro acc n r0 b e q k hr hP hn ha hf; omega
  | succ fuel ih =>
    intro acc n r0 b e q k hr hP hn ha hf
    obtain ⟨b', e', q', h1, h2, h3 | h3⟩ := peek2_spec .eof b e q hr
    · have hl1 : (Rd.buf b' e' q').content = (Rd.buf b e q).content := by
        rw [h1.content.2]; simp
      cases hmkc : mk (ofBE UInt16 ((Rd.buf b e q).content.take 2)) with
      | error e0 =>
        simp only [Enc.scanLoop, h3.2, hmkc]
        refine ⟨⟨k, hn, by simpa using ha.trans h1⟩, h2, fun e1 he1 => ?_⟩
        cases he1
        refine hmk _ _ _ hP ?_ hmkc
        exact (be_ofBE_u16 (by simp; omega)).symm
      | ok z =>
        obtain ⟨⟨m1, hm1, a1⟩, o1, e1⟩ := hs _ z hmkc (.buf b' e' q') h2 (by rw [hl1]; exact hP)
          (by rw [hl1]; exact (be_ofBE_u16 (by simp; omega)).symm)
        have hmv := hm z (.buf b' e' q') h2
        rcases hst : st z (.buf b' e' q') with ⟨v, n1, ee, r1⟩
        rw [hst] at hm1 a1 o1 e1 hmv
        simp only at hm1 a1 o1 e1 hmv
        have ha1 : Rd.Adv (k + m1) r0 r1 := by simpa using (ha.trans h1).trans a1
        cases ee with
        | some ee =>
          simp only [Enc.scanLoop, h3.2, hmkc, hst]
          refine ⟨⟨k + m1, by simp only; omega, ha1⟩, o1, ?_⟩
          intro e' he'
          exact e1 e' (by rw [skipEOF_some he'])
        | none =>
          simp only [Enc.scanLoop, h3.2, hmkc, hst]
          obtain ⟨b2, e2, q2, hb2⟩ := a1.isBuf
          subst hb2
          have hc2 := a1.content.2
          have hl : (Rd.buf b2 e2 q2).content.length = (Rd.buf b' e' q').content.length - m1 := by
            rw [hc2]; simp
          have := a1.content.1
          rw [hl1] at hl this
          exact ih _ _ r0 b2 e2 q2 (k + m1) o1
            (by rw [hc2, hl1]; exact Hereditary.drop _ _ hP) (by omega) ha1 (by have := hmv rfl; omega)
    · simp only [Enc.scanLoop, h3.2]
      refine ⟨⟨k, hn, by simpa using ha.trans h1⟩, h2, ?_⟩
      intro e1 he1
      simp [skipEOF] at he1

/-- An element is decoded from bytes that begin with its type code. -/
theorem SafeOn.scanFromCode [Hereditary P] {mk : UInt16 → Except Err τ} {st : Step τ}
    (hs : ∀ c z, mk c = .ok z → ∀ r, r.Ok .eof → P r.content → r.content.take 2 = be c → SafeAt E r (st z r))
    (hm : Moves st)
    (hmk : ∀ b c e, P b → b.take 2 = be c → mk c = .error e → E e) :
    SafeOn P E (Enc.scanFrom mk st) := by
  intro s r hr hP
  obtain ⟨b, e, q, hw⟩ := Rd.wrapBuf_isBuf r
  have hcw := Rd.content_wrapBuf r
  have how := hr.wrapBuf
  rw [hw] at hcw how
  obtain ⟨⟨m, hm1, a1⟩, o1, e1⟩ := scanLoop_safeOn hs hm hmk (r.content.length + 1) s 0 (.buf b e q) b e q 0
    how (by rw [hcw]; exact hP) (Nat.le_refl _) (Rd.Adv.refl _) (by rw [hcw]; omega)
  rw [← hw] at a1 hm1 o1 e1
  obtain ⟨m', hm', a2⟩ := unwrapBuf_adv a1
  exact ⟨⟨m', by simp only [Enc.scanFrom]; omega, a2⟩, o1.unwrapBuf, e1⟩

theorem SafeOn.scanFrom [Hereditary P] {mk : UInt16 → Except Err τ} {st : Step τ}
    (hs : SafeOn P E st) (hm : Moves st)
    (hmk : ∀ b c e, P b → b.take 2 = be c → mk c = .error e → E e) :
    SafeOn P E (Enc.scanFrom mk st) :=
  SafeOn.scanFromCode (fun _ z _ r hr hP _ => hs z r hr hP) hm hmk

end

/-- Proves `SafeOn` of a combination of steps; facts about the named decoders are taken from
the context. -/
macro "safeOn" : tactic => `(tactic|
  with_reducible repeat' first
    | assumption
    | exact SafeOn.nil
    | exact SafeOn.assign
    | exact SafeOn.rest
    | exact SafeOn.num
    | exact SafeOn.skip
    | exact SafeOn.bin
    | apply SafeOn.cons
    | apply SafeOn.withLocal
    | apply SafeOn.sub
    | apply SafeOn.limited
    | (refine SafeOn.andThen ?_ (fun _ => ?_))
    | (apply SafeOn.dyn; intro _))

/-! ## Inputs without the type code of `ActionPopPBB` -/

/-- Nowhere in the input is a byte 0 followed by a byte 27. -/
def NoPopPBB (b : Bytes) : Prop := ∀ x y, b ≠ x ++ 0 :: 27 :: y

instance : Hereditary NoPopPBB where
  drop b k h := fun x y hb => h (b.take k ++ x) y (by rw [List.append_assoc, ← hb, List.take_append_drop])
  take b k h := fun x y hb => h x (y ++ b.drop k) (by
    have : b = b.take k ++ b.drop k := (List.take_append_drop k b).symm
    rw [hb] at this; simpa using this)

theorem NoPopPBB.code {b : Bytes} {c : UInt16} (h : NoPopPBB b) (hc : b.take 2 = be c) : c ≠ 27 := by
  rintro rfl
  have hb : b = b.take 2 ++ b.drop 2 := (List.take_append_drop 2 b).symm
  rw [hc] at hb
  exact h [] (b.drop 2) hb

theorem Actions.readFrom_safeOn : SafeOn NoPopPBB DecErr Actions.readFrom := by
  refine SafeOn.cons (Safe.on Safe.assign) (SafeOn.cons ?_ (Safe.on Safe.nil))
  refine SafeOn.scanFrom (Safe.on Action.readFrom_safe) Action.readFrom_moves ?_
  intro b c e hP hb h
  rcases actionMake_err c e h with h | ⟨_, h⟩
  · simp [DecErr, h]
  · exact absurd h (hP.code hb)

theorem readInstructionActions_safeOn : SafeOn NoPopPBB DecErr readInstructionActions := by
  have h1 : SafeOn NoPopPBB DecErr instructionHeader.readFrom := Safe.on instructionHeader.flat.safe
  have h2 := Actions.readFrom_safeOn
  unfold readInstructionActions
  safeOn

theorem Instruction.readFrom_safeOn : SafeOn NoPopPBB DecErr Instruction.readFrom := by
  intro a r hr hP
  have h1 : SafeOn NoPopPBB DecErr (skipInstructionHeader (σ := UInt64 × UInt64)) :=
    Safe.on skipInstructionHeader_safe
  have h2 : SafeOn NoPopPBB DecErr (skipInstructionHeader (σ := UInt8)) := Safe.on skipInstructionHeader_safe
  have h4 : SafeOn NoPopPBB DecErr (skipInstructionHeader (σ := UInt32)) := Safe.on skipInstructionHeader_safe
  have h3 := readInstructionActions_safeOn
  cases a <;> simp only [Instruction.readFrom] <;> refine SafeOn.wrap ?_ hr hP <;> safeOn

theorem Instructions.readFrom_safeOn : SafeOn NoPopPBB DecErr Instructions.readFrom := by
  refine SafeOn.scanFrom Instruction.readFrom_safeOn Instruction.readFrom_moves ?_
  intro b c e _ _ h
  simp [DecErr, instructionMake_err c e h]

theorem FlowMod.readFrom_safeOn : SafeOn NoPopPBB DecErr FlowMod.readFrom := by
  have h1 : SafeOn NoPopPBB DecErr Match.readFrom := Safe.on Match.readFrom_safe
  have h2 := Instructions.readFrom_safeOn
  unfold FlowMod.readFrom; safeOn

theorem FlowStats.readFrom_safeOn : SafeOn NoPopPBB DecErr FlowStats.readFrom := by
  have h1 : SafeOn NoPopPBB DecErr Match.readFrom := Safe.on Match.readFrom_safe
  have h2 := Instructions.readFrom_safeOn
  unfold FlowStats.readFrom; safeOn

theorem Bucket.readFrom_safeOn : SafeOn NoPopPBB DecErr Bucket.readFrom := by
  have h2 := Actions.readFrom_safeOn
  unfold Bucket.readFrom; safeOn

theorem GroupMod.readFrom_safeOn : SafeOn NoPopPBB DecErr GroupMod.readFrom := by
  have h : SafeOn NoPopPBB DecErr (Enc.readSliceFrom Bucket.zero Bucket.readFrom) :=
    SafeOn.readSliceFrom Bucket.readFrom_safeOn Bucket.readFrom_moves
  unfold GroupMod.readFrom; safeOn

theorem GroupDescStats.readFrom_safeOn : SafeOn NoPopPBB DecErr GroupDescStats.readFrom := by
  have h : SafeOn NoPopPBB DecErr (Enc.readSliceFrom Bucket.zero Bucket.readFrom) :=
    SafeOn.readSliceFrom Bucket.readFrom_safeOn Bucket.readFrom_moves
  unfold GroupDescStats.readFrom
  refine SafeOn.withLocal (SafeOn.cons
    (Safe.on (Safe.ignoreErr (E' := ActErr) GroupDescStats.header_flat.safe)) ?_)
  safeOn

theorem PacketOut.readFrom_safeOn : SafeOn NoPopPBB DecErr PacketOut.readFrom := by
  have h1 := Actions.readFrom_safeOn
  unfold PacketOut.readFrom; safeOn

end Verif
