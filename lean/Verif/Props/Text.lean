import Std.Data.String.ToNat
import Verif.Text

/-!
# Properties of the texts (C62)
-/

namespace Verif.Props

open Verif

/-! ## Helper lemmas -/

/-- Splitting at the first separator is unique. -/
theorem split_unique {α : Type} {s : α} {p q x y : List α} (hp : s ∉ p) (hq : s ∉ q)
    (h : p ++ s :: x = q ++ s :: y) : p = q ∧ x = y := by
  induction p generalizing q with
  | nil =>
    cases q with
    | nil => simpa using h
    | cons b q =>
      simp only [List.nil_append, List.cons_append, List.cons.injEq] at h
      exact absurd (by rw [← h.1]; simp) hq
  | cons a p ih =>
    cases q with
    | nil =>
      simp only [List.nil_append, List.cons_append, List.cons.injEq] at h
      exact absurd (by rw [h.1]; simp) hp
    | cons b q =>
      simp only [List.cons_append, List.cons.injEq] at h
      obtain ⟨h1, h2⟩ := ih (fun hm => hp (by simp [hm])) (fun hm => hq (by simp [hm])) h.2
      exact ⟨by rw [h.1, h1], h2⟩

theorem decimal_inj {m n : Nat} (h : decimal m = decimal n) : m = n := Nat.repr_injective h

theorem decimal_digits {n : Nat} {c : Char} (h : c ∈ (decimal n).toList) : c.isDigit = true := by
  simp only [decimal, Nat.toList_repr] at h
  exact Nat.isDigit_of_mem_toDigits (by omega) (by omega) h

theorem decimal_close (n : Nat) {c : Char} (hc : c.isDigit = false) : c ∉ (decimal n).toList := by
  intro h
  rw [decimal_digits h] at hc
  simp at hc

theorem decimalInt_inj {i j : Int} (h : decimalInt i = decimalInt j) : i = j := by
  have key : ∀ m n, decimal m ≠ "-" ++ decimal n := by
    intro m n hh
    refine decimal_close m (c := '-') rfl ?_
    rw [hh]
    simp
  cases i with
  | ofNat m =>
    cases j with
    | ofNat n => rw [decimal_inj (m := m) (n := n) h]
    | negSucc n => exact absurd h (key _ _)
  | negSucc m =>
    cases j with
    | ofNat n => exact absurd h.symm (key _ _)
    | negSucc n =>
      have := congrArg String.toList h
      simp only [decimalInt, String.toList_append] at this
      have := List.append_cancel_left this
      have := decimal_inj (String.toList_inj.mp this)
      have : m = n := by omega
      rw [this]

theorem lookup_mem {α β : Type} [BEq α] [LawfulBEq α] {l : List (α × β)} {k : α} {v : β}
    (h : l.lookup k = some v) : (k, v) ∈ l := by
  induction l with
  | nil => simp at h
  | cons p t ih =>
    obtain ⟨a, b⟩ := p
    rw [List.lookup_cons] at h
    split at h
    · rename_i heq
      simp only [Option.some.injEq] at h
      rw [h, LawfulBEq.eq_of_beq heq]; simp
    · simp [ih h]

/-- What the tables need: the texts are different and have no parenthesis. -/
def TableOk (tbl : List (Nat × String)) : Prop :=
  (tbl.map (·.2)).Nodup ∧ ∀ p ∈ tbl, '(' ∉ p.2.toList

instance (tbl : List (Nat × String)) : Decidable (TableOk tbl) := by unfold TableOk; infer_instance

theorem snd_unique {β : Type} {l : List (β × String)} (h : (l.map (·.2)).Nodup) {a b : β}
    {t : String} (ha : (a, t) ∈ l) (hb : (b, t) ∈ l) : a = b := by
  induction l with
  | nil => simp at ha
  | cons p l ih =>
    simp only [List.map_cons, List.nodup_cons, List.mem_map, not_exists, not_and] at h
    simp only [List.mem_cons] at ha hb
    rcases ha with ha | ha <;> rcases hb with hb | hb
    · rw [← ha] at hb; simpa using hb.symm
    · exact absurd (by rw [← ha]) (h.1 _ hb)
    · exact absurd (by rw [← hb]) (h.1 _ ha)
    · exact ih h.2 ha hb

theorem textOf_inj {tbl : List (Nat × String)} (ht : TableOk tbl) (pre : String) {m n : Nat}
    (h : textOf tbl pre m = textOf tbl pre n) : m = n := by
  have key : ∀ k t v, tbl.lookup k = some t → t ≠ pre ++ "(" ++ decimal v ++ ")" := by
    intro k t v hk hh
    refine ht.2 _ (lookup_mem hk) ?_
    simp only [hh]
    simp
  unfold textOf at h
  cases hm : tbl.lookup m with
  | some t =>
    cases hn : tbl.lookup n with
    | some u =>
      rw [hm, hn] at h
      simp only at h
      subst h
      exact snd_unique ht.1 (lookup_mem hm) (lookup_mem hn)
    | none => rw [hm, hn] at h; exact absurd h (key _ _ _ hm)
  | none =>
    cases hn : tbl.lookup n with
    | some u => rw [hm, hn] at h; exact absurd h.symm (key _ _ _ hn)
    | none =>
      rw [hm, hn] at h
      have := congrArg String.toList h
      simp only [String.toList_append] at this
      exact decimal_inj (String.toList_inj.mp (List.append_cancel_left (List.append_cancel_right this)))

/-! ## Enumerations -/

/-- C62: two message types with the same text are the same. -/
theorem type_text {a b : UInt8} (h : Type.string a = Type.string b) : a = b :=
  UInt8.toNat_inj.mp (textOf_inj (by decide +kernel) _ h)

theorem multipartType_text {a b : UInt16} (h : MultipartType.string a = MultipartType.string b) :
    a = b :=
  UInt16.toNat_inj.mp (textOf_inj (by decide +kernel) _ h)

theorem xmType_text {a b : UInt8} (h : XMType.string a = XMType.string b) : a = b :=
  UInt8.toNat_inj.mp (textOf_inj (by decide +kernel) _ h)

theorem xmClass_text {a b : UInt16} (h : XMClass.string a = XMClass.string b) : a = b :=
  UInt16.toNat_inj.mp (textOf_inj (by decide +kernel) _ h)

theorem table_text {a b : UInt8} (h : Table.string a = Table.string b) : a = b := by
  have := congrArg String.toList h
  simp only [Table.string, String.toList_append] at this
  exact UInt8.toNat_inj.mp
    (decimal_inj (String.toList_inj.mp (List.append_cancel_left (List.append_cancel_right this))))

theorem tablePropType_text {a b : UInt16} (h : TablePropType.string a = TablePropType.string b) :
    a = b :=
  UInt16.toNat_inj.mp (textOf_inj (by decide +kernel) _ h)

theorem errType_text {a b : UInt16} (h : ErrType.string a = ErrType.string b) : a = b :=
  UInt16.toNat_inj.mp (textOf_inj (by decide +kernel) _ h)

theorem packetInReason_text {a b : UInt8} (h : PacketInReason.string a = PacketInReason.string b) :
    a = b :=
  UInt8.toNat_inj.mp (textOf_inj (by decide +kernel) _ h)

theorem actionType_text {a b : UInt16} (h : ActionType.string a = ActionType.string b) : a = b :=
  UInt16.toNat_inj.mp (textOf_inj (by decide +kernel) _ h)

theorem instructionType_text {a b : UInt16}
    (h : InstructionType.string a = InstructionType.string b) : a = b :=
  UInt16.toNat_inj.mp (textOf_inj (by decide +kernel) _ h)

/-- C62: so is a state of a connection, whatever integer it is. -/
theorem connState_text {a b : Int} (h : ConnState.string a = ConnState.string b) : a = b := by
  have ht : TableOk connStateText := by decide +kernel
  have key : ∀ k t v, connStateText.lookup k = some t → t ≠ "ConnState(" ++ decimalInt v ++ ")" := by
    intro k t v hk hh
    refine ht.2 _ (lookup_mem hk) ?_
    simp only [hh]
    simp
  have out : ∀ a, (∃ t, connStateText.lookup a.toNat = some t ∧ 0 ≤ a ∧ ConnState.string a = t) ∨
      ConnState.string a = "ConnState(" ++ decimalInt a ++ ")" := by
    intro a
    unfold ConnState.string
    cases hl : connStateText.lookup a.toNat with
    | none => right; rfl
    | some t =>
      by_cases ha : 0 ≤ a
      · left; exact ⟨t, rfl, ha, by simp [ha]⟩
      · right; simp [ha]
  rcases out a with ⟨t, ht1, ha, hta⟩ | ha <;> rcases out b with ⟨u, hu1, hb, htb⟩ | hb
  · have hh := hta.symm.trans (h.trans htb)
    subst hh
    have := snd_unique ht.1 (lookup_mem ht1) (lookup_mem hu1)
    omega
  · exact absurd (hta.symm.trans (h.trans hb)) (key _ _ _ ht1)
  · exact absurd (htb.symm.trans (h.symm.trans ha)) (key _ _ _ hu1)
  · have := ha.symm.trans (h.trans hb)
    have := congrArg String.toList this
    simp only [String.toList_append] at this
    exact decimalInt_inj
      (String.toList_inj.mp (List.append_cancel_left (List.append_cancel_right this)))

/-- The error texts of the table, with their types and codes. -/
def errTexts : List ((Nat × Nat) × String) :=
  errTypeCodeText.flatMap (fun p => p.2.map (fun q => ((p.1, q.1), q.2)))

theorem errTexts_ok : (errTexts.map (·.2)).Nodup ∧ (∀ p ∈ errTexts, '(' ∉ p.2.toList) ∧
    (∀ p ∈ errTypeCodeText, (errTypeText.lookup p.1).isSome = true) ∧
    ∀ p ∈ errTypeText, p.2 ++ "Code" ≠ "ErrType" := by
  decide +kernel

/-- C62: the text of an error message determines its type and its code. -/
theorem error_text {t c t' c' : UInt16} (h : Error.string t c = Error.string t' c') :
    t = t' ∧ c = c' := by
  obtain ⟨h1, h2, h3, h4⟩ := errTexts_ok
  have htt : TableOk errTypeText := by decide +kernel
  have out : ∀ t c : UInt16,
      ((t.toNat, c.toNat), Error.string t c) ∈ errTexts ∨
      (Error.string t c = "ErrType(" ++ decimal t.toNat ++ ")Code(" ++ decimal c.toNat ++ ")") ∨
      (∃ x, errTypeText.lookup t.toNat = some x ∧
        Error.string t c = x ++ "Code(" ++ decimal c.toNat ++ ")") := by
    intro t c
    unfold Error.string
    cases hl : errTypeCodeText.lookup t.toNat with
    | none => right; left; rfl
    | some m =>
      simp only
      cases hc : m.lookup c.toNat with
      | some x =>
        left
        simp only [errTexts, List.mem_flatMap, List.mem_map]
        exact ⟨_, lookup_mem hl, _, lookup_mem hc, rfl⟩
      | none =>
        right; right
        have := h3 _ (lookup_mem hl)
        simp only at this
        obtain ⟨x, hx⟩ := Option.isSome_iff_exists.mp this
        exact ⟨x, hx, by simp [ErrType.string, textOf, hx]⟩
  have nat : t.toNat = t'.toNat → c.toNat = c'.toNat → t = t' ∧ c = c' := fun a b =>
    ⟨UInt16.toNat_inj.mp a, UInt16.toNat_inj.mp b⟩
  have noparen : ∀ x n, errTypeText.lookup n = some x → '(' ∉ (x ++ "Code").toList := by
    intro x n hx
    simp only [String.toList_append, List.mem_append, not_or]
    exact ⟨htt.2 _ (lookup_mem hx), by decide⟩
  have e1 : ("ErrType" : String).toList ++ '(' :: [] = "ErrType(".toList := by decide
  have e2 : ("Code" : String).toList ++ '(' :: [] = "Code(".toList := by decide
  have e3 : (')' :: "Code(".toList) = ")Code(".toList := by decide
  have cl : ∀ n, ')' ∉ (decimal n).toList := fun n => decimal_close n rfl
  rcases out t c with ha | ha | ⟨x, hx, ha⟩ <;> rcases out t' c' with hb | hb | ⟨y, hy, hb⟩
  · rw [h] at ha
    have := snd_unique h1 ha hb
    simp only [Prod.mk.injEq] at this
    exact nat this.1 this.2
  · refine absurd ?_ (h2 _ ha)
    simp only [h, hb]; simp
  · refine absurd ?_ (h2 _ ha)
    simp only [h, hb]; simp
  · refine absurd ?_ (h2 _ hb)
    simp only [← h, ha]; simp
  · have := congrArg String.toList (ha.symm.trans (h.trans hb))
    simp only [String.toList_append, ← e1, ← e3, List.append_assoc, List.cons_append,
      List.nil_append] at this
    have := List.append_cancel_left this
    simp only [List.cons.injEq, true_and] at this
    obtain ⟨p1, p2⟩ := split_unique (cl _) (cl _) this
    exact nat (decimal_inj (String.toList_inj.mp p1))
      (decimal_inj (String.toList_inj.mp (List.append_cancel_right (List.append_cancel_left p2))))
  · have := congrArg String.toList (ha.symm.trans (h.trans hb))
    simp only [String.toList_append, ← e1, ← e2, List.append_assoc, List.cons_append,
      List.nil_append] at this
    rw [← List.append_assoc y.toList] at this
    obtain ⟨p1, _⟩ := split_unique (by decide) (by simpa using noparen _ _ hy) this
    exact absurd (String.toList_inj.mp (by simpa using p1.symm)) (h4 _ (lookup_mem hy))
  · refine absurd ?_ (h2 _ hb)
    simp only [← h, ha]; simp
  · have := congrArg String.toList (ha.symm.trans (h.trans hb))
    simp only [String.toList_append, ← e1, ← e2, List.append_assoc, List.cons_append,
      List.nil_append] at this
    rw [← List.append_assoc x.toList] at this
    obtain ⟨p1, _⟩ := split_unique (by simpa using noparen _ _ hx) (by decide) this
    exact absurd (String.toList_inj.mp (by simpa using p1)) (h4 _ (lookup_mem hx))
  · have := congrArg String.toList (ha.symm.trans (h.trans hb))
    simp only [String.toList_append, ← e2, List.append_assoc, List.cons_append,
      List.nil_append] at this
    rw [← List.append_assoc x.toList, ← List.append_assoc y.toList] at this
    obtain ⟨p1, p2⟩ := split_unique (by simpa using noparen _ _ hx) (by simpa using noparen _ _ hy) this
    have hxy := String.toList_inj.mp (List.append_cancel_right p1)
    subst hxy
    exact nat (snd_unique htt.1 (lookup_mem hx) (lookup_mem hy))
      (decimal_inj (String.toList_inj.mp (List.append_cancel_right p2)))

/-- C62, violated: the text of a constant is not always its name. -/
theorem xmClass_name_false : XMClass.string 0xffff = "XMClassExperimeter" := by decide +kernel

/-! ## Flags -/

/-- `joinText` on characters. -/
def joinChars : List (List Char) → List Char
  | [] => []
  | [a] => a
  | a :: b :: l => a ++ ' ' :: joinChars (b :: l)

theorem joinText_chars (l : List String) : (joinText l).toList = joinChars (l.map String.toList) := by
  induction l with
  | nil => rfl
  | cons a t ih =>
    cases t with
    | nil => rfl
    | cons b t =>
      simp only [joinText, String.toList_append, ih, List.map_cons, joinChars, List.append_assoc]
      rfl

theorem joinChars_cons (a : List Char) (l : List (List Char)) :
    joinChars (a :: l) = a ++ if l = [] then [] else ' ' :: joinChars l := by
  cases l <;> simp [joinChars]

/-- A text can be told from all the texts that may follow in the table. -/
def SepFrom (t : List Char) (ts : List (List Char)) : Prop :=
  ∀ u ∈ ts, ¬ u <+: t ∧
    (t <+: u → ∀ v ∈ ts, ¬ (' ' :: v) <+: u.drop t.length ∧ ¬ u.drop t.length <+: (' ' :: v))

instance (t : List Char) (ts : List (List Char)) : Decidable (SepFrom t ts) := by
  unfold SepFrom; infer_instance

/-- Every text of the table can. -/
def SepAll : List (List Char) → Prop
  | [] => True
  | t :: ts => t ≠ [] ∧ SepFrom t ts ∧ SepAll ts

def SepAll.dec : (ts : List (List Char)) → Decidable (SepAll ts)
  | [] => .isTrue trivial
  | t :: ts =>
    have := SepAll.dec ts
    inferInstanceAs (Decidable (t ≠ [] ∧ SepFrom t ts ∧ SepAll ts))

instance (ts : List (List Char)) : Decidable (SepAll ts) := SepAll.dec ts

theorem SepFrom.ne {t : List Char} {ts : List (List Char)} (h : SepFrom t ts) (ht : t ≠ [])
    {A B : List (List Char)} (hA : A.Sublist ts) (hB : B.Sublist ts) :
    joinChars (t :: A) ≠ joinChars B := by
  intro he
  rw [joinChars_cons] at he
  cases B with
  | nil => simp [joinChars, ht] at he
  | cons u B =>
    have hu : u ∈ ts := hB.subset (by simp)
    obtain ⟨h1, h2⟩ := h u hu
    rw [joinChars_cons] at he
    have hp1 : t <+: u ++ (if B = [] then [] else ' ' :: joinChars B) := ⟨_, he⟩
    have hp2 : u <+: u ++ (if B = [] then [] else ' ' :: joinChars B) := ⟨_, rfl⟩
    rcases List.prefix_or_prefix_of_prefix hp1 hp2 with hp | hp
    · obtain ⟨w, rfl⟩ := hp
      have h2 := h2 ⟨w, rfl⟩
      rw [List.append_assoc] at he
      have he := List.append_cancel_left he
      rw [List.drop_left] at h2
      cases A with
      | nil =>
        simp only [if_true] at he
        have : w = [] := by
          cases w with
          | nil => rfl
          | cons => simp at he
        exact h1 (by rw [this]; simp)
      | cons v A =>
        obtain ⟨h3, h4⟩ := h2 v (hA.subset (by simp))
        rw [if_neg (by simp), joinChars_cons, ← List.cons_append] at he
        rcases List.prefix_or_prefix_of_prefix (l₁ := ' ' :: v) (l₂ := w) ⟨_, rfl⟩ ⟨_, he.symm⟩ with hp | hp
        · exact h3 hp
        · exact h4 hp
    · exact h1 hp

theorem joinChars_inj {ts A B : List (List Char)} (h : SepAll ts) (hA : A.Sublist ts)
    (hB : B.Sublist ts) (he : joinChars A = joinChars B) : A = B := by
  induction ts generalizing A B with
  | nil => rw [List.sublist_nil.mp hA, List.sublist_nil.mp hB]
  | cons t ts ih =>
    obtain ⟨h1, h2, h3⟩ := h
    cases hA with
    | cons _ hA =>
      cases hB with
      | cons _ hB => exact ih h3 hA hB he
      | cons_cons _ hB => exact absurd he.symm (h2.ne h1 hB hA)
    | cons_cons _ hA =>
      cases hB with
      | cons _ hB => exact absurd he (h2.ne h1 hA hB)
      | cons_cons _ hB =>
        rename_i A B
        rw [joinChars_cons, joinChars_cons] at he
        have he := List.append_cancel_left he
        congr 1
        by_cases hA0 : A = []
        · by_cases hB0 : B = []
          · rw [hA0, hB0]
          · simp [hA0, hB0] at he
        · by_cases hB0 : B = []
          · simp [hA0, hB0] at he
          · simp only [hA0, hB0, if_false, List.cons.injEq, true_and] at he
            exact ih h3 hA hB he

theorem flagTexts_eq (tbl : List (UInt32 × String)) (f : UInt32) :
    flagTexts tbl f = (tbl.filter (fun p => p.1 &&& f ≠ 0)).map (·.2) := by
  induction tbl with
  | nil => rfl
  | cons p t ih =>
    unfold flagTexts at ih ⊢
    by_cases h : p.1 &&& f ≠ 0
    · rw [List.filterMap_cons_some (by rw [if_pos h]), List.filter_cons_of_pos (by simpa using h), ih]
      rfl
    · rw [List.filterMap_cons_none (by rw [if_neg h]), List.filter_cons_of_neg (by simpa using h), ih]

theorem mem_flagTexts {tbl : List (UInt32 × String)} (hn : (tbl.map (·.2)).Nodup) {m : UInt32}
    {t : String} (hm : (m, t) ∈ tbl) (f : UInt32) : t ∈ flagTexts tbl f ↔ m &&& f ≠ 0 := by
  rw [flagTexts_eq]
  simp only [List.mem_map, List.mem_filter, decide_eq_true_eq]
  constructor
  · rintro ⟨⟨m', t'⟩, ⟨h1, h2⟩, rfl⟩
    rw [← snd_unique hn h1 hm]; exact h2
  · intro h
    exact ⟨(m, t), ⟨hm, h⟩, rfl⟩

theorem mask_testBit (f : UInt32) {i : Nat} (hi : i < 32) :
    UInt32.ofNat (2 ^ i) &&& f ≠ 0 ↔ f.toNat.testBit i = true := by
  have hlt : 2 ^ i < 2 ^ 32 := Nat.pow_lt_pow_right (by omega) hi
  have h1 : (UInt32.ofNat (2 ^ i) &&& f).toNat = 2 ^ i &&& f.toNat := by
    rw [UInt32.toNat_and, UInt32.toNat_ofNat_of_lt' hlt]
  rw [ne_eq, ← UInt32.toNat_inj, h1]
  constructor
  · intro h
    cases hb : f.toNat.testBit i with
    | true => rfl
    | false =>
      refine absurd (Nat.eq_of_testBit_eq fun j => ?_) h
      rw [Nat.testBit_and, Nat.testBit_two_pow]
      by_cases hj : i = j
      · subst hj; simp [hb]
      · simp [hj]
  · intro h h0
    have : (2 ^ i &&& f.toNat).testBit i = false := by rw [h0]; simp
    rw [Nat.testBit_and, Nat.testBit_two_pow_self, h] at this
    simp at this

/-- Agreement on the first `n` bits, as the constants of the masks say it. -/
theorem low_bits {f g : UInt32} {n : Nat} (hn : n < 32)
    (h : ∀ i < n, (UInt32.ofNat (2 ^ i) &&& f ≠ 0 ↔ UInt32.ofNat (2 ^ i) &&& g ≠ 0)) :
    f &&& UInt32.ofNat (2 ^ n - 1) = g &&& UInt32.ofNat (2 ^ n - 1) := by
  have hlt : 2 ^ n - 1 < 2 ^ 32 :=
    Nat.lt_of_le_of_lt (Nat.sub_le _ _) (Nat.pow_lt_pow_right (by omega) hn)
  rw [← UInt32.toNat_inj, UInt32.toNat_and, UInt32.toNat_and, UInt32.toNat_ofNat_of_lt' hlt]
  refine Nat.eq_of_testBit_eq fun i => ?_
  rw [Nat.testBit_and, Nat.testBit_and, Nat.testBit_two_pow_sub_one]
  by_cases hi : i < n
  · have := h i hi
    rw [mask_testBit f (by omega), mask_testBit g (by omega)] at this
    rw [Bool.eq_iff_iff.mpr this]
  · simp [hi]

theorem flagTexts_low {tbl : List (UInt32 × String)} {k : UInt32}
    (hk : ∀ p ∈ tbl, p.1 &&& k = p.1) {f g : UInt32} (h : f &&& k = g &&& k) :
    flagTexts tbl f = flagTexts tbl g := by
  rw [flagTexts_eq, flagTexts_eq]
  congr 1
  refine List.filter_congr fun p hp => ?_
  have : p.1 &&& f = p.1 &&& g := by
    rw [← hk p hp, UInt32.and_assoc, UInt32.and_assoc, UInt32.and_comm k f, UInt32.and_comm k g, h]
  rw [this]

/-- C62: the text of port features determines the sixteen flags of the specification, and
depends on nothing else. -/
theorem portFeature_text (f g : UInt32) :
    PortFeature.string f = PortFeature.string g ↔ f &&& 0xffff = g &&& 0xffff := by
  constructor
  · intro h
    have hs : SepAll (portFeaturesText.map (·.2.toList)) := by decide +kernel
    have hsub : ∀ f, ((flagTexts portFeaturesText f).map String.toList).Sublist
        (portFeaturesText.map (·.2.toList)) := by
      intro f
      rw [flagTexts_eq, List.map_map]
      exact List.filter_sublist.map _
    have h := congrArg String.toList h
    unfold PortFeature.string at h
    rw [joinText_chars, joinText_chars] at h
    have h := joinChars_inj hs (hsub f) (hsub g) h
    have h := List.map_inj_right (fun _ _ => String.toList_inj.mp) |>.mp h
    have hn : (portFeaturesText.map (·.2)).Nodup := by decide +kernel
    refine low_bits (n := 16) (by omega) fun i hi => ?_
    have hm : ∀ i < 16, ∃ p ∈ portFeaturesText, p.1 = UInt32.ofNat (2 ^ i) := by decide +kernel
    obtain ⟨⟨m, t⟩, hp, rfl⟩ := hm i hi
    rw [← mem_flagTexts hn hp f, ← mem_flagTexts hn hp g, h]
  · intro h
    unfold PortFeature.string
    rw [flagTexts_low (k := 0xffff) (by decide +kernel) h]

example : PortFeature.string 0xc020 = "1 Gbps full-duplex pause pause asym" := by decide +kernel

/-- C62: the text of a port configuration determines the seven flags, and depends on nothing
else. -/
theorem portConfig_text (f g : UInt32) :
    PortConfig.string f = PortConfig.string g ↔ f &&& 0x7f = g &&& 0x7f := by
  constructor
  · intro h
    have hs : SepAll ("up".toList :: portConfigText.map (·.2.toList)) := by decide +kernel
    have hsub : ∀ f : UInt32,
        (((if 0x1 &&& f = 0 then ["up"] else []) ++ flagTexts portConfigText f).map String.toList).Sublist
        ("up".toList :: portConfigText.map (·.2.toList)) := by
      intro f
      have h1 : ((flagTexts portConfigText f).map String.toList).Sublist
          (portConfigText.map (·.2.toList)) := by
        rw [flagTexts_eq, List.map_map]
        exact List.filter_sublist.map _
      split
      · exact h1.cons_cons _
      · exact h1.cons _
    have h := congrArg String.toList h
    unfold PortConfig.string at h
    rw [joinText_chars, joinText_chars] at h
    have h := joinChars_inj hs (hsub f) (hsub g) h
    have h := List.map_inj_right (fun _ _ => String.toList_inj.mp) |>.mp h
    have hn : (portConfigText.map (·.2)).Nodup := by decide +kernel
    refine low_bits (n := 7) (by omega) fun i hi => ?_
    have hm : ∀ i < 7, ∃ p ∈ portConfigText, p.1 = UInt32.ofNat (2 ^ i) ∧ p.2 ≠ "up" := by
      decide +kernel
    obtain ⟨⟨m, t⟩, hp, rfl, hu⟩ := hm i hi
    have hmem : ∀ f : UInt32, t ∈ (if 0x1 &&& f = 0 then ["up"] else []) ++ flagTexts portConfigText f ↔
        t ∈ flagTexts portConfigText f := by
      intro f
      simp only at hu
      split <;> simp [hu]
    rw [← mem_flagTexts hn hp f, ← mem_flagTexts hn hp g, ← hmem f, ← hmem g, h]
  · intro h
    unfold PortConfig.string
    rw [flagTexts_low (k := 0x7f) (by decide +kernel) h]
    have : (0x1 : UInt32) &&& f = 0x1 &&& g := by
      rw [show (0x1 : UInt32) = 0x1 &&& 0x7f by decide, UInt32.and_assoc, UInt32.and_assoc,
        UInt32.and_comm _ f, UInt32.and_comm _ g, h]
    rw [this]

example : PortConfig.string 0x0d = "down no recv no recv STP" := by decide +kernel

/-- C62: a port that is not reported as down is reported as up, and never both. -/
theorem portConfig_up (c : UInt32) : (c &&& 1 = 0 ↔ "up".toList <+: (PortConfig.string c).toList) := by
  unfold PortConfig.string
  rw [UInt32.and_comm]
  by_cases h : (0x1 : UInt32) &&& c = 0
  · rw [if_pos h]
    simp only [h, true_iff, List.cons_append, List.nil_append]
    rw [joinText_chars, List.map_cons, joinChars_cons]
    exact ⟨_, rfl⟩
  · rw [if_neg h]
    have h0 : flagTexts portConfigText c = "down" :: flagTexts portConfigText.tail c := by
      unfold flagTexts portConfigText
      rw [List.filterMap_cons_some (by rw [if_pos (by exact h)])]
      rfl
    simp only [h, false_iff, List.nil_append, h0]
    rw [joinText_chars, List.map_cons, joinChars_cons]
    rintro ⟨x, hx⟩
    simp at hx

/-- C62, violated for the state of a port: as soon as two flags are set the text is that of a
port without any flag, "link up", also when the link is down. -/
theorem portState_text_false :
    PortState.string 5 = "link up" ∧ PortState.string 5 = PortState.string 0 ∧
    (5 : UInt32) &&& 1 ≠ 0 := by
  decide +kernel

/-- C62, the part that holds for the state of a port: with at most one flag the text
determines the state.  Missing: states with several flags. -/
theorem portState_text_partial {s u : UInt32} (hs : s ∈ [0, 1, 2, 4]) (hu : u ∈ [0, 1, 2, 4])
    (h : PortState.string s = PortState.string u) : s = u := by
  have : ∀ s ∈ [0, 1, 2, 4], ∀ u ∈ [0, 1, 2, 4], PortState.string s = PortState.string u → s = u := by
    decide +kernel
  exact this s hs u hu h

/-- C62: exactly these states have another text than "link up". -/
theorem portState_up (s : UInt32) : PortState.string s = "link up" ↔ s ≠ 1 ∧ s ≠ 2 ∧ s ≠ 4 := by
  have key : ∀ k : UInt32, s.toNat = k.toNat ↔ s = k := fun k => UInt32.toNat_inj
  unfold PortState.string portStateText
  simp only [List.lookup_cons]
  by_cases h1 : s = 1
  · subst h1; decide
  by_cases h2 : s = 2
  · subst h2; decide
  by_cases h4 : s = 4
  · subst h4; decide
  have e1 : (s.toNat == 1) = false := by simpa using fun h => h1 ((key 1).mp h)
  have e2 : (s.toNat == 2) = false := by simpa using fun h => h2 ((key 2).mp h)
  have e4 : (s.toNat == 4) = false := by simpa using fun h => h4 ((key 4).mp h)
  simp [e1, e2, e4, h1, h2, h4]

/-! ## Table properties -/

theorem joinChars_words {A B : List (List Char)} (hA : ∀ w ∈ A, w ≠ [] ∧ ' ' ∉ w)
    (hB : ∀ w ∈ B, w ≠ [] ∧ ' ' ∉ w) (h : joinChars A = joinChars B) : A = B := by
  induction A generalizing B with
  | nil =>
    cases B with
    | nil => rfl
    | cons b B =>
      rw [joinChars_cons] at h
      have := (hB b (by simp)).1
      simp [joinChars, this] at h
  | cons a A ih =>
    cases B with
    | nil =>
      rw [joinChars_cons] at h
      have := (hA a (by simp)).1
      simp [joinChars, this] at h
    | cons b B =>
      have ha := (hA a (by simp)).2
      have hb := (hB b (by simp)).2
      rw [joinChars_cons, joinChars_cons] at h
      by_cases hA0 : A = []
      · by_cases hB0 : B = []
        · simp [hA0, hB0] at h ⊢; exact h
        · simp only [hA0, hB0, if_true, if_false, List.append_nil] at h
          exact absurd (by rw [h]; simp) ha
      · by_cases hB0 : B = []
        · simp only [hA0, hB0, if_true, if_false, List.append_nil] at h
          exact absurd (by rw [← h]; simp) hb
        · simp only [hA0, hB0, if_false] at h
          obtain ⟨h1, h2⟩ := split_unique ha hb h
          rw [h1, ih (fun w hw => hA w (by simp [hw])) (fun w hw => hB w (by simp [hw])) h2]

/-- The texts of an enumeration are words. -/
theorem textOf_word {tbl : List (Nat × String)} {pre : String}
    (ht : ∀ p ∈ tbl, p.2.toList ≠ [] ∧ ' ' ∉ p.2.toList) (hp : ' ' ∉ pre.toList) (n : Nat) :
    (textOf tbl pre n).toList ≠ [] ∧ ' ' ∉ (textOf tbl pre n).toList := by
  unfold textOf
  cases h : tbl.lookup n with
  | some t => exact ht _ (lookup_mem h)
  | none =>
    refine ⟨by simp, ?_⟩
    simp only [String.toList_append, List.mem_append, not_or]
    exact ⟨⟨⟨hp, by decide⟩, decimal_close n rfl⟩, by decide⟩

theorem sliceText_inj {α : Type} {f : α → String} (hf : ∀ a b, f a = f b → a = b)
    (hw : ∀ a, (f a).toList ≠ [] ∧ ' ' ∉ (f a).toList) {l m : List α}
    (h : sliceText f l = sliceText f m) : l = m := by
  have h := congrArg String.toList h
  simp only [sliceText, String.toList_append] at h
  have h := List.append_cancel_left (List.append_cancel_right h)
  rw [joinText_chars, joinText_chars, List.map_map, List.map_map] at h
  have h := joinChars_words (by simpa using fun a _ => hw a) (by simpa using fun a _ => hw a) h
  exact (List.map_inj_right fun a b hab => hf a b (String.toList_inj.mp hab)).mp h

/-- The text of a property that shows a flag and a list determines them, if that of a list does. -/
theorem propText_inj_of {α : Type} {f : α → String}
    (hs : ∀ l l', sliceText f l = sliceText f l' → l = l') (x y z : String) {m m' : Bool} {l l' : List α}
    (hy : y.toList.head? = some ',')
    (h : x ++ boolText m ++ y ++ sliceText f l ++ z = x ++ boolText m' ++ y ++ sliceText f l' ++ z) :
    m = m' ∧ l = l' := by
  have h := congrArg String.toList h
  simp only [String.toList_append] at h
  have h := List.append_cancel_right h
  simp only [List.append_assoc] at h
  have h := List.append_cancel_left h
  cases hy' : y.toList with
  | nil => rw [hy'] at hy; simp at hy
  | cons c y' =>
    rw [hy'] at hy h
    simp only [List.head?_cons, Option.some.injEq] at hy
    subst hy
    have hb : ∀ b, ',' ∉ (boolText b).toList := by decide
    obtain ⟨h1, h2⟩ := split_unique (hb _) (hb _) h
    refine ⟨?_, hs _ _ (String.toList_inj.mp (List.append_cancel_left h2))⟩
    revert h1
    cases m <;> cases m' <;> simp [boolText]

theorem propText_inj {α : Type} {f : α → String} (hf : ∀ a b, f a = f b → a = b)
    (hw : ∀ a, (f a).toList ≠ [] ∧ ' ' ∉ (f a).toList) (x y z : String) {m m' : Bool} {l l' : List α}
    (hy : y.toList.head? = some ',')
    (h : x ++ boolText m ++ y ++ sliceText f l ++ z = x ++ boolText m' ++ y ++ sliceText f l' ++ z) :
    m = m' ∧ l = l' :=
  propText_inj_of (fun _ _ => sliceText_inj hf hw) x y z hy h

/-- C62: the text of an instructions property determines the property. -/
theorem tablePropInstructions_text {m m' : Bool} {l l' : List UInt16}
    (h : TablePropInstructions.string m l = TablePropInstructions.string m' l') :
    m = m' ∧ l = l' :=
  propText_inj (fun _ _ => instructionType_text)
    (fun _ => textOf_word (by decide +kernel) (by decide) _) _ _ _ (by decide) h

theorem tablePropNextTables_text {m m' : Bool} {l l' : List UInt8}
    (h : TablePropNextTables.string m l = TablePropNextTables.string m' l') :
    m = m' ∧ l = l' := by
  refine propText_inj (fun _ _ => table_text) (fun a => ⟨by simp [Table.string], ?_⟩) _ _ _ (by decide) h
  simp only [Table.string, String.toList_append, List.mem_append, not_or]
  exact ⟨⟨by decide, decimal_close _ rfl⟩, by decide⟩

theorem tablePropWriteActions_text {m m' : Bool} {l l' : List UInt16}
    (h : TablePropWriteActions.string m l = TablePropWriteActions.string m' l') :
    m = m' ∧ l = l' :=
  propText_inj (fun _ _ => actionType_text)
    (fun _ => textOf_word (by decide +kernel) (by decide) _) _ _ _ (by decide) h

theorem tablePropApplyActions_text {m m' : Bool} {l l' : List UInt16}
    (h : TablePropApplyActions.string m l = TablePropApplyActions.string m' l') :
    m = m' ∧ l = l' :=
  propText_inj (fun _ _ => actionType_text)
    (fun _ => textOf_word (by decide +kernel) (by decide) _) _ _ _ (by decide) h

theorem joinChars_close {A : List (List Char)} {c : Char} (hc : c ≠ ' ') (h : ∀ w ∈ A, c ∉ w) :
    c ∉ joinChars A := by
  induction A with
  | nil => simp [joinChars]
  | cons a A ih =>
    rw [joinChars_cons, List.mem_append, not_or]
    refine ⟨h a (by simp), ?_⟩
    split
    · simp
    · simp only [List.mem_cons, not_or]
      exact ⟨hc, ih fun w hw => h w (by simp [hw])⟩

theorem byteText_word (b : UInt8) : (decimal b.toNat).toList ≠ [] ∧ ' ' ∉ (decimal b.toNat).toList := by
  refine ⟨?_, decimal_close _ rfl⟩
  simp [decimal, Nat.repr]

/-- The text of bytes, and where it ends. -/
theorem bytesText_inj {a b : Bytes} {x y : List Char}
    (h : (sliceText (fun b : UInt8 => decimal b.toNat) a).toList ++ x =
      (sliceText (fun b : UInt8 => decimal b.toNat) b).toList ++ y) : a = b ∧ x = y := by
  simp only [sliceText, String.toList_append, List.append_assoc] at h
  have h := List.append_cancel_left h
  have hj : ∀ l : Bytes, ']' ∉ (joinText (l.map fun b => decimal b.toNat)).toList := by
    intro l
    rw [joinText_chars]
    refine joinChars_close (by decide) ?_
    intro w hw
    simp only [List.map_map, List.mem_map] at hw
    obtain ⟨b, _, rfl⟩ := hw
    exact decimal_close _ rfl
  obtain ⟨h1, h2⟩ := split_unique (hj a) (hj b) h
  refine ⟨sliceText_inj (f := fun b : UInt8 => decimal b.toNat)
    (fun _ _ h => UInt8.toNat_inj.mp (decimal_inj h)) byteText_word ?_, h2⟩
  simp only [sliceText, String.toList_inj.mp h1]

/-- The text of a match field determines it, and where it ends. -/
theorem xmText_inj {a b : XM} {x y : List Char} (h : a.text.toList ++ x = b.text.toList ++ y) :
    a = b ∧ x = y := by
  simp only [XM.text, String.toList_append, List.append_assoc] at h
  have h := List.append_cancel_left h
  have wc : ∀ c : UInt16, ' ' ∉ (XMClass.string c).toList := fun _ =>
    (textOf_word (by decide +kernel) (by decide) _).2
  have wt : ∀ t : UInt8, ' ' ∉ (XMType.string t).toList := fun _ =>
    (textOf_word (by decide +kernel) (by decide) _).2
  obtain ⟨h1, h⟩ := split_unique (wc _) (wc _) h
  obtain ⟨h2, h⟩ := split_unique (wt _) (wt _) h
  obtain ⟨h3, h⟩ := bytesText_inj h
  obtain ⟨h4, h⟩ := bytesText_inj (List.append_cancel_left h)
  have h := List.append_cancel_left h
  have h1 := xmClass_text (String.toList_inj.mp h1)
  have h2 := xmType_text (String.toList_inj.mp h2)
  cases a; cases b
  simp_all

theorem xmsChars_inj {l m : List XM}
    (h : joinChars (l.map fun x => x.text.toList) = joinChars (m.map fun x => x.text.toList)) : l = m := by
  have ne : ∀ x : XM, x.text.toList ≠ [] := by intro x; simp [XM.text]
  induction l generalizing m with
  | nil =>
    cases m with
    | nil => rfl
    | cons b m => rw [List.map_cons, joinChars_cons] at h; simp [joinChars, ne] at h
  | cons a l ih =>
    cases m with
    | nil => rw [List.map_cons, joinChars_cons] at h; simp [joinChars, ne] at h
    | cons b m =>
      rw [List.map_cons, List.map_cons, joinChars_cons, joinChars_cons] at h
      obtain ⟨rfl, h2⟩ := xmText_inj h
      cases l with
      | nil => cases m with
        | nil => rfl
        | cons b m => simp at h2
      | cons c l => cases m with
        | nil => simp at h2
        | cons b m =>
          rw [if_neg (by simp), if_neg (by simp)] at h2
          rw [ih (List.cons.inj h2).2]

theorem xmsText_inj {l m : List XM} (h : sliceText XM.text l = sliceText XM.text m) : l = m := by
  have h := congrArg String.toList h
  simp only [sliceText, String.toList_append] at h
  have h := List.append_cancel_left (List.append_cancel_right h)
  rw [joinText_chars, joinText_chars, List.map_map, List.map_map] at h
  exact xmsChars_inj h

/-- C62: the text of an apply-set-field property determines the property. -/
theorem tablePropApplySetField_text {m m' : Bool} {l l' : List XM}
    (h : TablePropApplySetField.string m l = TablePropApplySetField.string m' l') :
    m = m' ∧ l = l' :=
  propText_inj_of (fun _ _ => xmsText_inj) _ _ _ (by decide) h

example : TablePropApplySetField.string false [⟨0x8000, 0, [0, 0, 1, 255], []⟩, ⟨7, 3, [], [9]⟩] =
    "TablePropApplySetField{Miss: false, Fields: [{XMClassOpenflowBasic XMTypeInPort [0 0 1 255] []} {XMClass(7) XMTypeEthDst [] [9]}]}" := by
  decide +kernel

example : TablePropWriteActions.string true [0, 99] =
    "TablePropWriteActions{Miss: true, Actions: [[ActionOutput Action(99)]]}" := by decide +kernel

/-! ## Examples -/

example : Type.string 14 = "TypeFlowMod" ∧ Type.string 99 = "Type(99)" := by decide +kernel

example : ConnState.string 4 = "StateClosed" ∧ ConnState.string (-1) = "ConnState(-1)" := by
  decide +kernel

example : Error.string 1 6 = "ErrCodeBadRequestLen" ∧ Error.string 1 77 = "ErrTypeBadRequestCode(77)" ∧
    Error.string 14 0 = "ErrType(14)Code(0)" := by
  decide +kernel

end Verif.Props
