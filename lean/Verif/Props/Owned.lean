import Verif.Heap
import Verif.Ofp.Meter
import Verif.Ofp.Queue
import Verif.Ofp.Hello
import Verif.Mux
import Verif.Ofptest

/-!
# What has been decoded stays as it is (C85)

A program decodes a message into a variable, keeps a copy of the value (in Go: of the slice, not of
what is behind it) and decodes the next message into the variable.  `k.view m` is what it sees
through the slice `k` when the memory is `m`; the property is that decoding changes it for none of
the slices that the program has.
-/

namespace Verif.Props

open Verif

variable {α τ : Type}

/-- A slice that shares its array with `s` only as far as `s` goes: `s` itself, `s[:i]`, copies of
the variable from before it grew to `s`, and all slices of other arrays. -/
def Behind (s : Slc) : Slc → Prop
  | .nil => True
  | .at a n => match s with
    | .nil => True
    | .at b l => a = b → n ≤ l

/-- The capacity doubles, as in `runtime.growslice` for short slices. -/
private def doubling (zero : τ) : Grow τ := ⟨zero, fun n => n - 1⟩

private def bytes (l : List UInt8) : Rd := .src l [] .eof false

private def goto (t : UInt8) : List UInt8 := [0, 1, 0, 8, t, 0, 0, 0]

/-! ## The decoders on memory decode what the decoders on lists decode -/

private theorem appends_into {G : Grow τ} {h : Step (Mem τ × Slc)} {p : Step (List τ)}
    (ha : Appends G h p) {m : Mem τ} {s : Slc} (hs : s.Valid m) (r : Rd) :
    (h (m, s) r).val.2.Valid (h (m, s) r).val.1 ∧
      p (s.view m) r = ⟨(h (m, s) r).val.2.view (h (m, s) r).val.1, (h (m, s) r).n, (h (m, s) r).err,
        (h (m, s) r).rd⟩ := by
  obtain ⟨xs, k, e, r', h1, h2⟩ := ha r
  rw [h1, h2]
  exact ⟨Slc.appendAll_valid xs hs, by rw [Slc.appendAll_view xs hs]⟩

private theorem kept_of_arr {m m' : Mem α} {a n : Nat} (h : m'.arr a = m.arr a) :
    (Slc.at a n).view m' = (Slc.at a n).view m := by simp [Slc.view, h]

private theorem appends_kept {G : Grow τ} {h : Step (Mem τ × Slc)} {p : Step (List τ)}
    (ha : Appends G h p) {m : Mem τ} {s k : Slc} (hs : s.Valid m) (hk : k.Valid m) (hb : Behind s k)
    (r : Rd) : k.view (h (m, s) r).val.1 = k.view m := by
  obtain ⟨xs, c, e, r', h1, h2⟩ := ha r
  rw [h1]
  cases k with
  | nil => rfl
  | «at» a n =>
    obtain ⟨k1, k2⟩ := hk
    by_cases hw : s.Within a
    · cases s with
      | nil => exact absurd hw id
      | «at» b l =>
        have hba : b = a := hw
        subst hba
        have hl : n ≤ l := hb rfl
        have hl2 := hs.2
        simp only [Slc.view]
        rw [Slc.appendAll_arr xs hs, List.take_take, List.append_assoc,
          List.take_append_of_le_length (by simp; omega), List.take_take]
        congr 1; omega
    · exact kept_of_arr (Slc.appendAll_other xs k1 hw)

/-- Lists of ports. -/
theorem ports_into (G : Grow Port) (m : Mem Port) (s : Slc) (hs : s.Valid m) (r : Rd) :
    (Ports.readInto G (m, s) r).val.2.Valid (Ports.readInto G (m, s) r).val.1 ∧
      Ports.readFrom (s.view m) r =
        ⟨(Ports.readInto G (m, s) r).val.2.view (Ports.readInto G (m, s) r).val.1,
          (Ports.readInto G (m, s) r).n, (Ports.readInto G (m, s) r).err,
          (Ports.readInto G (m, s) r).rd⟩ := appends_into (Ports.appends G) hs r

/-- Lists of instructions. -/
theorem instructions_into (G : Grow Instruction) (m : Mem Instruction) (s : Slc) (hs : s.Valid m)
    (r : Rd) :
    (Instructions.readInto G (m, s) r).val.2.Valid (Instructions.readInto G (m, s) r).val.1 ∧
      Instructions.readFrom (s.view m) r =
        ⟨(Instructions.readInto G (m, s) r).val.2.view (Instructions.readInto G (m, s) r).val.1,
          (Instructions.readInto G (m, s) r).n, (Instructions.readInto G (m, s) r).err,
          (Instructions.readInto G (m, s) r).rd⟩ :=
  appends_into (Enc.scanInto_appends G _ _) hs r

/-- Lists of actions, whatever the receiver holds. -/
theorem actions_into (G : Grow Action) (m : Mem Action) (s : Slc) (l : List Action) (r : Rd) :
    (Actions.readInto G (m, s) r).val.2.Valid (Actions.readInto G (m, s) r).val.1 ∧
      Actions.readFrom l r =
        ⟨(Actions.readInto G (m, s) r).val.2.view (Actions.readInto G (m, s) r).val.1,
          (Actions.readInto G (m, s) r).n, (Actions.readInto G (m, s) r).err,
          (Actions.readInto G (m, s) r).rd⟩ := by
  have h := appends_into (Enc.scanInto_appends G actionMake Action.readFrom) (m := m) (s := .nil) trivial r
  refine ⟨h.1, ?_⟩
  have h2 := h.2
  simp only [Slc.view] at h2
  simp only [Actions.readFrom, Enc.readFrom, Enc.assign, h2, Actions.readInto]
  rcases (Enc.scanInto G actionMake Action.readFrom (m, Slc.nil) r) with ⟨v, n, e, r'⟩
  cases e <;> simp [Slc.view]

/-! ## Decoders that start with a new list -/

private theorem nil_kept {G : Grow τ} {h : Step (Mem τ × Slc)} {p : Step (List τ)}
    (ha : Appends G h p) {m : Mem τ} {k : Slc} (hk : k.Valid m) (r : Rd) :
    k.view (h (m, .nil) r).val.1 = k.view m :=
  appends_kept ha (s := .nil) trivial hk (by cases k <;> trivial) r

private theorem appendAll_nil_new (G : Grow α) (m : Mem α) (xs : List α) :
    (Slc.appendAll G xs (m, .nil)).2 = .nil ∨
      ∃ a n, (Slc.appendAll G xs (m, .nil)).2 = .at a n ∧ m.length ≤ a := by
  suffices H : ∀ (xs : List α) (m' : Mem α) (s : Slc), m.length ≤ m'.length →
      (s = .nil ∨ ∃ a n, s = .at a n ∧ m.length ≤ a) →
      ((Slc.appendAll G xs (m', s)).2 = .nil ∨
        ∃ a n, (Slc.appendAll G xs (m', s)).2 = .at a n ∧ m.length ≤ a) from
    H xs m .nil (Nat.le_refl _) (.inl rfl)
  intro xs
  induction xs with
  | nil => intro m' s _ h; exact h
  | cons x xs ih =>
    intro m' s hm h
    refine ih (Slc.append G x (m', s)).1 (Slc.append G x (m', s)).2
      (Nat.le_trans hm (Slc.append_length (G := G) (x := x) (s := s))) ?_
    rcases h with rfl | ⟨a, n, rfl, ha⟩
    · exact .inr ⟨m'.length, 1, rfl, hm⟩
    · rw [Slc.append_at]
      split
      · exact .inr ⟨a, n + 1, rfl, ha⟩
      · exact .inr ⟨m'.length, n + 1, rfl, hm⟩

/-- Decoding actions changes no list that the program has, and the new list is in a new array. -/
theorem actions_kept (G : Grow Action) (m : Mem Action) (s : Slc) (r : Rd) :
    (∀ k : Slc, k.Valid m → k.view (Actions.readInto G (m, s) r).val.1 = k.view m) ∧
      ∀ a n, (Actions.readInto G (m, s) r).val.2 = .at a n → m.length ≤ a := by
  refine ⟨fun k hk => nil_kept (Enc.scanInto_appends G _ _) hk r, fun a n h => ?_⟩
  obtain ⟨xs, c, e, r', h1, _⟩ := Enc.scanInto_appends G actionMake Action.readFrom r
  simp only [Actions.readInto, h1] at h
  rcases appendAll_nil_new G m xs with h2 | ⟨a', n', h2, h3⟩
  · rw [h2] at h; cases h
  · rw [h2] at h; cases h; exact h3

/-- A list of two actions, and a variable that holds it and decodes another one. -/
example :
    let o := Actions.readInto (doubling (.setQueue 0)) ([[.setQueue 1, .setQueue 0]], .at 0 2)
      (bytes [0, 21, 0, 8, 0, 0, 0, 9])
    (Slc.at 0 2).view o.val.1 = [.setQueue 1, .setQueue 0] ∧ o.val.2.view o.val.1 = [.setQueue 9] ∧
      o.val.2 = .at 1 1 ∧ o.err = none := by decide +kernel

/-- The fields of a match: as actions. -/
theorem match_kept (G : Grow XM) (t : UInt16) (m : Mem XM) (s : Slc) (r : Rd) :
    (∀ k : Slc, k.Valid m → k.view (Match.readInto G (t, m, s) r).val.2.1 = k.view m) ∧
      (∀ a n, (Match.readInto G (t, m, s) r).val.2.2 = .at a n → m.length ≤ a) ∧
      ∀ v : Match, Match.readFrom v r =
        ⟨⟨(Match.readInto G (t, m, s) r).val.1,
            (Match.readInto G (t, m, s) r).val.2.2.view (Match.readInto G (t, m, s) r).val.2.1⟩,
          (Match.readInto G (t, m, s) r).n, (Match.readInto G (t, m, s) r).err,
          (Match.readInto G (t, m, s) r).rd⟩ := by
  simp only [Match.readInto, Match.readFrom, Enc.withLocal, Enc.readFrom, Enc.assign, Enc.num, Enc.bin]
  rcases readFull (Wire.size UInt16) r with ⟨o1, e1, r1⟩
  cases e1 with
  | some e1 => exact ⟨fun k _ => rfl, fun a n h => (by cases h), fun v => rfl⟩
  | none =>
    simp only
    rcases readFull (Wire.size UInt16) r1 with ⟨o2, e2, r2⟩
    cases e2 with
    | some e2 => exact ⟨fun k _ => rfl, fun a n h => (by cases h), fun v => rfl⟩
    | none =>
      simp only [Enc.dyn, Enc.limited, Enc.sub, Enc.skip, Enc.bin]
      obtain ⟨xs, c, e, r', h1, h2⟩ :=
        readAllXMInto_appends G true (.lim ((ofBE UInt16 o2).toNat - 4) r2)
      have hk : ∀ k : Slc, k.Valid m → k.view (Slc.appendAll G xs (m, .nil)).1 = k.view m := by
        intro k hk
        have := nil_kept (readAllXMInto_appends G true) hk (.lim ((ofBE UInt16 o2).toNat - 4) r2)
        rwa [h1] at this
      have hn : ∀ a n, (Slc.appendAll G xs (m, .nil)).2 = .at a n → m.length ≤ a := by
        intro a n h
        rcases appendAll_nil_new G m xs with h2 | ⟨a', n', h2, h3⟩
        · rw [h2] at h; cases h
        · rw [h2] at h; cases h; exact h3
      have hv := Slc.appendAll_view (G := G) xs (m := m) (s := .nil) trivial
      simp only [Slc.view, List.nil_append] at hv
      simp only [h1, h2, List.nil_append]
      cases e with
      | some e => exact ⟨hk, hn, fun v => by simp only [Slc.view, hv]⟩
      | none =>
        simp only
        rcases readFull (padLen (ofBE UInt16 o2).toNat) r'.unlimit with ⟨o3, e3, r3⟩
        cases e3 <;> exact ⟨hk, hn, fun v => by simp only [Slc.view, hv]⟩

/-! ## Decoders that append to the receiver -/

/-- Decoding ports or instructions into a variable does not change the values that the variable had
before, nor anything else that does not reach beyond it. -/
theorem ports_kept (G : Grow Port) (m : Mem Port) (s k : Slc) (hs : s.Valid m) (hk : k.Valid m)
    (hb : Behind s k) (r : Rd) : k.view (Ports.readInto G (m, s) r).val.1 = k.view m :=
  appends_kept (Ports.appends G) hs hk hb r

theorem instructions_kept (G : Grow Instruction) (m : Mem Instruction) (s k : Slc) (hs : s.Valid m)
    (hk : k.Valid m) (hb : Behind s k) (r : Rd) :
    k.view (Instructions.readInto G (m, s) r).val.1 = k.view m :=
  appends_kept (Enc.scanInto_appends G _ _) hs hk hb r

/-- A variable that decodes one stream after the other. -/
def decodeAll (h : Step (Mem τ × Slc)) : List Rd → Mem τ × Slc → Mem τ × Slc
  | [], s => s
  | r :: rs, s => decodeAll h rs (h s r).val

private theorem appendAll_behind {G : Grow τ} (xs : List τ) : ∀ {m : Mem τ} {s k : Slc}, s.Valid m →
    k.Valid m → Behind s k →
    Behind (Slc.appendAll G xs (m, s)).2 k ∧ k.Valid (Slc.appendAll G xs (m, s)).1 := by
  induction xs with
  | nil => intro m s k _ hk hb; exact ⟨hb, hk⟩
  | cons x xs ih =>
    intro m s k hs hk hb
    refine ih (m := (Slc.append G x (m, s)).1) (s := (Slc.append G x (m, s)).2)
      (Slc.append_valid hs) ?_ ?_
    · cases k with
      | nil => trivial
      | «at» a n =>
        refine ⟨Nat.lt_of_lt_of_le hk.1 Slc.append_length, ?_⟩
        by_cases hw : s.Within a
        · cases s with
          | nil => exact absurd hw id
          | «at» b l =>
            have hba : b = a := hw
            subst hba
            have hk2 := hk.2
            rw [Slc.append_at]
            split
            · rw [Mem.arr_set_eq hk.1, List.length_set]; exact hk2
            · rw [Mem.arr_append hk.1]; exact hk2
        · rw [Slc.append_other hk.1 hw]; exact hk.2
    · cases k with
      | nil => trivial
      | «at» a n =>
        cases s with
        | nil => intro h; have := hk.1; omega
        | «at» b l =>
          rw [Slc.append_at]
          split
          · intro h; have := hb h; omega
          · intro h; have := hk.1; omega

private theorem decodeAll_kept {G : Grow τ} {h : Step (Mem τ × Slc)} {p : Step (List τ)}
    (ha : Appends G h p) (rs : List Rd) : ∀ {m : Mem τ} {s k : Slc}, s.Valid m → k.Valid m →
    Behind s k → k.view (decodeAll h rs (m, s)).1 = k.view m := by
  induction rs with
  | nil => intro m s k _ _ _; rfl
  | cons r rs ih =>
    intro m s k hs hk hb
    have h1 := appends_kept ha hs hk hb r
    obtain ⟨xs, c, e, r', h2, _⟩ := ha r
    have h3 := appendAll_behind (G := G) xs hs hk hb
    have h4 := (appends_into ha hs r).1
    simp only [decodeAll]
    rw [h2] at h1 h4 ⊢
    have := ih (m := (Slc.appendAll G xs (m, s)).1) (s := (Slc.appendAll G xs (m, s)).2) h4 h3.2 h3.1
    exact this.trans h1

private theorem decodeAll_valid {G : Grow τ} {h : Step (Mem τ × Slc)} {p : Step (List τ)}
    (ha : Appends G h p) (rs : List Rd) : ∀ {m : Mem τ} {s : Slc}, s.Valid m →
    (decodeAll h rs (m, s)).2.Valid (decodeAll h rs (m, s)).1 := by
  induction rs with
  | nil => intro m s hs; exact hs
  | cons r rs ih => intro m s hs; exact ih (appends_into ha hs r).1

private theorem behind_self (s : Slc) : Behind s s := by
  cases s with
  | nil => trivial
  | «at» a n => exact fun _ => Nat.le_refl n

/-- However many lists a variable has decoded, the values that were copied from it on the way stay
as they were. -/
theorem ports_history (G : Grow Port) (m : Mem Port) (s : Slc) (hs : s.Valid m) (rs rs' : List Rd) :
    (decodeAll (Ports.readInto G) rs (m, s)).2.view
        (decodeAll (Ports.readInto G) rs' (decodeAll (Ports.readInto G) rs (m, s))).1 =
      (decodeAll (Ports.readInto G) rs (m, s)).2.view (decodeAll (Ports.readInto G) rs (m, s)).1 :=
  have hv := decodeAll_valid (Ports.appends G) rs hs
  decodeAll_kept (Ports.appends G) rs' hv hv (behind_self _)

/-- The same of instructions. -/
theorem instructions_history (G : Grow Instruction) (m : Mem Instruction) (s : Slc) (hs : s.Valid m)
    (rs rs' : List Rd) :
    (decodeAll (Instructions.readInto G) rs (m, s)).2.view
        (decodeAll (Instructions.readInto G) rs' (decodeAll (Instructions.readInto G) rs (m, s))).1 =
      (decodeAll (Instructions.readInto G) rs (m, s)).2.view
        (decodeAll (Instructions.readInto G) rs (m, s)).1 :=
  have hv := decodeAll_valid (Enc.scanInto_appends G _ _) rs hs
  decodeAll_kept (Enc.scanInto_appends G _ _) rs' hv hv (behind_self _)

/-- Two instructions, a copy, two more. -/
example :
    let G := doubling Instruction.clearActions
    let x := decodeAll (Instructions.readInto G) [bytes (goto 1 ++ goto 2)] ([], .nil)
    let y := decodeAll (Instructions.readInto G) [bytes (goto 3), bytes (goto 4)] x
    x.2.view y.1 = [.gotoTable 1, .gotoTable 2] ∧
      y.2.view y.1 = [.gotoTable 1, .gotoTable 2, .gotoTable 3, .gotoTable 4] := by decide +kernel


private theorem appendAll_fits {G : Grow τ} (xs : List τ) : ∀ {m : Mem τ} {a n : Nat},
    Slc.Valid m (.at a n) → n + xs.length ≤ (m.arr a).length →
    (Slc.appendAll G xs (m, .at a n)).2 = .at a (n + xs.length) ∧
      (Slc.appendAll G xs (m, .at a n)).1.length = m.length := by
  induction xs with
  | nil => intro m a n _ _; exact ⟨rfl, rfl⟩
  | cons x xs ih =>
    intro m a n hv hl
    simp only [List.length_cons] at hl
    have e : Slc.append G x (m, .at a n) = (List.set m a ((m.arr a).set n x), .at a (n + 1)) := by
      rw [Slc.append_at, if_pos (by omega)]
    have hv2 := Slc.append_valid (G := G) (x := x) hv
    rw [e] at hv2
    have := ih (m := List.set m a ((m.arr a).set n x)) (a := a) (n := n + 1) hv2
      (by rw [Mem.arr_set_eq hv.1, List.length_set]; omega)
    simp only [Slc.appendAll, List.foldl_cons, e] at this ⊢
    rw [this.1, this.2]
    exact ⟨by simp; omega, by simp⟩

/-- Two copies of a variable share the room behind it: what the first has decoded is overwritten by
what the second decodes. -/
private theorem appends_copies {G : Grow τ} {h : Step (Mem τ × Slc)} {p : Step (List τ)}
    (ha : Appends G h p) {m : Mem τ} {a n : Nat} (hs : Slc.Valid m (.at a n)) (r1 r2 : Rd)
    (hf : n + (p [] r1).val.length ≤ (m.arr a).length) :
    (h (m, .at a n) r1).val.2.view (h ((h (m, .at a n) r1).val.1, .at a n) r2).val.1 =
      (Slc.at a n).view m ++ (p [] r2).val.take (p [] r1).val.length ++
        (p [] r1).val.drop (p [] r2).val.length := by
  obtain ⟨xs, k1, e1, q1, h1, p1⟩ := ha r1
  obtain ⟨ys, k2, e2, q2, h2, p2⟩ := ha r2
  rw [p1] at hf ⊢
  rw [p2, h1, h2]
  simp only [List.nil_append] at hf ⊢
  have f1 := appendAll_fits (G := G) xs hs hf
  have a1 := Slc.appendAll_arr (G := G) xs hs
  have hv : Slc.Valid (Slc.appendAll G xs (m, .at a n)).1 (.at a n) := by
    refine ⟨by rw [f1.2]; exact hs.1, ?_⟩
    rw [a1]; have := hs.2; simp; omega
  have a2 := Slc.appendAll_arr (G := G) ys hv
  rw [f1.1]
  simp only [Slc.view]
  rw [a2, a1]
  have hn := hs.2
  generalize m.arr a = A at *
  have e0 : (List.take n A ++ xs ++ List.drop (n + xs.length) A).take A.length =
      List.take n A ++ xs ++ List.drop (n + xs.length) A :=
    List.take_of_length_le (by simp; omega)
  rw [e0, List.take_take]
  have e1 : (List.take n A ++ xs ++ List.drop (n + xs.length) A).take n = List.take n A := by
    rw [List.append_assoc, List.take_append_of_le_length (by simp; omega), List.take_take, Nat.min_self]
  have e2 : (List.take n A ++ xs ++ List.drop (n + xs.length) A).drop (n + ys.length) =
      xs.drop ys.length ++ A.drop (n + xs.length + (ys.length - xs.length)) := by
    rw [List.append_assoc, List.drop_append, List.drop_append]
    simp only [List.length_take, Nat.min_eq_left hn, List.drop_drop]
    rw [List.drop_of_length_le (by simp; omega)]
    simp
  have e3 : min (n + xs.length)
      (List.length (List.take n A ++ xs ++ List.drop (n + xs.length) A)) = n + xs.length := by
    simp; omega
  rw [e1, e2, e3, List.append_assoc, List.append_assoc, List.take_append]
  simp only [List.length_take, Nat.min_eq_left hn, Nat.add_sub_cancel_left, List.take_take]
  rw [Nat.min_eq_right (by omega), List.take_append, List.take_append]
  have e4 : List.take (xs.length - ys.length) (xs.drop ys.length) = xs.drop ys.length :=
    List.take_of_length_le (by simp)
  rw [e4]
  simp

theorem instructions_copies (G : Grow Instruction) (m : Mem Instruction) (a n : Nat)
    (hs : Slc.Valid m (.at a n)) (r1 r2 : Rd)
    (hf : n + (Instructions.readFrom [] r1).val.length ≤ (m.arr a).length) :
    (Instructions.readInto G (m, .at a n) r1).val.2.view
        (Instructions.readInto G ((Instructions.readInto G (m, .at a n) r1).val.1, .at a n) r2).val.1 =
      (Slc.at a n).view m ++
        (Instructions.readFrom [] r2).val.take (Instructions.readFrom [] r1).val.length ++
        (Instructions.readFrom [] r1).val.drop (Instructions.readFrom [] r2).val.length :=
  appends_copies (Enc.scanInto_appends G _ _) hs r1 r2 hf

theorem ports_copies (G : Grow Port) (m : Mem Port) (a n : Nat) (hs : Slc.Valid m (.at a n))
    (r1 r2 : Rd) (hf : n + (Ports.readFrom [] r1).val.length ≤ (m.arr a).length) :
    (Ports.readInto G (m, .at a n) r1).val.2.view
        (Ports.readInto G ((Ports.readInto G (m, .at a n) r1).val.1, .at a n) r2).val.1 =
      (Slc.at a n).view m ++
        (Ports.readFrom [] r2).val.take (Ports.readFrom [] r1).val.length ++
        (Ports.readFrom [] r1).val.drop (Ports.readFrom [] r2).val.length :=
  appends_copies (Ports.appends G) hs r1 r2 hf

/-! ## Decoders that reuse the array of the receiver -/

private theorem clear_arr {G : Grow τ} (xs : List τ) {m : Mem τ} {a n : Nat}
    (hs : Slc.Valid m (.at a n)) :
    (Slc.at a n).view (Slc.appendAll G xs (m, (Slc.at a n).clear)).1 =
      xs.take ((Slc.at a n).view m).length ++ ((Slc.at a n).view m).drop xs.length := by
  have h := Slc.appendAll_arr (G := G) xs (m := m) (a := a) (n := 0) ⟨hs.1, Nat.zero_le _⟩
  have hn := hs.2
  simp only [Slc.clear, Slc.view]
  rw [h, List.take_take]
  simp only [List.take_zero, List.nil_append, Nat.zero_add, List.length_take, Nat.min_eq_left hn]
  rw [List.take_append, List.drop_take]

/-- What is left of a copy of the list of actions or instructions of a table property when the
property decodes another list: the elements are replaced by those of the new list, as far as it
goes. -/
theorem table_codes_copy (G : Grow UInt16) (hd : Step (UInt16 × UInt16)) (miss : Bool)
    (m : Mem UInt16) (s : Slc) (hs : s.Valid m) (r : Rd) :
    s.view (readTablePropCodesInto G hd (miss, m, s) r).val.2.1 =
        (readTablePropCodes hd (miss, s.view m) r).val.2.take (s.view m).length ++
          (s.view m).drop (readTablePropCodes hd (miss, s.view m) r).val.2.length ∧
      readTablePropCodes hd (miss, s.view m) r =
        ⟨((readTablePropCodesInto G hd (miss, m, s) r).val.1,
            (readTablePropCodesInto G hd (miss, m, s) r).val.2.2.view
              (readTablePropCodesInto G hd (miss, m, s) r).val.2.1),
          (readTablePropCodesInto G hd (miss, m, s) r).n, (readTablePropCodesInto G hd (miss, m, s) r).err,
          (readTablePropCodesInto G hd (miss, m, s) r).rd⟩ := by
  simp only [readTablePropCodesInto, readTablePropCodes, Enc.withLocal, Enc.readFrom, yieldTableProp,
    Enc.bin, Enc.assign]
  rcases readFull 4 r with ⟨o1, e1, r1⟩
  cases e1 with
  | some e1 => exact ⟨by simp, rfl⟩
  | none =>
    simp only [Enc.dyn, Enc.limited, Enc.sub, Enc.skip, Enc.bin]
    obtain ⟨xs, c, e, r', h1, h2⟩ :=
      readTypeCodesInto_appends G hd (.lim (ofBE UInt16 (o1.drop 2) - 4).toNat r1)
    have hc : s.clear.Valid m := by
      cases s with
      | nil => trivial
      | «at» a n => exact ⟨hs.1, Nat.zero_le _⟩
    have hcv : s.clear.view m = [] := by cases s <;> simp [Slc.clear, Slc.view]
    have hv := Slc.appendAll_view (G := G) xs hc
    rw [hcv, List.nil_append] at hv
    have hk : s.view (Slc.appendAll G xs (m, s.clear)).1 =
        xs.take (s.view m).length ++ (s.view m).drop xs.length := by
      cases s with
      | nil => simp [Slc.view]
      | «at» a n => exact clear_arr xs hs
    simp only [h1, h2, List.nil_append]
    cases e with
    | some e => exact ⟨hk, by simp only [hv]⟩
    | none =>
      simp only
      rcases readFull (padLen (ofBE UInt16 (o1.drop 2)).toNat) r'.unlimit with ⟨o3, e3, r3⟩
      cases e3 <;> exact ⟨hk, by simp only [hv]⟩

/-- The same of the fields of a table property. -/
theorem table_fields_copy (G : Grow XM) (hasMiss miss : Bool) (m : Mem XM) (s : Slc) (hs : s.Valid m)
    (r : Rd) :
    s.view (readTablePropXMInto G hasMiss (miss, m, s) r).val.2.1 =
        (readTablePropXM hasMiss (miss, s.view m) r).val.2.take (s.view m).length ++
          (s.view m).drop (readTablePropXM hasMiss (miss, s.view m) r).val.2.length ∧
      readTablePropXM hasMiss (miss, s.view m) r =
        ⟨((readTablePropXMInto G hasMiss (miss, m, s) r).val.1,
            (readTablePropXMInto G hasMiss (miss, m, s) r).val.2.2.view
              (readTablePropXMInto G hasMiss (miss, m, s) r).val.2.1),
          (readTablePropXMInto G hasMiss (miss, m, s) r).n,
          (readTablePropXMInto G hasMiss (miss, m, s) r).err,
          (readTablePropXMInto G hasMiss (miss, m, s) r).rd⟩ := by
  simp only [readTablePropXMInto, readTablePropXM, Enc.withLocal, Enc.readFrom, yieldTableProp,
    Enc.bin, Enc.assign]
  rcases readFull 4 r with ⟨o1, e1, r1⟩
  cases e1 with
  | some e1 => exact ⟨by simp, rfl⟩
  | none =>
    simp only [Enc.dyn, Enc.limited, Enc.sub, Enc.skip, Enc.bin]
    obtain ⟨xs, c, e, r', h1, h2⟩ :=
      readAllXMInto_appends G false (.lim (ofBE UInt16 (o1.drop 2) - 4).toNat r1)
    have hc : s.clear.Valid m := by
      cases s with
      | nil => trivial
      | «at» a n => exact ⟨hs.1, Nat.zero_le _⟩
    have hcv : s.clear.view m = [] := by cases s <;> simp [Slc.clear, Slc.view]
    have hv := Slc.appendAll_view (G := G) xs hc
    rw [hcv, List.nil_append] at hv
    have hk : s.view (Slc.appendAll G xs (m, s.clear)).1 =
        xs.take (s.view m).length ++ (s.view m).drop xs.length := by
      cases s with
      | nil => simp [Slc.view]
      | «at» a n => exact clear_arr xs hs
    simp only [h1, h2, List.nil_append]
    cases e with
    | some e => exact ⟨hk, by simp only [hv]⟩
    | none =>
      simp only
      rcases readFull (padLen (ofBE UInt16 (o1.drop 2)).toNat) r'.unlimit with ⟨o3, e3, r3⟩
      cases e3 <;> exact ⟨hk, by simp only [hv]⟩


/-- Slices of other arrays stay as they are. -/
theorem table_codes_kept_partial (G : Grow UInt16) (hd : Step (UInt16 × UInt16)) (miss : Bool)
    (m : Mem UInt16) (s k : Slc) (hk : k.Valid m) (ha : ∀ a, k.Within a → ¬ s.Within a) (r : Rd) :
    k.view (readTablePropCodesInto G hd (miss, m, s) r).val.2.1 = k.view m := by
  simp only [readTablePropCodesInto, Enc.withLocal, Enc.readFrom, yieldTableProp,
    Enc.bin, Enc.assign]
  rcases readFull 4 r with ⟨o1, e1, r1⟩
  cases e1 with
  | some e1 => rfl
  | none =>
    simp only [Enc.dyn, Enc.limited, Enc.sub, Enc.skip, Enc.bin]
    obtain ⟨xs, c, e, r', h1, h2⟩ :=
      readTypeCodesInto_appends G hd (.lim (ofBE UInt16 (o1.drop 2) - 4).toNat r1)
    have hv : k.view (Slc.appendAll G xs (m, s.clear)).1 = k.view m := by
      cases k with
      | nil => rfl
      | «at» a n =>
        refine kept_of_arr (Slc.appendAll_other xs hk.1 ?_)
        have := ha a rfl
        cases s <;> exact this
    simp only [h1]
    cases e with
    | some e => exact hv
    | none =>
      simp only
      rcases readFull (padLen (ofBE UInt16 (o1.drop 2)).toNat) r'.unlimit with ⟨o3, e3, r3⟩
      cases e3 <;> exact hv

/-- A list that is elsewhere. -/
example :
    (Slc.at 1 2).view (readTablePropCodesInto (doubling 0) actionHeader.readFrom
      (false, [[11], [12, 16]], .at 0 1) (bytes [0, 4, 0, 8, 0, 25, 0, 4])).val.2.1 = [12, 16] ∧
    (Slc.at 0 1).view (readTablePropCodesInto (doubling 0) actionHeader.readFrom
      (false, [[11], [12, 16]], .at 0 1) (bytes [0, 4, 0, 8, 0, 25, 0, 4])).val.2.1 = [25] := by
  decide +kernel

theorem table_fields_kept_partial (G : Grow XM) (hasMiss miss : Bool) (m : Mem XM) (s k : Slc)
    (hk : k.Valid m) (ha : ∀ a, k.Within a → ¬ s.Within a) (r : Rd) :
    k.view (readTablePropXMInto G hasMiss (miss, m, s) r).val.2.1 = k.view m := by
  simp only [readTablePropXMInto, Enc.withLocal, Enc.readFrom, yieldTableProp,
    Enc.bin, Enc.assign]
  rcases readFull 4 r with ⟨o1, e1, r1⟩
  cases e1 with
  | some e1 => rfl
  | none =>
    simp only [Enc.dyn, Enc.limited, Enc.sub, Enc.skip, Enc.bin]
    obtain ⟨xs, c, e, r', h1, h2⟩ :=
      readAllXMInto_appends G false (.lim (ofBE UInt16 (o1.drop 2) - 4).toNat r1)
    have hv : k.view (Slc.appendAll G xs (m, s.clear)).1 = k.view m := by
      cases k with
      | nil => rfl
      | «at» a n =>
        refine kept_of_arr (Slc.appendAll_other xs hk.1 ?_)
        have := ha a rfl
        cases s <;> exact this
    simp only [h1]
    cases e with
    | some e => exact hv
    | none =>
      simp only
      rcases readFull (padLen (ofBE UInt16 (o1.drop 2)).toNat) r'.unlimit with ⟨o3, e3, r3⟩
      cases e3 <;> exact hv

/-- The property for one decoder: nothing that the program has changes. -/
def Leaves (h : Step (Mem τ × Slc)) : Prop :=
  ∀ (m : Mem τ) (s k : Slc) (r : Rd), s.Valid m → k.Valid m → k.view (h (m, s) r).val.1 = k.view m

theorem actions_leaves (G : Grow Action) : Leaves (Actions.readInto G) :=
  fun m s k r _ hk => (actions_kept G m s r).1 k hk

/-- The properties that are decoded with the features of a table are new ones in a new list. -/
theorem table_properties_leaves (G : Grow TableProp) : Leaves (TableFeatures.propertiesInto G) :=
  fun _ _ _ r _ hk => nil_kept (Enc.scanInto_appends G _ _) hk r

theorem table_properties_into (G : Grow TableProp) (m : Mem TableProp) (s : Slc) (r : Rd) :
    Enc.scanFrom tablePropMake TableProp.readFrom [] r =
      ⟨(TableFeatures.propertiesInto G (m, s) r).val.2.view (TableFeatures.propertiesInto G (m, s) r).val.1,
        (TableFeatures.propertiesInto G (m, s) r).n, (TableFeatures.propertiesInto G (m, s) r).err,
        (TableFeatures.propertiesInto G (m, s) r).rd⟩ :=
  (appends_into (Enc.scanInto_appends G tablePropMake TableProp.readFrom) (m := m) (s := .nil) trivial r).2

/-! ## Decoders that lose their list -/

/-- Meter bands, queue properties and hello elements are appended to a copy of the caller's slice:
the caller's slice does not change, but the elements behind it in its array do. -/
theorem lost_overwrites (G : Grow τ) (mk : UInt16 → Except Err τ) (st : Step τ) (m : Mem τ)
    (a n l : Nat) (hs : Slc.Valid m (.at a n)) (hk : Slc.Valid m (.at a l)) (r : Rd) :
    (Enc.scanLost G mk st (m, .at a n) r).val.2 = .at a n ∧
    (Slc.at a l).view (Enc.scanLost G mk st (m, .at a n) r).val.1 =
      (((m.arr a).take n ++ (Enc.scanFrom mk st [] r).val ++
        (m.arr a).drop (n + (Enc.scanFrom mk st [] r).val.length))).take l := by
  obtain ⟨xs, c, e, r', h1, h2⟩ := Enc.scanInto_appends G mk st r
  refine ⟨rfl, ?_⟩
  simp only [Enc.scanLost, h1, h2, List.nil_append, Slc.view]
  rw [Slc.appendAll_arr xs hs, List.take_take, Nat.min_eq_left hk.2]

/-- Slices that do not reach beyond the caller's do not change. -/
theorem lost_kept_partial (G : Grow τ) (mk : UInt16 → Except Err τ) (st : Step τ) (m : Mem τ)
    (s k : Slc) (hs : s.Valid m) (hk : k.Valid m) (hb : Behind s k) (r : Rd) :
    k.view (Enc.scanLost G mk st (m, s) r).val.1 = k.view m :=
  appends_kept (Enc.scanInto_appends G mk st) hs hk hb r

private theorem slice_fold (G : Grow τ) (xs : List τ) : ∀ (m : Mem τ) (s k : Slc), s.Valid m →
    k.Valid m →
    (Behind s k → k.view (xs.foldl (fun m x => (Slc.append G x (m, s)).1) m) = k.view m) ∧
    (∀ a n l, s = .at a n → k = .at a l → n < l →
      k.view (xs.foldl (fun m x => (Slc.append G x (m, s)).1) m) =
        match xs.getLast? with
        | none => k.view m
        | some x => (k.view m).set n x) := by
  induction xs with
  | nil => intro m s k _ _; exact ⟨fun _ => rfl, fun _ _ _ _ _ _ => rfl⟩
  | cons x xs ih =>
    intro m s k hs hk
    have hs' : s.Valid (Slc.append G x (m, s)).1 := by
      cases s with
      | nil => trivial
      | «at» b l => exact ((appendAll_behind (G := G) [x] hs hs (behind_self _)).2 : _)
    have hk' : k.Valid (Slc.append G x (m, s)).1 := by
      cases k with
      | nil => trivial
      | «at» a n =>
        refine ⟨Nat.lt_of_lt_of_le hk.1 Slc.append_length, ?_⟩
        by_cases hw : s.Within a
        · cases s with
          | nil => exact absurd hw id
          | «at» b l =>
            have hba : b = a := hw
            subst hba
            have hk2 := hk.2
            rw [Slc.append_at]
            split
            · rw [Mem.arr_set_eq hk.1, List.length_set]; exact hk2
            · rw [Mem.arr_append hk.1]; exact hk2
        · rw [Slc.append_other hk.1 hw]; exact hk.2
    obtain ⟨i1, i2⟩ := ih (Slc.append G x (m, s)).1 s k hs' hk'
    refine ⟨fun hb => ?_, fun a n l es ek hl => ?_⟩
    · have h1 : k.view (Slc.append G x (m, s)).1 = k.view m := by
        cases k with
        | nil => rfl
        | «at» a n =>
          by_cases hw : s.Within a
          · cases s with
            | nil => exact absurd hw id
            | «at» b l =>
              have hba : b = a := hw
              subst hba
              have hl := hb rfl
              rw [Slc.append_at]
              split
              · simp only [Slc.view]
                rw [Mem.arr_set_eq hk.1, List.take_set_of_le hl]
              · exact kept_of_arr (Mem.arr_append hk.1)
          · exact kept_of_arr (Slc.append_other hk.1 hw)
      exact (i1 hb).trans h1
    · have h2 := i2 a n l es ek hl
      subst es ek
      have hkl := hk.2
      have h3 : (Slc.at a l).view (Slc.append G x (m, .at a n)).1 = ((Slc.at a l).view m).set n x := by
        rw [Slc.append_at, if_pos (by omega)]
        simp only [Slc.view]
        rw [Mem.arr_set_eq hk.1, List.take_set]
      rw [List.foldl_cons, h2, h3]
      cases xs with
      | nil => rfl
      | cons y ys =>
        rw [List.getLast?_cons_cons]
        cases hg : (y :: ys).getLast? with
        | none => simp at hg
        | some z => simp [List.set_set]

/-- The lists of buckets, counters and queues are appended, element by element, to the caller's slice
and dropped: the element behind the slice is replaced by the last one decoded. -/
theorem slice_overwrites (G : Grow τ) (zero : τ) (st : Step τ) (m : Mem τ) (a n l : Nat)
    (hs : Slc.Valid m (.at a n)) (hk : Slc.Valid m (.at a l)) (hl : n < l) (r : Rd) :
    (Enc.readSliceInto G zero st (m, .at a n) r).val.2 = .at a n ∧
    (Slc.at a l).view (Enc.readSliceInto G zero st (m, .at a n) r).val.1 =
      match (Enc.readFunc zero st r).val.getLast? with
      | none => (Slc.at a l).view m
      | some x => ((Slc.at a l).view m).set n x := by
  obtain ⟨xs, c, e, r', h1⟩ := Enc.readFuncCb_eq zero st (r.content.length + 1) 0 r
  refine ⟨rfl, ?_⟩
  simp only [Enc.readSliceInto, Enc.readFunc, Enc.readFuncLoop_eq, h1, foldl_snoc, List.nil_append]
  exact (slice_fold G xs m (.at a n) (.at a l) hs hk).2 a n l rfl rfl hl

theorem slice_kept_partial (G : Grow τ) (zero : τ) (st : Step τ) (m : Mem τ) (s k : Slc)
    (hs : s.Valid m) (hk : k.Valid m) (hb : Behind s k) (r : Rd) :
    k.view (Enc.readSliceInto G zero st (m, s) r).val.1 = k.view m := by
  obtain ⟨xs, c, e, r', h1⟩ := Enc.readFuncCb_eq zero st (r.content.length + 1) 0 r
  simp only [Enc.readSliceInto, h1]
  exact (slice_fold G xs m s k hs hk).1 hb

/-- Two of three counters, and the counters behind them. -/
example :
    let o := Enc.readSliceInto (doubling ⟨0, 0⟩) ⟨0, 0⟩ BucketCounter.readFrom
      ([[⟨1, 1⟩, ⟨2, 2⟩, ⟨3, 3⟩]], .at 0 1) (bytes (zeros 15 ++ [8] ++ zeros 15 ++ [9]))
    (Slc.at 0 1).view o.val.1 = [⟨1, 1⟩] ∧ (Slc.at 0 3).view o.val.1 = [⟨1, 1⟩, ⟨0, 9⟩, ⟨3, 3⟩] := by
  decide +kernel

/-! ## Bytes -/

/-- The address of a port modification is read in place: the variable keeps its slice, and what is
seen through it, and through every copy of it, is the address of the new message.  Other arrays, and
what lies behind the slice in its own, stay as they are. -/
theorem portMod_copy (F : Err) (p : PortModM) (h : p.hwAddr.2.Valid p.hwAddr.1) (r : Rd)
    (hr : Rd.Ok F r) :
    (PortModM.readInto p r).val.hwAddr.2 = p.hwAddr.2 ∧
    p.hwAddr.2.view (PortModM.readInto p r).val.hwAddr.1 = (PortMod.readFrom p.view r).val.hwAddr ∧
    PortMod.readFrom p.view r = ⟨(PortModM.readInto p r).val.view, (PortModM.readInto p r).n,
      (PortModM.readInto p r).err, (PortModM.readInto p r).rd⟩ ∧
    (∀ k : Slc, (∀ a, k.Within a → ¬ p.hwAddr.2.Within a) →
      k.view (PortModM.readInto p r).val.hwAddr.1 = k.view p.hwAddr.1) ∧
    ∀ a n, p.hwAddr.2 = .at a n →
      ((PortModM.readInto p r).val.hwAddr.1.arr a).drop n = (p.hwAddr.1.arr a).drop n := by
  let I : PortModM → Prop := fun s => s.hwAddr.2 = p.hwAddr.2 ∧ s.hwAddr.2.Valid s.hwAddr.1 ∧
      (∀ a, ¬ p.hwAddr.2.Within a → s.hwAddr.1.arr a = p.hwAddr.1.arr a) ∧
      ∀ a n, p.hwAddr.2 = .at a n → (s.hwAddr.1.arr a).drop n = (p.hwAddr.1.arr a).drop n
  have hI : ∀ s, I s → I s := fun _ h => h
  have hs : Simulates I I I PortModM.view PortModM.readInto PortMod.readFrom :=
    Simulates.cons (Simulates.num hI fun x s h => ⟨h, rfl⟩) <| Simulates.cons (Simulates.skip hI) <|
    Simulates.cons (Simulates.dynBin hI hI (fun s _ => rfl) fun b s hb ⟨i1, i2, i3, i4⟩ =>
      ⟨⟨i1, Slc.fill_valid i2 hb, fun a ha => (Slc.fill_other (by rw [i1]; exact ha)).trans (i3 a ha),
        fun a n e => by
          rw [← i4 a n e]
          rw [i1, e] at i2
          rw [i1, e, Slc.view_length i2] at hb
          simp only [i1, e, Slc.fill]
          rw [Mem.arr_set_eq i2.1, ← hb, List.drop_left]⟩, by
        simp only [PortModM.view, Slc.fill_view i2 hb]⟩) <|
    Simulates.cons (Simulates.skip hI) <|
    Simulates.cons (Simulates.num hI fun x s h => ⟨h, rfl⟩) <|
    Simulates.cons (Simulates.num hI fun x s h => ⟨h, rfl⟩) <|
    Simulates.cons (Simulates.num hI fun x s h => ⟨h, rfl⟩) <|
    Simulates.cons (Simulates.skip hI) <| Simulates.nil hI
  obtain ⟨⟨h1, h2, h3, h5⟩, _, _, h4⟩ := hs F p r hr ⟨rfl, h, fun _ _ => rfl, fun _ _ _ => rfl⟩
  refine ⟨h1, by rw [h4]; simp only [PortModM.view, h1], h4, fun k hk => ?_, h5⟩
  cases k with
  | nil => rfl
  | «at» a n => simp only [Slc.view]; rw [h3 a (hk a rfl)]

/-- The value and the mask of a match are in new arrays: decoding a match changes no bytes that the
program has. -/
theorem xm_kept (F : Err) (hp : Bool) (x : XMM)
    (r : Rd) (hr : Rd.Ok F r) :
    (∀ k : Slc, k.Valid x.mem → k.view (XMM.readInto hp x r).val.mem = k.view x.mem) ∧
    XM.read hp x.view r =
      ⟨(XMM.readInto hp x r).val.view, (XMM.readInto hp x r).n, (XMM.readInto hp x r).err,
        (XMM.readInto hp x r).rd⟩ := by
  let K : XMM × XMLocal → Prop := fun s => x.mem.Since s.1.mem
  let I : XMM × XMLocal → Prop := fun s => s.1.mem = x.mem ∧ s.1.value = x.value ∧ s.1.mask = x.mask
  let J : XMM × XMLocal → Prop := fun s => K s ∧ s.1.mask = .nil ∧ s.1.value.Valid s.1.mem ∧
    ∃ b, x.mem.length ≤ b ∧ s.1.value = .at b s.2.1.toNat
  have hI : ∀ s, I s → K s := fun s h => by
    show x.mem.Since s.1.mem
    rw [h.1]; exact Mem.Since.refl _
  have hJ : ∀ s, J s → K s := fun s h => h.1
  have hK : ∀ s, K s → K s := fun s h => h
  have hlast : Simulates K J K (fun s : XMM × XMLocal => (s.1.view, s.2))
      (Enc.readFrom [Enc.assign (fun s =>
        if s.2.2 then
          let length := s.2.1.toNat / 2
          let a := s.1.mem.make (((s.1.value.view s.1.mem).drop length).take length)
          ({ s.1 with mem := a.1, mask := a.2, value := s.1.value.cut length }, s.2)
        else s)])
      (Enc.readFrom [Enc.assign (fun s =>
        if s.2.2 then
          let length := s.2.1.toNat / 2
          ({ s.1 with mask := (s.1.value.drop length).take length,
                      value := s.1.value.take length }, s.2)
        else s)]) := by
    refine Simulates.cons (Simulates.assign hK fun s h => ?_) (Simulates.nil hK)
    obtain ⟨j1, j2, j3, b, j4, j5⟩ := h
    split
    · refine ⟨Mem.Since.make j1 _, ?_⟩
      simp only [XMM.view, Mem.make_view, Prod.mk.injEq, XM.mk.injEq, true_and, and_true]
      rw [j5] at j3 ⊢
      have j6 := j3.1
      simp only [Slc.cut, Slc.view, Mem.make]
      rw [Mem.arr_append j6, List.take_take, Nat.min_eq_left (by omega)]
    · exact ⟨j1, rfl⟩
  have hs : Simulates K I K (fun s : XMM × XMLocal => (s.1.view, s.2))
      (Enc.readFrom [
        Enc.num (fun v s => ({ s.1 with cls := v }, s.2)),
        Enc.num (fun v s => ({ s.1 with type := v }, s.2)),
        Enc.num (fun v s => (s.1, (v, s.2.2))),
        Enc.assign (fun s =>
          let a := s.1.mem.make (zeros s.2.1.toNat)
          ({ s.1 with type := s.1.type >>> 1, mem := a.1, value := a.2, mask := .nil },
            (s.2.1, s.1.type &&& 1 == 1))),
        if hp then
          Enc.dyn (fun s => Enc.bin s.2.1.toNat
            (fun b s => ({ s.1 with mem := s.1.value.fill s.1.mem b }, s.2)))
        else Enc.assign id,
        Enc.assign (fun s =>
          if s.2.2 then
            let length := s.2.1.toNat / 2
            let a := s.1.mem.make (((s.1.value.view s.1.mem).drop length).take length)
            ({ s.1 with mem := a.1, mask := a.2, value := s.1.value.cut length }, s.2)
          else s)])
      (Enc.readFrom [
        Enc.num (fun v s => ({ s.1 with cls := v }, s.2)),
        Enc.num (fun v s => ({ s.1 with type := v }, s.2)),
        Enc.num (fun v s => (s.1, (v, s.2.2))),
        Enc.assign (fun s =>
          ({ s.1 with type := s.1.type >>> 1, value := zeros s.2.1.toNat, mask := [] },
            (s.2.1, s.1.type &&& 1 == 1))),
        if hp then
          Enc.dyn (fun s => Enc.bin s.2.1.toNat (fun b s => ({ s.1 with value := b }, s.2)))
        else Enc.assign id,
        Enc.assign (fun s =>
          if s.2.2 then
            let length := s.2.1.toNat / 2
            ({ s.1 with mask := (s.1.value.drop length).take length,
                        value := s.1.value.take length }, s.2)
          else s)]) := by
    refine Simulates.cons (Simulates.num hI fun v s h => ⟨h, rfl⟩) <|
      Simulates.cons (Simulates.num hI fun v s h => ⟨h, rfl⟩) <|
      Simulates.cons (Simulates.num hI fun v s h => ⟨h, rfl⟩) <|
      Simulates.cons (M := J) (Simulates.assign hJ fun s h => ⟨⟨(hI s h).make _, rfl, Mem.make_valid _ _, ?_⟩, ?_⟩) <|
      Simulates.cons (M := J) ?_ hlast
    · exact ⟨s.1.mem.length, Nat.le_of_eq (congrArg _ h.1.symm), by simp [Mem.make]⟩
    · simp only [XMM.view, Mem.make_view]; rfl
    · cases hp with
      | false => exact Simulates.assign hJ fun s h => ⟨h, rfl⟩
      | true =>
        refine Simulates.dynBin hJ hJ (fun s _ => rfl) fun b s hb h => ?_
        obtain ⟨j1, j2, j3, c, j4, j5⟩ := h
        have hb' : b.length = (s.1.value.view s.1.mem).length := by
          rw [j5] at j3 ⊢; rw [Slc.view_length j3]; exact hb
        refine ⟨⟨?_, j2, Slc.fill_valid j3 hb', c, j4, j5⟩, ?_⟩
        · show x.mem.Since (s.1.value.fill s.1.mem b)
          rw [j5]; exact Mem.Since.fill j1 j4 b
        · simp only [XMM.view, Slc.fill_view j3 hb', j2]; rfl
  obtain ⟨a0, _, _, a3⟩ := hs F (x, (0, false)) r hr ⟨rfl, rfl, rfl⟩
  refine ⟨fun k hk => Mem.Since.view a0 hk, ?_⟩
  simp only [XM.read, XMM.readInto, Enc.withLocal]
  exact congrArg (fun o : Out (XM × XMLocal) => (⟨o.val.1, o.n, o.err, o.rd⟩ : Out XM)) a3

/-- A match with a mask: four bytes of value, cut to two, and two of mask. -/
example :
    let o := XMM.readInto true ⟨0x8000, 5, [[1, 2]], .at 0 2, .nil⟩
      (bytes [0x80, 0, 11, 4, 8, 6, 0xff, 0xfe])
    (Slc.at 0 2).view o.val.mem = [1, 2] ∧ o.val.value = .at 1 2 ∧
      o.val.view = ⟨0x8000, 5, [8, 6], [0xff, 0xfe]⟩ ∧ o.err = none ∧ o.n = 8 := by decide +kernel

/-- The address of a port is in a new array. -/
theorem port_kept (F : Err) (p : PortM) (r : Rd) (hr : Rd.Ok F r) :
    (∀ k : Slc, k.Valid p.hwAddr.1 → k.view (PortM.readInto p r).val.hwAddr.1 = k.view p.hwAddr.1) ∧
    (∃ a, p.hwAddr.1.length ≤ a ∧ (PortM.readInto p r).val.hwAddr.2 = .at a 6) ∧
    Port.readFrom p.view r = ⟨(PortM.readInto p r).val.view, (PortM.readInto p r).n,
      (PortM.readInto p r).err, (PortM.readInto p r).rd⟩ := by
  let K : PortM × Bytes → Prop := fun s => p.hwAddr.1.Since s.1.hwAddr.1 ∧
    s.1.hwAddr.2.Valid s.1.hwAddr.1 ∧ ∃ a, p.hwAddr.1.length ≤ a ∧ s.1.hwAddr.2 = .at a 6
  let I : PortM × Bytes → Prop := fun s => s.1.hwAddr = p.hwAddr
  have hK : ∀ s, K s → K s := fun s h => h
  have hs : Simulates K I K (fun s : PortM × Bytes => (s.1.view, s.2)) PortM.steps Port.fields := by
    refine Simulates.cons (Simulates.assign hK fun s h => ⟨⟨?_, Mem.make_valid _ _, ?_⟩, ?_⟩) <|
      Simulates.cons (Simulates.num hK fun v s h => ⟨h, rfl⟩) <| Simulates.cons (Simulates.skip hK) <|
      Simulates.cons (Simulates.bin hK hK fun b s hb h => ?_) <|
      Simulates.cons (Simulates.skip hK) <|
      Simulates.cons (Simulates.bin hK hK fun b s hb h => ⟨h, rfl⟩) <|
      Simulates.cons (Simulates.num hK fun v s h => ⟨h, rfl⟩) <|
      Simulates.cons (Simulates.num hK fun v s h => ⟨h, rfl⟩) <|
      Simulates.cons (Simulates.num hK fun v s h => ⟨h, rfl⟩) <|
      Simulates.cons (Simulates.num hK fun v s h => ⟨h, rfl⟩) <|
      Simulates.cons (Simulates.num hK fun v s h => ⟨h, rfl⟩) <|
      Simulates.cons (Simulates.num hK fun v s h => ⟨h, rfl⟩) <|
      Simulates.cons (Simulates.num hK fun v s h => ⟨h, rfl⟩) <|
      Simulates.cons (Simulates.num hK fun v s h => ⟨h, rfl⟩) <| Simulates.nil hK
    · have h' : s.1.hwAddr = p.hwAddr := h
      simp only [h']; exact (Mem.Since.refl _).make _
    · have h' : s.1.hwAddr = p.hwAddr := h
      exact ⟨p.hwAddr.1.length, Nat.le_refl _, by simp only [h', Mem.make, zeros, List.length_replicate]⟩
    · simp only [PortM.view, Mem.make_view]
    · obtain ⟨j1, j2, c, j4, j5⟩ := h
      have hb' : b.length = (s.1.hwAddr.2.view s.1.hwAddr.1).length := by
        rw [j5] at j2 ⊢; rw [Slc.view_length j2]; exact hb
      refine ⟨⟨?_, Slc.fill_valid j2 hb', c, j4, j5⟩, ?_⟩
      · simp only [j5]; exact Mem.Since.fill j1 j4 b
      · simp only [PortM.view, Slc.fill_view j2 hb']
  obtain ⟨⟨a0, a1, a2⟩, _, _, a3⟩ := hs F (p, zeros 16) r hr rfl
  refine ⟨fun k hk => Mem.Since.view a0 hk, a2, ?_⟩
  simp only [Port.readFrom, PortM.readInto, Enc.withLocal, Enc.always]
  exact congrArg (fun o : Out (Port × Bytes) =>
    (⟨{ o.val.1 with name := o.val.2 }, o.n, o.err, o.rd⟩ : Out Port)) a3

/-- The list of the next tables is in a new array. -/
theorem next_tables_kept (F : Err) (miss : Bool) (m : Mem UInt8) (s : Slc) (r : Rd) (hr : Rd.Ok F r) :
    (∀ k : Slc, k.Valid m → k.view (readNextTablesInto (miss, m, s) r).val.2.1 = k.view m) ∧
    readNextTables (miss, s.view m) r =
      ⟨((readNextTablesInto (miss, m, s) r).val.1,
          (readNextTablesInto (miss, m, s) r).val.2.2.view (readNextTablesInto (miss, m, s) r).val.2.1),
        (readNextTablesInto (miss, m, s) r).n, (readNextTablesInto (miss, m, s) r).err,
        (readNextTablesInto (miss, m, s) r).rd⟩ := by
  let K : (Bool × Mem UInt8 × Slc) × UInt16 → Prop := fun q => m.Since q.1.2.1
  let I : (Bool × Mem UInt8 × Slc) × UInt16 → Prop := fun q => q.1.2.1 = m
  let J : (Bool × Mem UInt8 × Slc) × UInt16 → Prop := fun q => K q ∧ q.1.2.2.Valid q.1.2.1 ∧
    ∃ b, m.length ≤ b ∧ q.1.2.2 = .at b (q.2 - 4).toNat
  have hI : ∀ q, I q → K q := fun q h => by
    show m.Since q.1.2.1
    rw [show q.1.2.1 = m from h]; exact Mem.Since.refl _
  have hJ : ∀ q, J q → K q := fun q h => h.1
  have hs : Simulates K I J
      (fun q : (Bool × Mem UInt8 × Slc) × UInt16 => ((q.1.1, q.1.2.2.view q.1.2.1), q.2))
      (Enc.readFrom [
        yieldTableProp true,
        Enc.assign (fun s => ((s.1.1, s.1.2.1.make (zeros (s.2 - 4).toNat)), s.2)),
        Enc.dyn (fun s => Enc.bin (s.2 - 4).toNat
          (fun b s => ((s.1.1, s.1.2.2.fill s.1.2.1 b, s.1.2.2), s.2))),
        Enc.dyn (fun s => Enc.skip (padLen s.2.toNat))])
      (Enc.readFrom [
        yieldTableProp true,
        Enc.assign (fun s => ((s.1.1, zeros (s.2 - 4).toNat), s.2)),
        Enc.dyn (fun s => Enc.bin (s.2 - 4).toNat (fun b s => ((s.1.1, b), s.2))),
        Enc.dyn (fun s => Enc.skip (padLen s.2.toNat))]) := by
    refine Simulates.cons (M := I) (Simulates.bin hI hI fun b q hb h => ⟨h, rfl⟩) <|
      Simulates.cons (M := J) (Simulates.assign hJ fun q h =>
        ⟨⟨(hI q h).make _, Mem.make_valid _ _, ?_⟩, ?_⟩) <|
      Simulates.cons (M := J) (Simulates.dynBin hJ hJ (fun _ _ => rfl) fun b q hb h => ?_) <|
      Simulates.cons (Simulates.dynBin hJ hJ (fun _ _ => rfl) fun b q hb h => ⟨h, rfl⟩) (Simulates.nil hJ)
    · exact ⟨q.1.2.1.length, Nat.le_of_eq (congrArg _ (show q.1.2.1 = m from h).symm), by
        simp [Mem.make, zeros]⟩
    · simp only [Mem.make_view]
    · obtain ⟨j1, j2, c, j4, j5⟩ := h
      have hb' : b.length = (q.1.2.2.view q.1.2.1).length := by
        rw [j5] at j2 ⊢; rw [Slc.view_length j2]; exact hb
      refine ⟨⟨?_, Slc.fill_valid j2 hb', c, j4, j5⟩, ?_⟩
      · show m.Since (q.1.2.2.fill q.1.2.1 b)
        rw [j5]; exact Mem.Since.fill j1 j4 b
      · simp only [Slc.fill_view j2 hb']
  obtain ⟨a0, _, _, a3⟩ := hs F ((miss, m, s), 0) r hr rfl
  refine ⟨fun k hk => Mem.Since.view a0 hk, ?_⟩
  simp only [readNextTables, readNextTablesInto, Enc.withLocal]
  exact congrArg (fun o : Out ((Bool × Bytes) × UInt16) =>
    (⟨o.val.1, o.n, o.err, o.rd⟩ : Out (Bool × Bytes))) a3

/-! ## The recorder -/

/-- What `All` has returned stays as it was however many messages are recorded later. -/
theorem recorder_all_kept (G : Grow Request) (r : RecorderM) (hr : r.2.Valid r.1)
    (ws : List (Header × Option (Nat → Wr))) :
    r.all.view (ws.foldl (fun r w => RecorderM.write G w.1 w.2 r) r).1 = r.all.view r.1 ∧
      (ws.foldl (fun r w => RecorderM.write G w.1 w.2 r) r).all.view
          (ws.foldl (fun r w => RecorderM.write G w.1 w.2 r) r).1 =
        (ws.foldl (fun r w => (r.write w.1 w.2).2) (⟨r.2.view r.1⟩ : Recorder)).all := by
  have h1 : ∀ (ws : List (Header × Option (Nat → Wr))) (r : RecorderM),
      ws.foldl (fun r w => RecorderM.write G w.1 w.2 r) r =
        Slc.appendAll G (ws.map fun w => { newRequest w.1.type w.2 with header := w.1 }) r := by
    intro ws
    induction ws with
    | nil => intro r; rfl
    | cons w ws ih => intro r; exact ih _
  have h2 : ∀ (ws : List (Header × Option (Nat → Wr))) (r : Recorder),
      (ws.foldl (fun r w => (r.write w.1 w.2).2) r).reqs =
        r.reqs ++ ws.map fun w => { newRequest w.1.type w.2 with header := w.1 } := by
    intro ws
    induction ws with
    | nil => intro r; simp
    | cons w ws ih =>
      intro r
      rw [List.foldl_cons, ih, List.map_cons]
      simp [Recorder.write]
  rw [h1]
  obtain ⟨m, s⟩ := r
  refine ⟨?_, ?_⟩
  · show s.view _ = s.view m
    cases s with
    | nil => rfl
    | «at» a n =>
      have hl := hr.2
      simp only [Slc.view]
      rw [Slc.appendAll_arr _ hr, List.take_take, List.append_assoc,
        List.take_append_of_le_length (by rw [List.length_take]; omega), List.take_take]
      congr 1; omega
  · show (Slc.appendAll G _ (m, s)).2.view _ = _
    rw [Slc.appendAll_view _ hr, Recorder.all, h2]

/-- The slice that `All` returns shares the room behind it with the recorder: a message that the
program appends to it is replaced by the next one that the recorder gets. -/
theorem recorder_append_lost (G : Grow Request) (m : Mem Request) (a n : Nat)
    (hr : Slc.Valid m (.at a n)) (hc : n < (m.arr a).length) (q : Request) (h : Header)
    (w : Option (Nat → Wr)) :
    (Slc.append G q (m, RecorderM.all (m, .at a n))).2.view
        (RecorderM.write G h w ((Slc.append G q (m, RecorderM.all (m, .at a n))).1, .at a n)).1 =
      (RecorderM.all (m, .at a n)).view m ++ [{ newRequest h.type w with header := h }] := by
  simp only [RecorderM.all, RecorderM.write, Slc.append_at]
  rw [if_pos hc]
  simp only [Mem.arr_set_eq hr.1, List.length_set]
  rw [if_pos hc]
  simp only [Slc.view]
  rw [Mem.arr_set_eq (by rw [List.length_set]; exact hr.1), List.set_set,
    List.take_succ_eq_append_getElem (by rw [List.length_set]; exact hc)]
  rw [List.take_set_of_le (Nat.le_refl n), List.getElem_set_self]

/-- Three messages have been recorded, in an array with room for four. -/
example : Slc.Valid (List.foldl (fun r (h : Header) => RecorderM.write (doubling (newRequest 0 none)) h none r)
      (([], .nil) : RecorderM) [⟨4, 0, 8, 1⟩, ⟨4, 2, 8, 2⟩, ⟨4, 5, 8, 3⟩]).1 (.at 2 3) ∧
    3 < (Mem.arr (List.foldl (fun r (h : Header) => RecorderM.write (doubling (newRequest 0 none)) h none r)
      (([], .nil) : RecorderM) [⟨4, 0, 8, 1⟩, ⟨4, 2, 8, 2⟩, ⟨4, 5, 8, 3⟩]).1 2).length :=
  ⟨⟨by decide, by decide⟩, by decide⟩

/-! ## Matchers -/

/-- `MultiMatcher` keeps the slice of its caller (`MultiMatcher(ms...)`): when the program assigns an
element later, the matcher tests the new one in its place. -/
theorem multi_matcher_shares (m : Mem MatchFn) (s : Slc) (hs : s.Valid m) (i : Nat) (g : MatchFn) :
    multiMatcherM (s.set m i g) s = multiMatch ((s.view m).set i g) := by
  cases s with
  | nil => rfl
  | «at» a n =>
    simp only [multiMatcherM, Slc.set, Slc.view]
    rw [Mem.arr_set_eq hs.1, List.take_set]

/-! ## The property does not hold -/

/-- A copy of the list of a table property shows the elements of the next one, whatever the allocator
does. -/
theorem table_codes_false (G : Grow UInt16) :
    ¬ ∀ (miss : Bool) (m : Mem UInt16) (s k : Slc) (r : Rd), s.Valid m → k.Valid m →
      k.view (readTablePropCodesInto G actionHeader.readFrom (miss, m, s) r).val.2.1 = k.view m := by
  intro h
  have h1 := h false [[11]] (.at 0 1) (.at 0 1) (bytes [0, 4, 0, 8, 0, 25, 0, 4]) (by decide) (by decide)
  rw [(table_codes_copy G actionHeader.readFrom false [[11]] (.at 0 1) (by decide) _).1] at h1
  exact absurd h1 (by decide +kernel)

theorem table_fields_false (G : Grow XM) :
    ¬ ∀ (hasMiss miss : Bool) (m : Mem XM) (s k : Slc) (r : Rd), s.Valid m → k.Valid m →
      k.view (readTablePropXMInto G hasMiss (miss, m, s) r).val.2.1 = k.view m := by
  intro h
  have h1 := h false false [[XM.zero]] (.at 0 1) (.at 0 1) (bytes [0, 8, 0, 8, 0x80, 0, 6, 6]) (by decide)
    (by decide)
  rw [(table_fields_copy G false false [[XM.zero]] (.at 0 1) (by decide) _).1] at h1
  exact absurd h1 (by decide +kernel)

/-- Three instructions are decoded into a variable, the variable is copied, and one more instruction
is decoded into each of the two: the first shows what the second has decoded. -/
theorem instructions_copies_false :
    let G := doubling Instruction.clearActions
    let x := (Instructions.readInto G ([], .nil) (bytes (goto 1 ++ goto 2 ++ goto 3))).val
    let y := (Instructions.readInto G x (bytes (goto 4))).val
    let z := (Instructions.readInto G (y.1, x.2) (bytes (goto 5))).val
    y.2.view y.1 = [.gotoTable 1, .gotoTable 2, .gotoTable 3, .gotoTable 4] ∧
    y.2.view z.1 = [.gotoTable 1, .gotoTable 2, .gotoTable 3, .gotoTable 5] := by
  decide +kernel

/-- Instructions and ports are written over what other slices show behind the receiver. -/
theorem instructions_leaves_false (G : Grow Instruction) : ¬ Leaves (Instructions.readInto G) := by
  intro h
  have h1 := h [[.gotoTable 1, .gotoTable 2]] (.at 0 1) (.at 0 2) (bytes (goto 5)) (by decide) (by decide)
  have h2 := (lost_overwrites G instructionMake Instruction.readFrom [[.gotoTable 1, .gotoTable 2]] 0 1 2
    (by decide) (by decide) (bytes (goto 5))).2
  exact absurd (h1.symm.trans h2) (by decide +kernel)

/-- Meter bands are written there too, and the slice does not even get them. -/
theorem meterBands_leaves_false (G : Grow MeterBand) :
    ¬ Leaves (Enc.scanLost G meterBandMake MeterBand.readFrom) := by
  intro h
  have h1 := h [[.drop 1 1, .drop 2 2]] (.at 0 1) (.at 0 2)
    (bytes [0, 1, 0, 16, 0, 0, 0, 7, 0, 0, 0, 8, 0, 0, 0, 0]) (by decide) (by decide)
  have h2 := (lost_overwrites G meterBandMake MeterBand.readFrom [[.drop 1 1, .drop 2 2]] 0 1 2
    (by decide) (by decide) (bytes [0, 1, 0, 16, 0, 0, 0, 7, 0, 0, 0, 8, 0, 0, 0, 0])).2
  exact absurd (h1.symm.trans h2) (by decide +kernel)

/-- So are the statistics of buckets (and the other lists of `encoding.ReadSliceFrom`). -/
theorem bucketCounters_leaves_false (G : Grow BucketCounter) :
    ¬ Leaves (Enc.readSliceInto G ⟨0, 0⟩ BucketCounter.readFrom) := by
  intro h
  have h1 := h [[⟨1, 1⟩, ⟨2, 2⟩]] (.at 0 1) (.at 0 2)
    (bytes [0, 0, 0, 0, 0, 0, 0, 7, 0, 0, 0, 0, 0, 0, 0, 8]) (by decide) (by decide)
  have h2 := (slice_overwrites G ⟨0, 0⟩ BucketCounter.readFrom [[⟨1, 1⟩, ⟨2, 2⟩]] 0 1 2
    (by decide) (by decide) (by decide) (bytes [0, 0, 0, 0, 0, 0, 0, 7, 0, 0, 0, 0, 0, 0, 0, 8])).2
  exact absurd (h1.symm.trans h2) (by decide +kernel)

/-- A copy of a port modification shows the address of the next one. -/
theorem portMod_copy_false :
    ¬ ∀ (p : PortModM) (r : Rd), p.hwAddr.2.Valid p.hwAddr.1 →
      p.hwAddr.2.view (PortModM.readInto p r).val.hwAddr.1 = p.hwAddr.2.view p.hwAddr.1 := by
  intro h
  have h1 := h ⟨1, ([[1, 2, 3, 4, 5, 6]], .at 0 6), 0, 0, 0⟩
    (bytes (be (9 : UInt32) ++ zeros 4 ++ [6, 5, 4, 3, 2, 1] ++ zeros 2 ++ zeros 16)) (by decide)
  exact absurd h1 (by decide +kernel)

/-- A matcher built from a slice matches other messages after the slice has been written to. -/
theorem multi_matcher_false :
    ¬ ∀ (m : Mem MatchFn) (s : Slc) (i : Nat) (g : MatchFn), s.Valid m →
      multiMatcherM (s.set m i g) s = multiMatcherM m s := by
  intro h
  have h1 := h [[typeMatch 10]] (.at 0 1) 0 (typeMatch 11) ⟨by decide, by decide⟩
  rw [multi_matcher_shares [[typeMatch 10]] (.at 0 1) ⟨by decide, by decide⟩] at h1
  have h2 := congrArg Prod.fst (congrFun h1 { newRequest 10 none with header := ⟨4, 10, 8, 1⟩ })
  exact absurd h2 (by decide +kernel)

end Verif.Props
