import Verif.CutsMore
import Verif.Spec.Wire

/-!
# Truncated messages (C40)

C40 is false for the code: `encoding.ScanFrom` and `encoding.ReadFunc` take the `io.EOF` that
`binary.Read` returns at the boundary of two fields of an element for the regular end of the
list.  A list cut there is accepted, and `ScanFrom`'s callers keep the half-decoded element.
The theorems say exactly which truncations are accepted; every other one is rejected.

`r` ranges over every reader without a transport fault whose bytes are the truncated
encoding: every fragmentation, every nesting of `io.LimitReader` and `bufio.Reader`.
-/

namespace Verif.Props

/-! ## Actions -/

/-- The truncation points of an encoded action at which the decoder of a list of actions sees
no error: fewer than the two bytes of the type, and the boundaries of the fields (the header
is one or two fields, depending on the action).  For a set-field action also every point
in the padding. -/
def SilentAction : Action → Nat → Prop
  | .output .., k => k ∈ [0, 1, 2, 4, 8, 10]
  | .copyTTLOut, k | .copyTTLIn, k | .decMPLSTTL, k | .popVLAN, k | .decNwTTL, k => k ∈ [0, 1]
  | .setMPLSTTL .., k => k ∈ [0, 1, 2, 4, 5]
  | .setNwTTL .., k => k ∈ [0, 1, 4, 5]
  | .pushVLAN .., k | .pushMPLS .., k | .popMPLS .., k | .pushPBB .., k => k ∈ [0, 1, 4, 6]
  | .setQueue .., k | .group .., k | .experimenter .., k => k ∈ [0, 1, 4]
  | .setField f, k => k ∈ [0, 1, 2, 4, 6, 7, 8] ∨ 8 + f.value.length + f.mask.length ≤ k

instance (a : Action) (k : Nat) : Decidable (SilentAction a k) := by
  cases a <;> unfold SilentAction <;> infer_instance

theorem bind_skipEOF_ite (p : Prop) [Decidable p] :
    ((if p then some Err.eof else some .unexpectedEOF).bind skipEOF) = if p then none else some .unexpectedEOF := by
  split <;> rfl

/-- The model's table of errors against the table above. -/
theorem actions_cutErr (a : Action) (k : Nat) :
    Actions.cutErr a k = if SilentAction a k then none else some .unexpectedEOF := by
  unfold Actions.cutErr
  by_cases h2 : k < 2
  · have h01 : k = 0 ∨ k = 1 := by omega
    rw [if_pos h2, if_pos]
    rcases h01 with rfl | rfl <;> cases a <;> simp [SilentAction]
  · rw [if_neg h2]
    have h0 : k ≠ 0 := by omega
    have h1 : k ≠ 1 := by omega
    cases a with
    | setField f =>
      simp only [Action.cutErr, SilentAction]
      by_cases h8 : 8 + f.value.length + f.mask.length ≤ k
      · simp [h8]
      · simp only [h8, if_false, or_false, bind_skipEOF_ite]
        simp [h1]
    | _ =>
      simp only [Action.cutErr, SilentAction, bind_skipEOF_ite]
      simp [h0, h1]

/-- C40.  Missing: the truncations in `SilentAction`, which are accepted (see
`actions_truncated_accepted`).  A list of actions that ends with the first `k` bytes of the
action `a` is accepted exactly at the truncation points of `SilentAction`, every other one is
rejected with `io.ErrUnexpectedEOF`.  The complete actions are decoded; when two or more bytes
of `a` are there, the list has one element more, whether or not there is an error. -/
theorem actions_truncated_partial (as : List Action) (a : Action) (hv : ∀ a ∈ as, a.Valid) (ha : a.Valid)
    (k : Nat) (hk : k < a.writeTo.out.length) (s : List Action) (r : Rd) (hr : r.Ok .eof)
    (hc : r.content = (Actions.writeTo as).out ++ a.writeTo.out.take k) :
    ((Actions.readFrom s r).err = none ↔ SilentAction a k) ∧
    (¬ SilentAction a k → (Actions.readFrom s r).err = some .unexpectedEOF) ∧
    ∃ t, (Actions.readFrom s r).val = as ++ t ∧ t.length = if k < 2 then 0 else 1 := by
  rw [Actions.writeTo_eq] at hc
  rw [show a.writeTo.out = a.bytes from rfl, Action.bytes_length] at hk
  obtain ⟨h1, h2, _⟩ := Actions.stops as a hv ha k hk s r hr hc
  rw [actions_cutErr] at h1
  refine ⟨?_, ?_, h2⟩
  · rw [h1]; split <;> simp_all
  · intro h; rw [h1, if_neg h]

example : (Action.output 7 0).Valid ∧ 3 < (Action.output 7 0).writeTo.out.length ∧
    ¬ SilentAction (.output 7 0) 3 ∧ SilentAction (.output 7 0) 4 := by decide

/-- C40 is violated.  An output action to port 7 cut after its header (4 of 16 bytes)
decodes without an error to an output action to port 0. -/
theorem actions_truncated_accepted : ∃ (a : Action) (k : Nat), a.Valid ∧ 0 < k ∧ k < a.writeTo.out.length ∧
    ∃ r : Rd, r.Ok .eof ∧ r.content = a.writeTo.out.take k ∧
      (Actions.readFrom [] r).err = none ∧ (Actions.readFrom [] r).val = [.output 0 0] := by
  refine ⟨.output 7 128, 4, by decide, by decide, by decide,
    .src ((Action.output 7 128).writeTo.out.take 4) [] .eof false, rfl, rfl, ?_, ?_⟩ <;> decide +kernel

/-- The accepted truncation points of a whole list. -/
def SilentActions (as : List Action) (k : Nat) : Prop :=
  ∃ as1 a as2 j, as = as1 ++ a :: as2 ∧ k = (Actions.writeTo as1).out.length + j ∧
    j < a.writeTo.out.length ∧ SilentAction a j

theorem actions_cut (as : List Action) (k : Nat) (hk : k < (Actions.bytes as).length) :
    (Actions.cut as k = none ↔ SilentActions as k) ∧
    (Actions.cut as k = none ∨ Actions.cut as k = some .unexpectedEOF) := by
  obtain ⟨as1, a, as2, j, h1, h2, h3, h4, h5⟩ := Actions.cut_split as k hk
  have hor : Actions.cut as k = none ∨ Actions.cut as k = some .unexpectedEOF := by
    rw [h5, actions_cutErr]; split <;> simp
  refine ⟨⟨?_, ?_⟩, hor⟩
  · intro h
    rw [h5, actions_cutErr] at h
    refine ⟨as1, a, as2, j, h1, by rw [Actions.writeTo_eq]; exact h2,
      by rw [show a.writeTo.out = a.bytes from rfl, a.bytes_length]; exact h3, ?_⟩
    by_cases hs : SilentAction a j
    · exact hs
    · rw [if_neg hs] at h; cases h
  · rintro ⟨bs1, b, bs2, i, g1, g2, g3, g4⟩
    rw [Actions.writeTo_eq] at g2
    rw [show b.writeTo.out = b.bytes from rfl, b.bytes_length] at g3
    have key : ∀ (bs1 : List Action) (as : List Action) (k : Nat), as = bs1 ++ b :: bs2 →
        k = (Actions.bytes bs1).length + i → Actions.cut as k = Actions.cutErr b i := by
      intro bs1
      induction bs1 with
      | nil => rintro _ k rfl hk; simp [Actions.bytes] at hk; simp [Actions.cut, hk, g3]
      | cons c bs1 ih =>
        rintro _ k rfl hk
        have hb : Actions.bytes (c :: bs1) = c.bytes ++ Actions.bytes bs1 := rfl
        rw [hb, List.length_append, c.bytes_length] at hk
        have : ¬ k < c.size := by omega
        simp only [List.cons_append, Actions.cut, this, if_false]
        exact ih _ _ rfl (by omega)
    rw [key bs1 as k g1 g2, actions_cutErr, if_pos g4]

/-! ## Instructions -/

/-- The truncation points of an encoded instruction at which the decoder of a list of
instructions sees no error. -/
def SilentInstruction : Instruction → Nat → Prop
  | .gotoTable .., k => k ∈ [0, 1, 2, 4, 5]
  | .writeMetadata .., k => k ∈ [0, 1, 2, 4, 8, 16]
  | .clearActions, k => k ∈ [0, 1]
  | .meter .., k => k ∈ [0, 1, 2, 4]
  | .writeActions as, k | .applyActions as, k => k ∈ [0, 1, 2, 4] ∨ (8 ≤ k ∧ SilentActions as (k - 8))

theorem instructions_cutErr (i : Instruction) (k : Nat) (hk : k < i.size) :
    (Instructions.cutErr i k = none ↔ SilentInstruction i k) ∧
    (Instructions.cutErr i k = none ∨ Instructions.cutErr i k = some .unexpectedEOF) := by
  unfold Instructions.cutErr
  by_cases h2 : k < 2
  · have h01 : k = 0 ∨ k = 1 := by omega
    rw [if_pos h2]
    refine ⟨⟨fun _ => ?_, fun _ => rfl⟩, .inl rfl⟩
    rcases h01 with rfl | rfl <;> cases i <;> simp [SilentInstruction]
  · rw [if_neg h2]
    have h0 : k ≠ 0 := by omega
    have h1 : k ≠ 1 := by omega
    have main : ∀ as : List Action, k < 8 + (as.map Action.size).sum →
        (((if k < 8 then (if k ∈ [0, 2, 4] then some Err.eof else some .unexpectedEOF)
          else Actions.cut as (k - 8)).bind skipEOF = none ↔
            (k ∈ [0, 1, 2, 4] ∨ (8 ≤ k ∧ SilentActions as (k - 8)))) ∧
        ((if k < 8 then (if k ∈ [0, 2, 4] then some Err.eof else some .unexpectedEOF)
          else Actions.cut as (k - 8)).bind skipEOF = none ∨
         (if k < 8 then (if k ∈ [0, 2, 4] then some Err.eof else some .unexpectedEOF)
          else Actions.cut as (k - 8)).bind skipEOF = some .unexpectedEOF)) := by
      intro as hk
      by_cases h8 : k < 8
      · have h8' : ¬ 8 ≤ k := by omega
        simp only [h8, if_true, bind_skipEOF_ite, h8', false_and, or_false]
        by_cases hm : k ∈ [0, 2, 4]
        · simp only [List.mem_cons, List.not_mem_nil, or_false] at hm
          rw [if_pos (by simpa using hm)]; simp; omega
        · rw [if_neg hm]
          simp only [List.mem_cons, List.not_mem_nil, or_false] at hm
          simp; omega
      · have h8' : 8 ≤ k := by omega
        have hc := actions_cut as (k - 8) (by rw [Actions.bytes_length]; omega)
        have hb : (Actions.cut as (k - 8)).bind skipEOF = Actions.cut as (k - 8) := by
          rcases hc.2 with h | h <;> rw [h] <;> rfl
        have hm : ¬ k ∈ [0, 1, 2, 4] := by simp; omega
        simp only [h8, if_false, hb, h8', true_and, hm, false_or]
        exact hc
    cases i with
    | writeActions as => exact main as hk
    | applyActions as => exact main as hk
    | _ =>
      simp only [Instruction.cutErr, SilentInstruction, bind_skipEOF_ite]
      constructor
      · split <;> simp_all
      · split <;> simp

/-- C40.  Missing: the truncations in `SilentInstruction`, which are accepted.  A list of
instructions that ends with the first `k` bytes of `i` is accepted exactly at the truncation
points of `SilentInstruction`, every other one is rejected with `io.ErrUnexpectedEOF`. -/
theorem instructions_truncated_partial (is : List Instruction) (i : Instruction)
    (hv : ∀ i ∈ is, i.Valid) (hi : i.Valid) (k : Nat) (hk : k < i.writeTo.out.length)
    (s : List Instruction) (r : Rd) (hr : r.Ok .eof)
    (hc : r.content = (Instructions.writeTo is).out ++ i.writeTo.out.take k) :
    ((Instructions.readFrom s r).err = none ↔ SilentInstruction i k) ∧
    (¬ SilentInstruction i k → (Instructions.readFrom s r).err = some .unexpectedEOF) ∧
    ∃ t, (Instructions.readFrom s r).val = s ++ is ++ t ∧ t.length = if k < 2 then 0 else 1 := by
  rw [Instructions.writeTo_eq] at hc
  rw [show i.writeTo.out = i.bytes from rfl, Instruction.bytes_length] at hk
  obtain ⟨h1, h2, _⟩ := Instructions.stops is i hv hi k hk s r hr hc
  have hs := instructions_cutErr i k hk
  rw [h1]
  refine ⟨hs.1, ?_, h2⟩
  intro h
  rcases hs.2 with h' | h'
  · exact absurd (hs.1.1 h') h
  · exact h'

example : (Instruction.applyActions [.output 7 0]).Valid ∧
    9 < (Instruction.applyActions [.output 7 0]).writeTo.out.length ∧
    ¬ SilentInstruction (.meter 7) 3 ∧ SilentInstruction (.meter 7) 4 := by
  refine ⟨by decide, by decide, ?_, ?_⟩ <;> simp [SilentInstruction]

/-! ## Matches -/

/-- The truncation points of an encoded match at which its decoder sees no error: the encoded
match needs no padding, and it is cut before the payload of a field. -/
def SilentMatch (m : Match) (k : Nat) : Prop :=
  (4 + (m.fields.map (fun x => 4 + x.value.length + x.mask.length)).sum) % 8 = 0 ∧
  ∃ xs1 x xs2 j, m.fields = xs1 ++ x :: xs2 ∧ j < 4 ∧ j < x.writeTo.out.length ∧
    k = 4 + (xs1.map (fun x => 4 + x.value.length + x.mask.length)).sum + j

theorem XMs.cut_append (xs1 : List XM) (x : XM) (xs2 : List XM) (j : Nat) (hj : j < x.bytes.length) :
    XMs.cut (xs1 ++ x :: xs2) ((xs1.flatMap XM.bytes).length + j) =
      if j < 4 then none else some (XM.cutErr j) := by
  induction xs1 with
  | nil => simp [XMs.cut, hj]
  | cons y xs1 ih =>
    have : ¬ (y.bytes.length + (xs1.flatMap XM.bytes).length + j < y.bytes.length) := by omega
    have h2 : y.bytes.length + (xs1.flatMap XM.bytes).length + j - y.bytes.length =
      (xs1.flatMap XM.bytes).length + j := by omega
    simp only [List.cons_append, List.flatMap_cons, List.length_append, XMs.cut, this, if_false, h2, ih]

theorem sizes_eq (xs : List XM) : (xs.map (fun x => 4 + x.value.length + x.mask.length)).sum =
    (xs.flatMap XM.bytes).length := by
  simp only [List.length_flatMap, XM.bytes_length]

theorem match_cut (m : Match) (k : Nat) : m.cut k = none ↔ SilentMatch m k := by
  have hpad : padLen (m.fieldBytes.length + 4) = 0 ↔
      (4 + (m.fields.map (fun x => 4 + x.value.length + x.mask.length)).sum) % 8 = 0 := by
    rw [sizes_eq, show (m.fields.flatMap XM.bytes).length = m.fieldBytes.length from rfl]
    unfold padLen; omega
  constructor
  · intro h
    unfold Match.cut at h
    simp only at h
    split at h
    · split at h <;> cases h
    · rename_i h4
      split at h
      · rename_i hn
        obtain ⟨xs1, x, xs2, j, e1, e2, e3, e4, e5⟩ := XMs.cut_split m.fields (k - 4)
          (show k - 4 < m.fieldBytes.length by omega)
        rw [e5] at h
        by_cases hj : j < 4
        · simp only [hj, if_true] at h
          refine ⟨?_, xs1, x, xs2, j, e1, hj, e3, by rw [sizes_eq]; omega⟩
          rw [← hpad]
          by_cases hp : padLen (m.fieldBytes.length + 4) = 0
          · exact hp
          · simp [hp] at h
        · simp [hj] at h
      · split at h <;> cases h
  · rintro ⟨hp, xs1, x, xs2, j, e1, hj, hjl, e2⟩
    rw [sizes_eq] at e2
    have hx : m.fieldBytes.length = (xs1.flatMap XM.bytes).length + (x.bytes.length + (xs2.flatMap XM.bytes).length) := by
      simp only [Match.fieldBytes, e1, List.flatMap_append, List.flatMap_cons, List.length_append]
    have hx4 : 4 ≤ x.bytes.length := by rw [XM.bytes_length]; omega
    have h4 : ¬ k < 4 := by omega
    have hn : k < m.fieldBytes.length + 4 := by omega
    have hk4 : k - 4 = (xs1.flatMap XM.bytes).length + j := by omega
    unfold Match.cut
    simp only [h4, if_false, hn, if_true]
    rw [hk4, e1, XMs.cut_append xs1 x xs2 j (by omega), if_pos hj]
    simp [hpad.2 hp]

/-- C40.  Missing: the truncations in `SilentMatch`, which are accepted.  The first `k` bytes of
an encoded match are accepted exactly at the truncation points of `SilentMatch`, every other
truncation is rejected. -/
theorem match_truncated_partial (m : Match) (hv : m.Valid) (k : Nat) (hk : k < m.writeTo.out.length)
    (s : Match) (r : Rd) (hr : r.Ok .eof) (hc : r.content = m.writeTo.out.take k) :
    ((Match.readFrom s r).err = none ↔ SilentMatch m k) ∧
    ((Match.readFrom s r).err = none → ∃ xs, xs <+: m.fields ∧ (Match.readFrom s r).val = { m with fields := xs }) ∧
    (∀ e, (Match.readFrom s r).err = some e → e = .eof ∨ e = .unexpectedEOF) := by
  obtain ⟨h1, _, _⟩ := m.stops (d := 0) hv s k hk r hr hc
  refine ⟨by rw [h1]; exact match_cut m k, ?_, ?_⟩
  · intro h
    rw [h1] at h
    obtain ⟨xs, hx, hR⟩ := m.readsAll_cut hv s k hk h
    obtain ⟨r', e, _⟩ := hR r hr hc
    exact ⟨xs, hx, by rw [e]⟩
  · exact (Match.readFrom_safe (E := ShortErr) s r hr).err

/-- Two fields, 4 + 4 + 4 + 4 + 8 = 24 bytes, no padding. -/
def sampleMatch : Match := ⟨1, [⟨0x8000, 0, [0, 0, 0, 1], []⟩, ⟨0x8000, 2, [1, 2, 3, 4, 5, 6, 7, 8], []⟩]⟩

example : sampleMatch.Valid ∧ 13 < sampleMatch.writeTo.out.length ∧ SilentMatch sampleMatch 13 := by
  refine ⟨by decide, by decide, by decide, ?_⟩
  exact ⟨[⟨0x8000, 0, [0, 0, 0, 1], []⟩], ⟨0x8000, 2, [1, 2, 3, 4, 5, 6, 7, 8], []⟩, [], 1, rfl,
    by decide, by decide, by decide⟩

/-- C40 is violated.  A match of two fields cut one byte into the second field, and even in
its own header, decodes without an error to a match of one field. -/
theorem match_truncated_accepted : ∃ (m : Match) (k : Nat), m.Valid ∧ k < m.writeTo.out.length ∧
    m.fields.length = 2 ∧ ∃ r : Rd, r.Ok .eof ∧ r.content = m.writeTo.out.take k ∧
      (Match.readFrom Match.zero r).err = none ∧ (Match.readFrom Match.zero r).val.fields.length = 1 := by
  refine ⟨sampleMatch, 13, by decide, by decide, rfl, .src (sampleMatch.writeTo.out.take 13) [] .eof false,
    rfl, rfl, ?_, ?_⟩ <;> decide +kernel

/-! ## Messages -/

/-- C40.  Missing: the truncations that are accepted, listed here.  The first `k` bytes of an
encoded flow modification are accepted exactly when they end inside the match at a point of
`SilentMatch`, or inside an instruction at a point of `SilentInstruction` (0 is the end of
the instruction before). -/
theorem flowMod_truncated_partial (f : FlowMod) (hm : f.mtch.Valid) (hi : ∀ i ∈ f.instructions, i.Valid)
    (k : Nat) (hk : k < f.writeTo.out.length) (s : FlowMod) (r : Rd) (hr : r.Ok .eof)
    (hc : r.content = f.writeTo.out.take k) :
    (FlowMod.readFrom s r).err = none ↔
      (40 ≤ k ∧ k < 40 + f.mtch.writeTo.out.length ∧ SilentMatch f.mtch (k - 40)) ∨
      (∃ is1 i is2 j, f.instructions = is1 ++ i :: is2 ∧ j < i.writeTo.out.length ∧
        k = 40 + f.mtch.writeTo.out.length + (Instructions.writeTo is1).out.length + j ∧
        SilentInstruction i j) := by
  obtain ⟨h1, _⟩ := f.stops hm hi s k hk r hr hc
  rw [FlowMod.out_head, List.length_append, List.length_append, f.headBytes_length] at hk
  rw [h1]
  unfold FlowMod.cut
  have hmb : f.mtch.writeTo.out.length = f.mtch.bytes.length := rfl
  simp only [Instructions.writeTo_eq, hmb]
  by_cases h40 : k < 40
  · rw [if_pos h40]
    constructor
    · intro h; split at h <;> cases h
    · rintro (⟨h, _⟩ | ⟨_, _, _, _, _, _, h, _⟩) <;> omega
  · rw [if_neg h40]
    by_cases hmk : k < 40 + f.mtch.bytes.length
    · rw [if_pos hmk, match_cut]
      constructor
      · intro h; exact .inl ⟨by omega, hmk, h⟩
      · rintro (⟨_, _, h⟩ | ⟨_, _, _, _, _, _, h, _⟩)
        · exact h
        · omega
    · rw [if_neg hmk]
      obtain ⟨is1, i, is2, j, e1, e2, e3, e4, e5⟩ := Instructions.cut_split f.instructions
        (k - 40 - f.mtch.bytes.length) (by omega)
      rw [e5, (instructions_cutErr i j e3).1]
      constructor
      · intro h
        refine .inr ⟨is1, i, is2, j, e1, ?_, by omega, h⟩
        rw [show i.writeTo.out = i.bytes from rfl, i.bytes_length]; exact e3
      · rintro (⟨_, h, _⟩ | ⟨js1, i', js2, j', g1, g2, g3, g4⟩)
        · omega
        · rw [show i'.writeTo.out = i'.bytes from rfl, i'.bytes_length] at g2
          -- the element that contains the truncation point is unique
          have key : ∀ (js1 is1 : List Instruction), js1 ++ i' :: js2 = is1 ++ i :: is2 →
              (Instructions.bytes is1).length + j = (Instructions.bytes js1).length + j' → i = i' ∧ j = j' := by
            intro js1
            induction js1 with
            | nil =>
              intro is1 he hl
              cases is1 with
              | nil => simp at he; simp [Instructions.bytes] at hl; exact ⟨he.1.symm, hl⟩
              | cons c is1 =>
                simp at he
                have hb : Instructions.bytes (c :: is1) = c.bytes ++ Instructions.bytes is1 := rfl
                rw [hb, List.length_append, c.bytes_length, ← he.1] at hl
                simp [Instructions.bytes] at hl
                omega
            | cons d js1 ih =>
              intro is1 he hl
              have hb : Instructions.bytes (d :: js1) = d.bytes ++ Instructions.bytes js1 := rfl
              rw [hb, List.length_append, d.bytes_length] at hl
              cases is1 with
              | nil =>
                simp at he
                rw [he.1] at hl
                simp [Instructions.bytes] at hl
                omega
              | cons c is1 =>
                have hb2 : Instructions.bytes (c :: is1) = c.bytes ++ Instructions.bytes is1 := rfl
                simp at he
                rw [hb2, List.length_append, c.bytes_length, he.1] at hl
                exact ih is1 he.2 (by omega)
          obtain ⟨rfl, rfl⟩ := key js1 is1 (by rw [← g1, ← e1]) (by omega)
          exact g4

/-- C40.  A flow modification that ends in its fixed part is rejected. -/
theorem flowMod_truncated_head (f : FlowMod) (hm : f.mtch.Valid) (hi : ∀ i ∈ f.instructions, i.Valid)
    (k : Nat) (hk : k < 40) (s : FlowMod) (r : Rd) (hr : r.Ok .eof) (hc : r.content = f.writeTo.out.take k) :
    (FlowMod.readFrom s r).err ≠ none := by
  have hl : k < f.writeTo.out.length := by
    rw [FlowMod.out_head, List.length_append, f.headBytes_length]; omega
  obtain ⟨h1, _⟩ := f.stops hm hi s k hl r hr hc
  rw [h1, FlowMod.cut, if_pos hk]
  split <;> simp

/-- A flow modification: one match field, a goto and an apply of two actions. -/
def sampleFlow : FlowMod :=
  { cookie := 1, cookieMask := 0, table := 2, command := 0, idleTimeout := 3, hardTimeout := 4, priority := 5,
    buffer := 6, outPort := 7, outGroup := 8, flags := 1,
    mtch := ⟨1, [⟨0x8000, 0, [0, 0, 0, 1], []⟩]⟩,
    instructions := [.gotoTable 3, .applyActions [.output 7 0, .group 9]] }

example : sampleFlow.mtch.Valid ∧ (∀ i ∈ sampleFlow.instructions, i.Valid) ∧
    70 < sampleFlow.writeTo.out.length := by decide

/-- C40 is violated.  A flow modification cut inside its last instruction, before the
actions of the instruction, is accepted: the switch would be told to apply no actions. -/
theorem flowMod_truncated_accepted : ∃ (f : FlowMod) (k : Nat), f.mtch.Valid ∧
    (∀ i ∈ f.instructions, i.Valid) ∧ k < f.writeTo.out.length ∧ ∃ r : Rd, r.Ok .eof ∧
      r.content = f.writeTo.out.take k ∧ (FlowMod.readFrom f r).err = none ∧
      (FlowMod.readFrom f r).val = { f with instructions := [.gotoTable 3, .applyActions []] } := by
  refine ⟨sampleFlow, 72, by decide, by decide, by decide,
    .src (sampleFlow.writeTo.out.take 72) [] .eof false, rfl, rfl, ?_, ?_⟩ <;> decide +kernel

/-- C40.  A packet-in that ends before the data of the packet is rejected. -/
theorem packetIn_truncated (p : PacketIn) (hm : p.mtch.Valid) (k : Nat)
    (hk : k < 18 + p.mtch.writeTo.out.length) (s : PacketIn) (r : Rd) (hr : r.Ok .eof)
    (hc : r.content = p.writeTo.out.take k) :
    (PacketIn.readFrom s r).err = some .eof ∨ (PacketIn.readFrom s r).err = some .unexpectedEOF := by
  obtain ⟨e, he, hS⟩ := p.stops hm s k hk
  rw [(hS r hr hc).1]
  rcases he with rfl | rfl
  · exact .inl rfl
  · exact .inr rfl

example : sampleMatch.Valid ∧ 30 < 18 + sampleMatch.writeTo.out.length := by decide

/-- C40.  Missing: the truncations of `SilentActions`, which are accepted.  A packet-out that
ends before the data of the packet is accepted exactly when it ends inside an action at a
point of `SilentAction`. -/
theorem packetOut_truncated_partial (p : PacketOut) (hv : ∀ a ∈ p.actions, a.Valid)
    (hl : (Actions.writeTo p.actions).out.length ≤ 65535) (k : Nat)
    (hk : k < 16 + (Actions.writeTo p.actions).out.length) (s : PacketOut) (r : Rd) (hr : r.Ok .eof)
    (hc : r.content = p.writeTo.out.take k) :
    ((PacketOut.readFrom s r).err = none ↔ 16 ≤ k ∧ SilentActions p.actions (k - 16)) ∧
    (∀ e, (PacketOut.readFrom s r).err = some e → e = .eof ∨ e = .unexpectedEOF) := by
  rw [Actions.writeTo_eq] at hl hk
  simp only at hl hk
  rw [(p.stops hv hl s k hk r hr hc).1]
  unfold PacketOut.cut
  by_cases h16 : k < 16
  · rw [if_pos h16]
    refine ⟨⟨by simp, fun h => absurd h.1 (by omega)⟩, ?_⟩
    intro e he
    have : eofIn [0, 4, 8, 10] k = e := by simpa using he
    rw [← this]; unfold eofIn; split <;> simp
  · rw [if_neg h16]
    have := actions_cut p.actions (k - 16) (by omega)
    refine ⟨by rw [this.1]; exact ⟨fun h => ⟨by omega, h⟩, fun h => h.2⟩, ?_⟩
    intro e he
    rcases this.2 with h | h <;> rw [h] at he <;> simp at he
    exact .inr he.symm

example : (∀ a ∈ [Action.output 7 0], a.Valid) ∧ SilentActions [Action.output 7 0] (20 - 16) ∧
    20 < 16 + (Actions.writeTo [Action.output 7 0]).out.length := by
  refine ⟨by decide, ⟨[], .output 7 0, [], 4, rfl, by decide, by decide, by decide⟩, by decide⟩

/-- C40.  Missing: the truncations of `SilentActions`, which are accepted.  A bucket that ends
inside is accepted exactly when it ends inside an action at a point of `SilentAction`. -/
theorem bucket_truncated_partial (b : Bucket) (hv : b.Valid) (k : Nat) (hk : k < b.writeTo.out.length)
    (s : Bucket) (r : Rd) (hr : r.Ok .eof) (hc : r.content = b.writeTo.out.take k) :
    ((Bucket.readFrom s r).err = none ↔ 16 ≤ k ∧ SilentActions b.actions (k - 16)) ∧
    (∀ e, (Bucket.readFrom s r).err = some e → e = .eof ∨ e = .unexpectedEOF) := by
  have hk' : k < b.bytes.length := hk
  rw [(b.stops (d := 0) hv s k hk' r hr hc).1]
  rw [b.out_head, List.length_append, b.headBytes_length] at hk'
  unfold Bucket.cut
  by_cases h16 : k < 16
  · rw [if_pos h16]
    refine ⟨⟨by simp, fun h => absurd h.1 (by omega)⟩, ?_⟩
    intro e he
    have : eofIn [0, 2, 4, 8, 12] k = e := by simpa using he
    rw [← this]; unfold eofIn; split <;> simp
  · rw [if_neg h16]
    have := actions_cut b.actions (k - 16) (by omega)
    refine ⟨by rw [this.1]; exact ⟨fun h => ⟨by omega, h⟩, fun h => h.2⟩, ?_⟩
    intro e he
    rcases this.2 with h | h <;> rw [h] at he <;> simp at he
    exact .inr he.symm

/-- C40.  Missing: the boundaries of the fields, where the rest is ignored.  A group
modification that ends inside a bucket, at a point where the bucket alone is rejected and
not between the fields of the bucket's header, is rejected. -/
theorem groupMod_truncated_partial (g : GroupMod) (bs1 bs2 : List Bucket) (b : Bucket)
    (hg : g.buckets = bs1 ++ b :: bs2) (hv : ∀ b ∈ g.buckets, b.Valid) (j : Nat)
    (hj : j < b.writeTo.out.length) (h1 : j ∉ [0, 2, 4, 8, 12])
    (h2 : ¬ (16 ≤ j ∧ SilentActions b.actions (j - 16))) (s : GroupMod) (r : Rd) (hr : r.Ok .eof)
    (hc : r.content = g.writeTo.out.take (8 + (bs1.map (fun b => b.writeTo.out.length)).sum + j)) :
    (GroupMod.readFrom s r).err = some .unexpectedEOF := by
  have hjb : j < b.bytes.length := hj
  have hb1 : (bs1.map (fun b => b.writeTo.out.length)).sum = (Buckets.bytes bs1).length := by
    simp only [Buckets.bytes, List.length_flatMap]; rfl
  have hcut : b.cut j = some .unexpectedEOF := by
    unfold Bucket.cut
    by_cases h16 : j < 16
    · rw [if_pos h16]; simp only [eofIn, if_neg h1]
    · rw [if_neg h16]
      have hl : b.bytes.length = 16 + (Actions.bytes b.actions).length := by
        rw [b.out_head, List.length_append, b.headBytes_length]
      have := actions_cut b.actions (j - 16) (by omega)
      rcases this.2 with h | h
      · exact absurd ⟨by omega, this.1.1 h⟩ h2
      · exact h
  have hcon : r.content = be g.command ++ (be g.type ++ (zeros 1 ++ (be g.group ++
      (Buckets.bytes bs1 ++ b.bytes.take j)))) := by
    rw [hc, hb1, GroupMod.out_eq, hg]
    simp only
    have : Buckets.bytes (bs1 ++ b :: bs2) = Buckets.bytes bs1 ++ (b.bytes ++ Buckets.bytes bs2) := by
      simp [Buckets.bytes]
    rw [this]
    rw [take_append_ge (by simp; omega), take_append_ge (by simp; omega), take_append_ge (by simp; omega),
      take_append_ge (by simp; omega), take_append_ge (by simp; omega)]
    have hz : 8 + (Buckets.bytes bs1).length + j - (be g.command).length - (be g.type).length -
        (zeros 1).length - (be g.group).length - (Buckets.bytes bs1).length = j := by simp; omega
    rw [hz, take_append_lt (by omega)]
  have hF : FailsAll GroupMod.readFrom s (be g.command ++ (be g.type ++ (zeros 1 ++ (be g.group ++
      (Buckets.bytes bs1 ++ b.bytes.take j))))) .unexpectedEOF := by
    refine FailsAll.cons (Reads.num _) ?_
    refine FailsAll.cons (Reads.num _) ?_
    refine FailsAll.cons (Reads.skip (by simp)) ?_
    refine FailsAll.cons (Reads.num _) ?_
    refine FailsAll.here (FailsAll.sub ?_)
    intro r' hr' hc'
    exact Buckets.stops bs1 b (fun x hx => hv x (by rw [hg]; simp [hx])) (hv b (by rw [hg]; simp)) j hjb
      .unexpectedEOF hcut _ r' hr' hc'
  exact hF r hr hcon

example : ∃ b : Bucket, b.Valid ∧ 19 < b.writeTo.out.length ∧ 19 ∉ [0, 2, 4, 8, 12] ∧
    ¬ (16 ≤ 19 ∧ SilentActions b.actions (19 - 16)) := by
  refine ⟨⟨1, 2, 3, [.output 7 0]⟩, by decide, by decide, by decide, ?_⟩
  rintro ⟨_, as1, a, as2, j, h1, h2, h3, h4⟩
  cases as1 with
  | nil =>
    simp at h1
    obtain ⟨rfl, rfl⟩ := h1
    have : j = 3 := by simpa [Actions.writeTo, Actions.buf, Enc.writeSliceTo, Enc.writeTo, Enc.gather] using h2.symm
    subst this
    revert h4; decide
  | cons c t => simp at h1

/-- C40 is violated.  A group modification whose only bucket is cut after 12 bytes is
accepted. -/
theorem groupMod_truncated_accepted : ∃ (g : GroupMod) (k : Nat), (∀ b ∈ g.buckets, b.Valid) ∧ 8 < k ∧
    k < g.writeTo.out.length ∧ ∃ r : Rd, r.Ok .eof ∧ r.content = g.writeTo.out.take k ∧
      (GroupMod.readFrom g r).err = none := by
  refine ⟨⟨0, 0, 1, [⟨1, 2, 3, [.output 7 0]⟩]⟩, 20, by decide, by decide, by decide,
    .src ((GroupMod.writeTo ⟨0, 0, 1, [⟨1, 2, 3, [.output 7 0]⟩]⟩).out.take 20) [] .eof false, rfl, rfl, ?_⟩
  decide +kernel

theorem skipEOF_eofIn (cs : List Nat) (k : Nat) :
    skipEOF (eofIn cs k) = if k ∈ cs then none else some .unexpectedEOF := by
  unfold eofIn; split <;> rfl

/-- C40.  Missing: the boundaries of the fields.  A list of meter bands that ends inside a
band is accepted exactly in its first two bytes, after 4, 8, 12 bytes and, for a DSCP remark
band, 13; every other one is rejected. -/
theorem meterBands_truncated_partial (bs : List MeterBand) (b : MeterBand) (k : Nat) (hk : k < 16)
    (s : List MeterBand) (r : Rd) (hr : r.Ok .eof)
    (hc : r.content = (MeterBands.writeTo bs).out ++ b.writeTo.out.take k) :
    ((MeterBands.readFrom s r).err = none ↔
      k ∈ [0, 1, 4, 8, 12] ∨ (k = 13 ∧ ∃ x y z, b = .dscpRemark x y z)) ∧
    ((MeterBands.readFrom s r).err = none ∨ (MeterBands.readFrom s r).err = some .unexpectedEOF) := by
  rw [MeterBands.writeTo_eq] at hc
  rw [(MeterBands.stops bs b k hk s r hr hc).1]
  have hmem : k ∈ b.cuts ↔ (k ∈ [0, 4, 8, 12] ∨ (k = 13 ∧ ∃ x y z, b = .dscpRemark x y z)) := by
    cases b <;> simp [MeterBand.cuts]
    omega
  by_cases h2 : k < 2
  · rw [if_pos h2]
    have : k ∈ [0, 1, 4, 8, 12] := by simp; omega
    exact ⟨⟨fun _ => .inl this, fun _ => rfl⟩, .inl rfl⟩
  · rw [if_neg h2, skipEOF_eofIn]
    have h1 : k ∈ [0, 4, 8, 12] ↔ k ∈ [0, 1, 4, 8, 12] := by simp; omega
    rw [← h1, ← hmem]
    split <;> simp_all

example : (5 : Nat) < 16 ∧ ¬ ((5 : Nat) ∈ [0, 1, 4, 8, 12]) := by decide

/-- C40.  Missing: the boundaries of the fields and the data of an experimenter property.  A
list of queue properties that ends inside a property is accepted exactly in its first two
bytes, at the boundaries of its fields, and inside the data of an experimenter property. -/
theorem queueProps_truncated_partial (qs : List QueueProp) (q : QueueProp) (hv : ∀ q ∈ qs, q.Valid)
    (hq : q.Valid) (k : Nat) (hk : k < q.writeTo.out.length) (s : List QueueProp) (r : Rd) (hr : r.Ok .eof)
    (hc : r.content = (QueueProps.writeTo qs).out ++ q.writeTo.out.take k) :
    ((QueueProps.readFrom s r).err = none ↔ match q with
      | .experimenter .. => k ∈ [0, 1, 4, 8, 12] ∨ 16 ≤ k
      | _ => k ∈ [0, 1, 8, 10]) ∧
    ((QueueProps.readFrom s r).err = none ∨ (QueueProps.readFrom s r).err = some .unexpectedEOF) := by
  rw [QueueProps.writeTo_eq] at hc
  rw [show q.writeTo.out = q.bytes from rfl, q.bytes_length] at hk
  rw [(QueueProps.stops qs q hv hq k hk s r hr hc).1]
  rw [skipEOF_eofIn]
  cases q with
  | experimenter e d =>
    simp only [QueueProp.cuts]
    by_cases h : k < 2 ∨ 16 ≤ k
    · rw [if_pos h]; simp; omega
    · rw [if_neg h]
      have hm : k ∈ [0, 4, 8, 12] ↔ k ∈ [0, 1, 4, 8, 12] ∨ 16 ≤ k := by simp; omega
      rw [← hm]
      by_cases hc : k ∈ [0, 4, 8, 12] <;> simp [hc]
  | _ =>
    simp only [QueueProp.cuts, QueueProp.size] at hk ⊢
    by_cases h : k < 2 ∨ 16 ≤ k
    · rw [if_pos h]; simp; omega
    · rw [if_neg h]
      have hm : k ∈ [0, 8, 10] ↔ k ∈ [0, 1, 8, 10] := by simp; omega
      rw [← hm]
      by_cases hc : k ∈ [0, 8, 10] <;> simp [hc]

/-- C40.  Missing: the boundary after the header.  A hello message that ends inside an element
is accepted exactly in its first two bytes and after its header of 4 bytes. -/
theorem hello_truncated_partial (hs : List HelloElem) (h : HelloElem) (hv : ∀ h ∈ hs, h.Valid) (hh : h.Valid)
    (k : Nat) (hk : k < h.writeTo.out.length) (s : Hello) (r : Rd) (hr : r.Ok .eof)
    (hc : r.content = (HelloElems.writeTo hs).out ++ h.writeTo.out.take k) :
    ((Hello.readFrom s r).err = none ↔ k ∈ [0, 1, 4]) ∧
    ((Hello.readFrom s r).err = none ∨ (Hello.readFrom s r).err = some .unexpectedEOF) := by
  rw [HelloElems.writeTo_eq] at hc
  rw [show h.writeTo.out = h.bytes from rfl, h.bytes_length] at hk
  have hS := Stops.last (Stops.sub (get := fun s : Hello => s.elements) (set := fun v _ => ⟨v⟩) (s := s)
    (HelloElems.stops hs h hv hh k hk s.elements))
  have := (hS r hr hc).1
  rw [show (s.readFrom r).err = _ from this, skipEOF_eofIn]
  by_cases h2 : k < 2
  · rw [if_pos h2]
    refine ⟨⟨fun _ => by simp; omega, fun _ => rfl⟩, .inl rfl⟩
  · rw [if_neg h2]
    constructor
    · split <;> simp_all <;> omega
    · split <;> simp

example : (HelloElem.versionBitmap [16]).Valid ∧ 5 < (HelloElem.versionBitmap [16]).writeTo.out.length := by
  decide

end Verif.Props
