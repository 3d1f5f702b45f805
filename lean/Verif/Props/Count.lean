import Verif.Fails
import Verif.Ofp.Instruction
import Verif.Ofp.Group
import Verif.Ofp.Port

/-!
# What list decoders report when they fail (C41)

Whatever follows the well-formed elements (a truncated element, an unknown type, garbage),
the count returned by the decoder covers them, so that a caller that logs or skips by the
count is never behind.  (The upper bound, the bytes of the input, is in `Props/Untrusted`.)
-/

namespace Verif.Props

/-- C41. -/
theorem actions_count (as : List Action) (hv : ∀ a ∈ as, a.Valid) (rest : Bytes) (s : List Action) (r : Rd)
    (hr : r.Ok .eof) (hc : r.content = (Actions.writeTo as).out ++ rest) :
    (Actions.writeTo as).out.length ≤ (Actions.readFrom s r).n := by
  rw [Actions.writeTo_eq] at hc ⊢
  have h := scanFrom_count (enc := Action.bytes) (zero := Action.zero) (code := Action.type) (mk := actionMake)
    (st := Action.readFrom) [] as
    (fun a ha => a.reads (hv a ha)) (fun a _ => actionMake_type a) (fun a _ => a.bytes_type) rest r hr hc
  simp only [Actions.readFrom, Enc.readFrom, Enc.assign]
  rcases hs : Enc.scanFrom actionMake Action.readFrom [] r with ⟨v, n, e, r'⟩
  rw [hs] at h
  cases e <;> simpa [Enc.readFrom, Enc.andThen, Enc.assign, hs, Actions.bytes] using h

example : (Action.group 7).Valid := trivial

/-- C41. -/
theorem instructions_count (is : List Instruction) (hv : ∀ i ∈ is, i.Valid) (rest : Bytes)
    (s : List Instruction) (r : Rd) (hr : r.Ok .eof) (hc : r.content = (Instructions.writeTo is).out ++ rest) :
    (Instructions.writeTo is).out.length ≤ (Instructions.readFrom s r).n := by
  rw [Instructions.writeTo_eq] at hc ⊢
  exact scanFrom_count (enc := Instruction.bytes) (zero := Instruction.zero) (code := Instruction.type) s is
    (fun a ha => a.reads (hv a ha)) (fun a _ => instructionMake_type a) (fun a _ => a.bytes_type) rest r hr hc

example : (Instruction.applyActions [.group 7]).Valid := by decide

/-- C41. -/
theorem groupMod_count (g : GroupMod) (hv : ∀ b ∈ g.buckets, b.Valid) (rest : Bytes) (s : GroupMod) (r : Rd)
    (hr : r.Ok .eof) (hc : r.content = g.writeTo.out ++ rest) :
    g.writeTo.out.length ≤ (GroupMod.readFrom s r).n := by
  rw [GroupMod.out_eq] at hc ⊢
  simp only [List.append_assoc] at hc
  have hl : 8 + (Buckets.bytes g.buckets).length ≤ (GroupMod.readFrom s r).n := by
    unfold GroupMod.readFrom
    obtain ⟨r1, e1, a1, o1⟩ := Reads.num (set := fun v (s : GroupMod) => { s with command := v }) (s := s) g.command r _ hr hc
    have c1 := a1.content.2; rw [hc, List.drop_left] at c1
    obtain ⟨r2, e2, a2, o2⟩ := Reads.num (set := fun v (s : GroupMod) => { s with type := v })
      (s := { s with command := g.command }) g.type r1 _ o1 c1
    have c2 := a2.content.2; rw [c1, List.drop_left] at c2
    obtain ⟨r3, e3, a3, o3⟩ := Reads.skip (k := 1) (b := zeros 1) (s := { s with command := g.command, type := g.type })
      (by simp) r2 _ o2 c2
    have c3 := a3.content.2; rw [c2, List.drop_left] at c3
    obtain ⟨r4, e4, a4, o4⟩ := Reads.num (set := fun v (s : GroupMod) => { s with group := v })
      (s := { s with command := g.command, type := g.type }) g.group r3 _ o3 c3
    have c4 := a4.content.2; rw [c3, List.drop_left] at c4
    have h := readSliceFrom_count (val := id) rest s.buckets g.buckets (enc := Bucket.bytes)
      (zero := Bucket.zero) (st := Bucket.readFrom) (fun b hb => b.reads (hv b hb) _)
      (fun b _ => by rw [Bucket.bytes_length, Bucket.size]; omega) r4 o4 c4
    rcases hs : Enc.readSliceFrom Bucket.zero Bucket.readFrom s.buckets r4 with ⟨v, n, e, r'⟩
    rw [hs] at h
    simp only [be_length, zeros_length] at e1 e2 e3 e4
    have hb : Buckets.bytes g.buckets = g.buckets.flatMap Bucket.bytes := rfl
    cases e <;> simp [Enc.readFrom, e1, e2, e3, e4, Enc.sub, hs, hb] <;> simp at h <;> omega
  simp only [List.length_append, be_length, zeros_length]
  simp only [Wire.size]
  omega

/-- The loop of the decoder of ports goes through well-formed ports. -/
theorem ports_loop_count (ps : List Port) (hv : ∀ p ∈ ps, p.hwAddr.length = 6) (rest : Bytes) :
    ∀ (fuel : Nat) (acc : List Port) (n : Nat) (r : Rd), r.Ok .eof →
      r.content = ps.flatMap Port.bytes ++ rest → r.content.length < fuel →
      n + (ps.flatMap Port.bytes).length ≤ (Ports.loop fuel acc n r).n := by
  have mono : ∀ (fuel : Nat) (acc : List Port) (n : Nat) (r : Rd), n ≤ (Ports.loop fuel acc n r).n := by
    intro fuel
    induction fuel with
    | zero => intro acc n r; exact Nat.le_refl _
    | succ fuel ih =>
      intro acc n r
      unfold Ports.loop
      split
      · exact Nat.le_add_right _ _
      · exact Nat.le_add_right _ _
      · exact Nat.le_trans (Nat.le_add_right _ _) (ih _ _ _)
  induction ps with
  | nil => intro fuel acc n r _ _ _; exact mono _ _ _ _
  | cons p ps ih =>
    intro fuel acc n r hr hc hf
    cases fuel with
    | zero => omega
    | succ fuel =>
      obtain ⟨r1, e1, a1, o1⟩ := p.reads (hv p (by simp)) Port.zero r (ps.flatMap Port.bytes ++ rest) hr
        (by rw [hc]; simp)
      have hc2 : r1.content = ps.flatMap Port.bytes ++ rest := by rw [a1.content.2, hc]; simp
      have hp : 0 < p.bytes.length := by
        rw [Port.bytes, Port.out_eq]; simp; omega
      have hcl : r.content.length = p.bytes.length + (ps.flatMap Port.bytes ++ rest).length := by rw [hc]; simp
      have := ih (fun y hy => hv y (by simp [hy])) fuel (acc ++ [p.canonical]) (n + p.bytes.length) r1 o1 hc2
        (by rw [hc2]; omega)
      simp only [Ports.loop, e1, List.flatMap_cons, List.length_append]
      omega

/-- C41.  There is no encoder of lists of ports; the peer sends one after the other. -/
theorem ports_count (ps : List Port) (hv : ∀ p ∈ ps, p.hwAddr.length = 6) (rest : Bytes) (s : List Port) (r : Rd)
    (hr : r.Ok .eof) (hc : r.content = ps.flatMap (fun p => p.writeTo.out) ++ rest) :
    (ps.map (fun p => p.writeTo.out.length)).sum ≤ (Ports.readFrom s r).n := by
  have := ports_loop_count ps hv rest (r.content.length + 1) s 0 r hr hc (by omega)
  simpa [Ports.readFrom, List.length_flatMap, Port.bytes] using this

end Verif.Props
