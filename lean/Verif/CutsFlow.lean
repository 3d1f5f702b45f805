import Verif.Cuts

/-!
# Where the decoder of a flow modification stops on a truncated input
-/

namespace Verif

/-- The error of the decoder of a flow modification on the first `k` bytes. -/
def FlowMod.cut (f : FlowMod) (k : Nat) : Option Err :=
  if k < 40 then (if k ∈ [0, 8, 16, 17, 18, 20, 22, 24, 28, 32, 36, 38] then some .eof else some .unexpectedEOF)
  else if k < 40 + f.mtch.bytes.length then f.mtch.cut (k - 40)
  else Instructions.cut f.instructions (k - 40 - f.mtch.bytes.length)

/-- The first fields of a flow modification. -/
def FlowMod.head : List (Step FlowMod) := [
  Enc.assign (fun s => { s with instructions := [] }),
  Enc.num (fun v s => { s with cookie := v }), Enc.num (fun v s => { s with cookieMask := v }),
  Enc.num (fun v s => { s with table := v }), Enc.num (fun v s => { s with command := v }),
  Enc.num (fun v s => { s with idleTimeout := v }), Enc.num (fun v s => { s with hardTimeout := v }),
  Enc.num (fun v s => { s with priority := v }), Enc.num (fun v s => { s with buffer := v }),
  Enc.num (fun v s => { s with outPort := v }), Enc.num (fun v s => { s with outGroup := v }),
  Enc.num (fun v s => { s with flags := v }), Enc.skip 2]

/-- The rest of a flow modification. -/
def FlowMod.tail : List (Step FlowMod) := [
  Enc.sub (fun s => s.mtch) (fun v s => { s with mtch := v }) Match.readFrom,
  Enc.sub (fun s => s.instructions) (fun v s => { s with instructions := v }) Instructions.readFrom]

theorem FlowMod.readFrom_eq : FlowMod.readFrom = Enc.readFrom (FlowMod.head ++ FlowMod.tail) := rfl

def FlowMod.headBytes (f : FlowMod) : Bytes :=
  be f.cookie ++ (be f.cookieMask ++ (be f.table ++ (be f.command ++ (be f.idleTimeout ++
    (be f.hardTimeout ++ (be f.priority ++ (be f.buffer ++ (be f.outPort ++ (be f.outGroup ++
      (be f.flags ++ zeros 2))))))))))

theorem FlowMod.headBytes_length (f : FlowMod) : f.headBytes.length = 40 := by simp [FlowMod.headBytes]

theorem FlowMod.out_head (f : FlowMod) :
    f.writeTo.out = f.headBytes ++ (f.mtch.bytes ++ Instructions.bytes f.instructions) := by
  rw [FlowMod.out_eq]; simp [FlowMod.headBytes]

theorem FlowMod.head_fields : Fields (Enc.readFrom FlowMod.head) [8, 8, 1, 1, 2, 2, 2, 4, 4, 4, 2, 2] :=
  Fields.cons Fields.assign (Fields.cons Fields.num (Fields.cons Fields.num (Fields.cons Fields.num
    (Fields.cons Fields.num (Fields.cons Fields.num (Fields.cons Fields.num (Fields.cons Fields.num
    (Fields.cons Fields.num (Fields.cons Fields.num (Fields.cons Fields.num (Fields.cons Fields.num
    (Fields.cons Fields.skip Fields.nil))))))))))))

theorem FlowMod.head_reads (f s : FlowMod) :
    Reads (Enc.readFrom FlowMod.head) s f.headBytes { f with mtch := s.mtch, instructions := [] } := by
  unfold FlowMod.head FlowMod.headBytes
  reads

theorem FlowMod.stops (f : FlowMod) (hm : f.mtch.Valid) (hi : ∀ i ∈ f.instructions, i.Valid) (s : FlowMod)
    (k : Nat) (hk : k < f.writeTo.out.length) :
    Stops FlowMod.readFrom s (f.writeTo.out.take k) (f.cut k) (fun _ => True) := by
  have hlen : (f.writeTo.out.take k).length = k := by rw [List.length_take]; omega
  by_cases h40 : k < 40
  · unfold FlowMod.cut
    rw [if_pos h40]
    have h := FlowMod.head_fields.stops (d := 1) (s := s) (b := f.writeTo.out.take k) (by rw [hlen]; simpa using h40)
    rw [hlen, show cuts [8, 8, 1, 1, 2, 2, 2, 4, 4, 4, 2, 2] =
      [0, 8, 16, 17, 18, 20, 22, 24, 28, 32, 36, 38] from rfl] at h
    have : ∀ p : Prop, ∀ _ : Decidable p, (if p then some Err.eof else some .unexpectedEOF) =
        some (if p then .eof else .unexpectedEOF) := by intro p _; split <;> rfl
    rw [this]
    rw [FlowMod.readFrom_eq]
    exact (Stops.pre h).mono fun _ _ => trivial
  · have hcut : f.cut k = if k < 40 + f.mtch.bytes.length then f.mtch.cut (k - 40)
        else Instructions.cut f.instructions (k - 40 - f.mtch.bytes.length) := by
      rw [FlowMod.cut, if_neg h40]
    have hout : f.writeTo.out.take k =
        f.headBytes ++ (f.mtch.bytes ++ Instructions.bytes f.instructions).take (k - 40) := by
      rw [FlowMod.out_head, take_append_ge (by rw [f.headBytes_length]; omega), f.headBytes_length]
    have htot : k < 40 + f.mtch.bytes.length + (Instructions.bytes f.instructions).length := by
      rw [FlowMod.out_head, List.length_append, List.length_append, f.headBytes_length] at hk
      omega
    rw [hcut, hout, FlowMod.readFrom_eq]
    refine Stops.append (f.head_reads s) ?_
    by_cases hmk : k < 40 + f.mtch.bytes.length
    · rw [if_pos hmk, take_append_lt (by omega)]
      have h := Stops.sub (d := 1) (get := fun s : FlowMod => s.mtch) (set := fun v s => { s with mtch := v })
        (s := { f with mtch := s.mtch, instructions := [] }) (f.mtch.stops hm s.mtch (k - 40) (by omega))
      cases hc : f.mtch.cut (k - 40) with
      | some e =>
        rw [hc] at h
        exact (Stops.here h).mono fun _ _ => trivial
      | none =>
        rw [hc] at h
        refine Stops.consNone h ?_
        rintro s1 b1 _ hb1
        have hb1 : b1.length < 2 := by omega
        have := Stops.scanOne (mk := instructionMake) (st := Instruction.readFrom) (enc := Instruction.bytes)
          (zero := Instruction.zero) (code := Instruction.type) b1 hb1 s1.instructions []
          (by simp) (by simp) (by simp)
        simp only [List.flatMap_nil, List.nil_append, List.append_nil] at this
        exact (Stops.last (Stops.sub (get := fun s : FlowMod => s.instructions)
          (set := fun v s => { s with instructions := v }) this)).mono fun _ _ => trivial
    · rw [if_neg hmk, take_append_ge (by omega)]
      refine Stops.cons (Reads.sub (f.mtch.reads hm _)) ?_
      exact (Stops.last (Stops.sub (Instructions.stops_take f.instructions hi
        (k - 40 - f.mtch.bytes.length) (by omega) _))).mono fun _ _ => trivial

end Verif
