import Verif.PanicIff
import Verif.Props.Untrusted

/-!
# Exactly which inputs make the decoders panic (C39)
-/

namespace Verif.Props

/-- One complete action, as the decoder delimits it: the type code and as many bytes as the
type has, or, for a set-field action (ofp/action.go:571-591), the length field less four
(computed in sixteen bits), with a complete field within. -/
inductive ActionFrame : Bytes → Prop
  | output {b : Bytes} : b.length = 14 → ActionFrame (0 :: 0 :: b)
  | plain {c : UInt8} {b : Bytes} : c.toNat ∈ [11, 12, 15, 16, 17, 18, 19, 20, 21, 22, 23, 24, 26] →
      b.length = 6 → ActionFrame (0 :: c :: b)
  | experimenter {b : Bytes} : b.length = 6 → ActionFrame (255 :: 255 :: b)
  | setField {hi lo x y z n : UInt8} {v p : Bytes} : v.length = n.toNat →
      4 + v.length + p.length = (hi.toNat * 256 + lo.toNat + 65532) % 65536 →
      ActionFrame (0 :: 25 :: hi :: lo :: x :: y :: z :: n :: (v ++ p))

/-- Complete actions, and then the two bytes of type code 27. -/
def Reaches27 (b : Bytes) : Prop :=
  ∃ (fs : List Bytes) (tail : Bytes), (∀ f ∈ fs, ActionFrame f) ∧ b = fs.flatten ++ 0 :: 27 :: tail

private theorem code_eq {x y : UInt8} {n : Nat} (h : (ofBE UInt16 [x, y]).toNat = n) (h1 : n < 256) :
    x = 0 ∧ y = UInt8.ofNat n := by
  rw [ofBE_u16] at h
  have := x.toNat_lt
  have := y.toNat_lt
  constructor <;> apply UInt8.toNat_inj.mp <;> simp <;> omega

private theorem code_eq' {x y : UInt8} (h : (ofBE UInt16 [x, y]).toNat = 65535) : x = 255 ∧ y = 255 := by
  rw [ofBE_u16] at h
  have := x.toNat_lt
  have := y.toNat_lt
  constructor <;> apply UInt8.toNat_inj.mp <;> simp <;> omega

/-- The first frame of an input whose first action decodes. -/
private theorem frame_of_take {x y : UInt8} {t : Bytes} {z : Action} {k : Nat}
    (hm : actionMake (ofBE UInt16 [x, y]) = .ok z) (hk : z.take (x :: y :: t) = some k) :
    (x :: y :: t).length ≤ k ∨ ActionFrame ((x :: y :: t).take k) := by
  have plain : ∀ n : Nat, n ∈ [11, 12, 15, 16, 17, 18, 19, 20, 21, 22, 23, 24, 26] →
      (ofBE UInt16 [x, y]).toNat = n →
      (if 8 ≤ (x :: y :: t).length then some 8 else none) = some k → ActionFrame ((x :: y :: t).take k) := by
    intro n hn hc h
    have hn' : n < 256 := by simp at hn; omega
    obtain ⟨rfl, rfl⟩ := code_eq hc hn'
    split at h
    · rename_i hl
      simp only [Option.some.injEq] at h
      subst h
      refine ActionFrame.plain ?_ (by simp at hl ⊢; omega)
      rw [UInt8.toNat_ofNat_of_lt' hn']; exact hn
    · simp at h
  unfold actionMake at hm
  split at hm <;> simp only [Except.ok.injEq, reduceCtorEq] at hm <;> rename_i hc <;> subst hm <;>
    simp only [Action.take] at hk
  all_goals first
    | (refine .inr (plain _ ?_ hc hk); decide)
    | skip
  · obtain ⟨rfl, rfl⟩ := code_eq hc (by omega)
    split at hk
    · rename_i hl
      simp only [Option.some.injEq] at hk
      subst hk
      exact .inr (ActionFrame.output (by simp at hl ⊢; omega))
    · simp at hk
  · obtain ⟨rfl, rfl⟩ := code_eq hc (by omega)
    rcases t with _ | ⟨hi, _ | ⟨lo, t⟩⟩
    · simp [sfTake] at hk
    · simp [sfTake] at hk
    · clear plain hc
      simp only [sfTake] at hk
      split at hk
      · simp at hk
      · rename_i hx
        simp only [Option.some.injEq] at hk
        subst hk
        unfold sfBody at hx ⊢
        generalize hm : (hi.toNat * 256 + lo.toNat + 65532) % 65536 = m at hx ⊢
        by_cases hl : t.length < m
        · left; simp; omega
        · right
          have hlen : (t.take m).length = m := by simp; omega
          rw [hlen]
          have htk : List.take (4 + m) (0 :: UInt8.ofNat 25 :: hi :: lo :: t) = 0 :: 25 :: hi :: lo :: t.take m := by
            rw [show 4 + m = m + 4 by omega]; rfl
          rw [htk]
          match hb : t.take m, hx with
          | x :: y :: z :: n :: w, hx =>
            rw [hb] at hlen
            have hn : n.toNat ≤ w.length := by
              simp only [xmTake] at hx
              split at hx
              · assumption
              · simp at hx
            have := ActionFrame.setField (hi := hi) (lo := lo) (x := x) (y := y) (z := z) (n := n)
              (v := w.take n.toNat) (p := w.drop n.toNat) (by simp; omega)
              (by rw [hm, ← hlen]; simp; omega)
            simpa using this
          | [], hx => simp [xmTake] at hx
          | [_], hx => simp [xmTake] at hx
          | [_, _], hx => simp [xmTake] at hx
          | [_, _, _], hx => simp [xmTake] at hx
  · obtain ⟨rfl, rfl⟩ := code_eq' hc
    split at hk
    · rename_i hl
      simp only [Option.some.injEq] at hk
      subst hk
      exact .inr (ActionFrame.experimenter (by simp at hl ⊢; omega))
    · simp at hk

private theorem take_of_frame {f : Bytes} (h : ActionFrame f) (t : Bytes) :
    ∃ x y w z, f = x :: y :: w ∧ actionMake (ofBE UInt16 [x, y]) = .ok z ∧
      z.take (f ++ t) = some f.length := by
  cases h with
  | @output b hb =>
    exact ⟨0, 0, b, .output 0 0, rfl, rfl, by simp [Action.take, hb]⟩
  | @plain c b hc hb =>
    simp only [List.mem_cons, List.not_mem_nil, or_false] at hc
    have hlen : (0 :: c :: b).length = 8 := by simp [hb]
    have go : ∀ z : Action, actionMake (ofBE UInt16 [0, c]) = .ok z →
        (∀ b, z.take b = if 8 ≤ b.length then some 8 else none) →
        ∃ x y w z, (0 :: c :: b) = x :: y :: w ∧ actionMake (ofBE UInt16 [x, y]) = .ok z ∧
          z.take ((0 :: c :: b) ++ t) = some (0 :: c :: b).length := fun z h1 h2 =>
      ⟨0, c, b, z, rfl, h1, by rw [h2, hlen, if_pos (by simp; omega)]⟩
    rcases hc with h | h | h | h | h | h | h | h | h | h | h | h | h <;>
      (have hc' : c = UInt8.ofNat c.toNat := by simp
       rw [h] at hc'; subst hc') <;>
      exact go _ rfl (fun _ => rfl)
  | @experimenter b hb =>
    exact ⟨255, 255, b, .experimenter 0, rfl, rfl, by simp [Action.take, hb]⟩
  | @setField hi lo x y z n v p hv hl =>
    refine ⟨0, 25, _, .setField XM.zero, rfl, rfl, ?_⟩
    have hb : sfBody hi lo (x :: y :: z :: n :: (v ++ p ++ t)) = x :: y :: z :: n :: (v ++ p) := by
      unfold sfBody
      generalize (hi.toNat * 256 + lo.toNat + 65532) % 65536 = m at hl ⊢
      subst hl
      rw [show 4 + v.length + p.length = (v ++ p).length + 4 by simp; omega]
      show x :: y :: z :: n :: List.take (v ++ p).length (v ++ p ++ t) = _
      rw [List.take_left]
    simp only [Action.take, List.cons_append, sfTake, hb]
    simp [xmTake, hv]
    omega

private theorem reaches27_iff (b : Bytes) : ScanPanic actionMake Action.take b ↔ Reaches27 b := by
  constructor
  · intro h
    induction h with
    | @here b hl hm =>
      match b, hl with
      | x :: y :: t, _ =>
        have hc : ofBE UInt16 [x, y] = 27 := by
          rcases actionMake_err _ _ hm with h | h
          · simp at h
          · exact h.2
        obtain ⟨rfl, rfl⟩ := code_eq (n := 27) (by rw [hc]; rfl) (by omega)
        exact ⟨[], t, by simp, rfl⟩
    | @next b z k hl hm hk hs ih =>
      match b, hl with
      | x :: y :: t, _ =>
        rcases frame_of_take (t := t) hm hk with h | h
        · rw [List.drop_eq_nil_of_le h] at hs
          cases hs <;> simp at *
        · obtain ⟨fs, tail, h1, h2⟩ := ih
          refine ⟨List.take k (x :: y :: t) :: fs, tail, ?_, ?_⟩
          · intro f hf
            rcases List.mem_cons.mp hf with rfl | hf
            · exact h
            · exact h1 f hf
          · rw [List.flatten_cons, List.append_assoc, ← h2, List.take_append_drop]
  · rintro ⟨fs, tail, h1, rfl⟩
    induction fs with
    | nil => exact .here (by simp) (show actionMake (ofBE UInt16 [0, 27]) = .error .panic from rfl)
    | cons f fs ih =>
      obtain ⟨x, y, w, z, hf, hm, hk⟩ := take_of_frame (h1 f (by simp)) (fs.flatten ++ 0 :: 27 :: tail)
      have hd : (List.flatten (f :: fs) ++ 0 :: 27 :: tail) = f ++ (fs.flatten ++ 0 :: 27 :: tail) := by simp
      rw [hd]
      refine .next (z := z) (k := f.length) (by simp [hf]) (by rw [hf]; exact hm) hk ?_
      simpa using ih (fun g hg => h1 g (by simp [hg]))

/-- The big-endian sixteen bit number at offset `i`. -/
def u16At (b : Bytes) (i : Nat) : Nat := (b[i]?.getD 0).toNat * 256 + (b[i + 1]?.getD 0).toNat

private theorem u16At_eq {b : Bytes} {i : Nat} (h : i + 2 ≤ b.length) :
    (ofBE UInt16 ((b.drop i).take 2)).toNat = u16At b i := by
  have h1 : b.drop i = b[i] :: b[i + 1] :: b.drop (i + 2) := by
    rw [List.drop_eq_getElem_cons (by omega), List.drop_eq_getElem_cons (by omega)]
  rw [h1]
  show (ofBE UInt16 [b[i], b[i + 1]]).toNat = _
  rw [ofBE_u16]
  simp [u16At, List.getElem?_eq_getElem (show i < b.length by omega),
    List.getElem?_eq_getElem (show i + 1 < b.length by omega)]

/-! ## Actions, packet-outs, buckets, instructions -/

/-- C39.  `Actions.ReadFrom` panics on an input exactly when complete actions, of whatever
contents and number, are followed by the two bytes of type code 27; however the input is cut
into reads. -/
theorem actions_panic_iff (s : List Action) (r : Rd) (hr : r.Ok .eof) :
    (Actions.readFrom s r).err = some .panic ↔ Reaches27 r.content :=
  (Actions.readFrom_panicIff s r hr).trans (reaches27_iff _)

private theorem actions_panicIff : PanicIff Actions.readFrom (fun _ => Reaches27) := actions_panic_iff

private theorem total_of_panicIff {σ : Type} {dec : Step σ} {Q : σ → Bytes → Prop} (h : Safe ActErr dec)
    (hp : PanicIff dec Q) (s : σ) (r : Rd) (hr : r.Ok .eof) (hQ : ¬ Q s r.content) : SafeAt DecErr r (dec s r) := by
  obtain ⟨h1, h2, h3⟩ := h s r hr
  refine ⟨h1, h2, fun e he => ?_⟩
  rcases h3 e he with h | h | h | h
  · exact .inl h
  · exact .inr (.inl h)
  · exact .inr (.inr h)
  · subst h; exact absurd ((hp s r hr).mp he) hQ

/-- As `TotalOn`, for a property that may speak about the receiver's type. -/
private theorem totalOn_of_safeOn {σ : Type} {dec : Step σ} {P : Bytes → Prop} (h : SafeOn P DecErr dec) :
    TotalOn P dec (.unknownType :: short) := by
  intro s r hr hP
  obtain ⟨⟨m, h1, h2⟩, _, h3⟩ := h s r hr hP
  refine ⟨⟨m, h1, h2.content.1, h2.content.2⟩, ?_⟩
  rcases hx : (dec s r).err with _ | e
  · exact .inl rfl
  · exact .inr ⟨e, dec_of (h3 e hx), rfl⟩

/-- C39.  `Actions.ReadFrom` copes with every other input.  Missing: the inputs of
`actions_panic_iff`. -/
theorem actions_total_partial : TotalOn (fun b => ¬ Reaches27 b) Actions.readFrom (.unknownType :: short) :=
  totalOn_of_safeOn fun s r hr h => total_of_panicIff Actions.readFrom_safe actions_panicIff s r hr h

/-- The actions of a packet-out contain type code 27 where an action begins. -/
def PacketOut27 (b : Bytes) : Prop := 16 ≤ b.length ∧ Reaches27 ((b.drop 16).take (u16At b 8))

/-- C39.  `PacketOut.ReadFrom` panics exactly on the inputs whose actions part, as delimited
by the length field, contains type code 27 where an action begins; the packet data after it
may be anything. -/
theorem packetOut_panic_iff (s : PacketOut) (r : Rd) (hr : r.Ok .eof) :
    (PacketOut.readFrom s r).err = some .panic ↔ PacketOut27 r.content := by
  have h := PanicIff.withLocal (init := (0 : UInt16)) <|
    PanicIff.num (set := fun v (s : PacketOut × UInt16) => ({ s.1 with buffer := v }, s.2)) <|
    PanicIff.num (set := fun v (s : PacketOut × UInt16) => ({ s.1 with inPort := v }, s.2)) <|
    PanicIff.num (set := fun v (s : PacketOut × UInt16) => (s.1, v)) <|
    PanicIff.skip (k := 6) <|
    PanicIff.assign (f := fun s => ({ s.1 with actions := [] }, s.2)) <|
    PanicIff.head (E := DecErr) (E' := ActErr) (t := [Enc.rest (fun b s => ({ s.1 with data := b }, s.2))])
      (PanicIff.dyn (fun s : PacketOut × UInt16 => PanicIff.limited (n := s.2.toNat)
        (PanicIff.sub (get := fun s : PacketOut × UInt16 => s.1.actions)
          (set := fun v s => ({ s.1 with actions := v }, s.2)) actions_panicIff)))
      (Safe.dyn fun s => Safe.limited (Safe.sub Actions.readFrom_safe))
      (Safe.cons Safe.rest Safe.nil) (by simp [DecErr])
  refine (h s r hr).trans ?_
  clear h
  generalize r.content = b
  simp only [List.drop_drop, List.length_drop]
  show (4 ≤ b.length ∧ 4 ≤ b.length - 4 ∧ 2 ≤ b.length - 8 ∧ 6 ≤ b.length - 10 ∧
    Reaches27 ((b.drop 16).take (ofBE UInt16 ((b.drop 8).take 2)).toNat)) ↔ _
  unfold PacketOut27
  by_cases hl : 16 ≤ b.length
  · rw [u16At_eq (by omega)]
    constructor
    · exact fun h => ⟨hl, h.2.2.2.2⟩
    · exact fun h => ⟨by omega, by omega, by omega, by omega, h.2⟩
  · constructor
    · intro h; omega
    · intro h; omega

/-- C39.  `PacketOut.ReadFrom` copes with every other input.  Missing: the inputs of
`packetOut_panic_iff`. -/
theorem packetOut_total_partial :
    TotalOn (fun b => ¬ PacketOut27 b) PacketOut.readFrom (.unknownType :: short) :=
  totalOn_of_safeOn fun s r hr h =>
    total_of_panicIff (Q := fun _ => PacketOut27) PacketOut.readFrom_safe packetOut_panic_iff s r hr h

/-- The actions of a bucket contain type code 27 where an action begins.  The length of the
actions is computed in sixteen bits. -/
def Bucket27 (b : Bytes) : Prop := 16 ≤ b.length ∧ Reaches27 ((b.drop 16).take ((u16At b 0 + 65520) % 65536))

private theorem sub16 (x : UInt16) : (x - 16).toNat = (x.toNat + 65520) % 65536 := by
  rw [UInt16.toNat_sub]; simp; omega

private theorem sub8 (x : UInt16) : (x - 8).toNat = (x.toNat + 65528) % 65536 := by
  rw [UInt16.toNat_sub]; simp; omega

/-- C39.  `Bucket.ReadFrom` panics exactly on the inputs whose actions part contains type
code 27 where an action begins. -/
theorem bucket_panic_iff (s : Bucket) (r : Rd) (hr : r.Ok .eof) :
    (Bucket.readFrom s r).err = some .panic ↔ Bucket27 r.content := by
  have h := PanicIff.withLocal (init := (0 : UInt16)) <|
    PanicIff.num (set := fun v (s : Bucket × UInt16) => (s.1, v)) <|
    PanicIff.num (set := fun v (s : Bucket × UInt16) => ({ s.1 with weight := v }, s.2)) <|
    PanicIff.num (set := fun v (s : Bucket × UInt16) => ({ s.1 with watchPort := v }, s.2)) <|
    PanicIff.num (set := fun v (s : Bucket × UInt16) => ({ s.1 with watchGroup := v }, s.2)) <|
    PanicIff.skip (k := 4) <|
    PanicIff.assign (f := fun s => ({ s.1 with actions := [] }, s.2)) <|
    PanicIff.head (E := DecErr) (E' := ActErr) (t := [])
      (PanicIff.dyn (fun s : Bucket × UInt16 => PanicIff.limited (n := (s.2 - 16).toNat)
        (PanicIff.sub (get := fun s : Bucket × UInt16 => s.1.actions)
          (set := fun v s => ({ s.1 with actions := v }, s.2)) actions_panicIff)))
      (Safe.dyn fun s => Safe.limited (Safe.sub Actions.readFrom_safe)) Safe.nil (by simp [DecErr])
  refine (h s r hr).trans ?_
  clear h
  generalize r.content = b
  simp only [List.drop_drop, List.length_drop]
  show (2 ≤ b.length ∧ 2 ≤ b.length - 2 ∧ 4 ≤ b.length - 4 ∧ 4 ≤ b.length - 8 ∧ 4 ≤ b.length - 12 ∧
    Reaches27 ((b.drop 16).take (ofBE UInt16 ((b.drop 0).take 2) - 16).toNat)) ↔ _
  unfold Bucket27
  by_cases hl : 16 ≤ b.length
  · rw [sub16, u16At_eq (by omega)]
    constructor
    · exact fun h => ⟨hl, h.2.2.2.2.2⟩
    · exact fun h => ⟨by omega, by omega, by omega, by omega, by omega, h.2⟩
  · constructor
    · intro h; omega
    · intro h; omega

/-- C39.  `Bucket.ReadFrom` copes with every other input.  Missing: the inputs of
`bucket_panic_iff`. -/
theorem bucket_total_partial : TotalOn (fun b => ¬ Bucket27 b) Bucket.readFrom (.unknownType :: short) :=
  totalOn_of_safeOn fun s r hr h =>
    total_of_panicIff (Q := fun _ => Bucket27) Bucket.readFrom_safe bucket_panic_iff s r hr h

/-- The actions of an instruction contain type code 27 where an action begins. -/
def Instruction27 (b : Bytes) : Prop :=
  8 ≤ b.length ∧ Reaches27 ((b.drop 8).take ((u16At b 2 + 65528) % 65536))

private theorem instrActions_panicIff : PanicIff readInstructionActions (fun _ => Instruction27) := by
  have hsub : ∀ (s : List Action × (UInt16 × UInt16)) (b : Bytes), b.length = 4 →
      Reads (Enc.sub (fun s : List Action × (UInt16 × UInt16) => s.2) (fun h s => (s.1, h)) instructionHeader.readFrom)
        s b (s.1, (ofBE UInt16 (b.take 2), ofBE UInt16 ((b.drop 2).take 2))) := by
    intro s b hb
    have h := Reads.sub (σ := List Action × (UInt16 × UInt16)) (get := fun s => s.2) (set := fun h s => (s.1, h))
      (s := s) (instructionHeader.reads (ofBE UInt16 (b.take 2)) (ofBE UInt16 ((b.drop 2).take 2)) s.2)
    rw [be_ofBE_u16 (by simp; omega), be_ofBE_u16 (by simp; omega)] at h
    have : b.take 2 ++ (b.drop 2).take 2 = b := by
      rw [List.take_of_length_le (l := b.drop 2) (by simp; omega), List.take_append_drop]
    rwa [this] at h
  have h := PanicIff.withLocal (init := ((0, 0) : UInt16 × UInt16)) <|
    PanicIff.reads (f := fun s b => (s.1, (ofBE UInt16 (b.take 2), ofBE UInt16 ((b.drop 2).take 2))))
      instructionHeader.flat.sub hsub <|
    PanicIff.skip (k := 4) <|
    PanicIff.head (E := DecErr) (E' := ActErr) (t := [])
      (PanicIff.dyn (fun s : List Action × (UInt16 × UInt16) => PanicIff.limited (n := (s.2.2 - 8).toNat)
        (PanicIff.sub (get := fun s : List Action × (UInt16 × UInt16) => s.1)
          (set := fun v s => (v, s.2)) actions_panicIff)))
      (Safe.dyn fun s => Safe.limited (Safe.sub Actions.readFrom_safe)) Safe.nil (by simp [DecErr])
  intro s r hr
  refine (h s r hr).trans ?_
  clear h
  generalize r.content = b
  simp only [List.drop_drop, List.length_drop]
  unfold Instruction27
  by_cases hl : 8 ≤ b.length
  · have he : ((b.take 4).drop 2).take 2 = (b.drop 2).take 2 := by
      rw [List.drop_take, List.take_take]
      rfl
    rw [he, sub8, u16At_eq (by omega)]
    constructor
    · exact fun h => ⟨hl, h.2.2⟩
    · exact fun h => ⟨by omega, by omega, h.2⟩
  · constructor
    · intro h; omega
    · intro h; omega

/-- C39.  `ReadFrom` of an instruction panics exactly when it is one of the two that carry
actions and the actions part contains type code 27 where an action begins. -/
theorem instruction_panic_iff (i : Instruction) (r : Rd) (hr : r.Ok .eof) :
    (Instruction.readFrom i r).err = some .panic ↔
      ((∃ as, i = .writeActions as ∨ i = .applyActions as) ∧ Instruction27 r.content) := by
  have other : ∀ {β : Type} (f : β → Instruction) (st : Step β) (t : β), Safe DecErr st →
      (Enc.wrap f st t r).err ≠ some .panic := by
    intro β f st t h he
    have := (h t r hr).err _ he
    simp [DecErr] at this
  have h1 := @skipInstructionHeader_safe (UInt64 × UInt64) DecErr _
  have h2 := @skipInstructionHeader_safe UInt8 DecErr _
  have h4 := @skipInstructionHeader_safe UInt32 DecErr _
  cases i with
  | writeActions as =>
    simp only [Instruction.writeActions.injEq, reduceCtorEq, or_false, exists_eq', true_and]
    exact instrActions_panicIff as r hr
  | applyActions as =>
    simp only [Instruction.applyActions.injEq, reduceCtorEq, false_or, exists_eq', true_and]
    exact instrActions_panicIff as r hr
  | gotoTable t =>
    simp only [reduceCtorEq, or_self, exists_false, false_and, iff_false]
    exact other _ _ _ (by safe)
  | writeMetadata m k =>
    simp only [reduceCtorEq, or_self, exists_false, false_and, iff_false]
    exact other _ _ _ (by safe)
  | clearActions =>
    simp only [reduceCtorEq, or_self, exists_false, false_and, iff_false]
    exact other _ _ _ (by safe)
  | meter m =>
    simp only [reduceCtorEq, or_self, exists_false, false_and, iff_false]
    exact other _ _ _ (by safe)

/-- The receiver is an instruction with actions, and these contain type code 27. -/
private def Carries27 (i : Instruction) (b : Bytes) : Prop :=
  (∃ as, i = .writeActions as ∨ i = .applyActions as) ∧ Instruction27 b

/-- C39.  `ReadFrom` of an instruction copes with every other input.  Missing: the inputs of
`instruction_panic_iff`. -/
theorem instruction_total_partial :
    TotalOn (fun b => ¬ Instruction27 b) Instruction.readFrom (.unknownType :: short) :=
  totalOn_of_safeOn fun s r hr h =>
    total_of_panicIff (Q := Carries27)
      Instruction.readFrom_safe instruction_panic_iff s r hr (fun h' => h h'.2)

/-! ## Messages with lists of instructions or buckets -/

private theorem Reaches27.mono {p q : Bytes} (h : Reaches27 p) (hpq : p <+: q) : Reaches27 q := by
  obtain ⟨fs, tail, h1, rfl⟩ := h
  obtain ⟨t, rfl⟩ := hpq
  exact ⟨fs, tail ++ t, h1, by simp⟩

private theorem u16At_mono {p q : Bytes} {i : Nat} (h : i + 2 ≤ p.length) (hpq : p <+: q) :
    u16At p i = u16At q i := by
  obtain ⟨t, rfl⟩ := hpq
  unfold u16At
  rw [List.getElem?_append_left (by omega), List.getElem?_append_left (by omega)]

private theorem region_mono {p q : Bytes} (k n : Nat) (hpq : p <+: q) :
    (p.drop k).take n <+: (q.drop k).take n := by
  obtain ⟨t, rfl⟩ := hpq
  rw [List.drop_append, List.take_append]
  exact List.prefix_append _ _

private theorem Instruction27.mono {p q : Bytes} (h : Instruction27 p) (hpq : p <+: q) : Instruction27 q := by
  obtain ⟨h1, h2⟩ := h
  have := hpq.length_le
  rw [u16At_mono (by omega) hpq] at h2
  exact ⟨Nat.le_trans h1 this, h2.mono (region_mono _ _ hpq)⟩

private theorem Bucket27.mono {p q : Bytes} (h : Bucket27 p) (hpq : p <+: q) : Bucket27 q := by
  obtain ⟨h1, h2⟩ := h
  have := hpq.length_le
  rw [u16At_mono (by omega) hpq] at h2
  exact ⟨Nat.le_trans h1 this, h2.mono (region_mono _ _ hpq)⟩

/-- Wherever one starts reading, there is no instruction of type 3 or 4 with type code 27 in
its actions. -/
def NoInstruction27 (b : Bytes) : Prop :=
  ∀ (k : Nat) (t : UInt8) (tail : Bytes), t = 3 ∨ t = 4 → b.drop k = 0 :: t :: tail →
    ¬ Instruction27 (0 :: t :: tail)

/-- Wherever one starts reading, there is no bucket with type code 27 in its actions. -/
def NoBucket27 (b : Bytes) : Prop := ∀ k, ¬ Bucket27 (b.drop k)

private theorem take_drop_prefix (b : Bytes) (n k : Nat) : (b.take n).drop k <+: b.drop k := by
  refine ⟨(b.drop n).drop (k - (b.take n).length), ?_⟩
  rw [← List.drop_append, List.take_append_drop]

instance : Hereditary NoInstruction27 where
  drop b j h k t tail ht hb := h (j + k) t tail ht (by rwa [List.drop_drop] at hb)
  take b n h k t tail ht hb hi := by
    obtain ⟨w, hw⟩ := take_drop_prefix b n k
    rw [hb] at hw
    exact h k t (tail ++ w) ht hw.symm (hi.mono ⟨w, rfl⟩)

instance : Hereditary NoBucket27 where
  drop b j h k := by rw [List.drop_drop]; exact h _
  take b n h k hb := h k (hb.mono (take_drop_prefix b n k))

private theorem make_actions {c : UInt16} {as : List Action} {i : Instruction}
    (hm : instructionMake c = .ok i) (hi : i = .writeActions as ∨ i = .applyActions as) : c = 3 ∨ c = 4 := by
  unfold instructionMake at hm
  split at hm <;> simp only [Except.ok.injEq, reduceCtorEq] at hm <;> rename_i hc <;> subst hm <;>
    simp only [reduceCtorEq, or_self, or_false, false_or] at hi
  · exact .inl (UInt16.toNat_inj.mp hc)
  · exact .inr (UInt16.toNat_inj.mp hc)

private theorem instructions_safeOn : SafeOn NoInstruction27 DecErr Instructions.readFrom := by
  refine SafeOn.scanFromCode (fun c i hm r hr hP hc => ?_) Instruction.readFrom_moves ?_
  · refine total_of_panicIff (Q := Carries27) Instruction.readFrom_safe instruction_panic_iff i r hr ?_
    rintro ⟨⟨as, h1⟩, h2⟩
    have hd : r.content = be c ++ r.content.drop 2 := by rw [← hc, List.take_append_drop]
    rcases make_actions hm h1 with rfl | rfl
    · exact hP 0 3 (r.content.drop 2) (.inl rfl) hd (hd ▸ h2)
    · exact hP 0 4 (r.content.drop 2) (.inr rfl) hd (hd ▸ h2)
  · intro b c e _ _ h
    simp [DecErr, instructionMake_err c e h]

private theorem buckets_safeOn : SafeOn NoBucket27 DecErr (Enc.readSliceFrom Bucket.zero Bucket.readFrom) :=
  SafeOn.readSliceFrom (fun b r hr hP =>
    total_of_panicIff (Q := fun _ => Bucket27) Bucket.readFrom_safe bucket_panic_iff b r hr (fun h => hP 0 h))
    Bucket.readFrom_moves

/-- C39.  `Instructions.ReadFrom` copes with every input in which no instruction has type code
27 where an action begins; the two bytes 0, 27 may occur elsewhere.  Missing: the other inputs,
on which it can panic (`instructions_panic`). -/
theorem instructions_total_partial : TotalOn NoInstruction27 Instructions.readFrom (.unknownType :: short) :=
  totalOn_of_safeOn instructions_safeOn

/-- C39.  The same for `FlowMod.ReadFrom`.  Missing: the other inputs, on which it can panic
(`flowMod_panic`). -/
theorem flowMod_total_partial : TotalOn NoInstruction27 FlowMod.readFrom (.unknownType :: short) := by
  have h1 : SafeOn NoInstruction27 DecErr Match.readFrom := Safe.on Match.readFrom_safe
  have h2 := instructions_safeOn
  refine totalOn_of_safeOn ?_
  unfold FlowMod.readFrom; safeOn

/-- C39.  The same for `FlowStats.ReadFrom`.  Missing: the other inputs. -/
theorem flowStats_total_partial : TotalOn NoInstruction27 FlowStats.readFrom (.unknownType :: short) := by
  have h1 : SafeOn NoInstruction27 DecErr Match.readFrom := Safe.on Match.readFrom_safe
  have h2 := instructions_safeOn
  refine totalOn_of_safeOn ?_
  unfold FlowStats.readFrom; safeOn

/-- C39.  `GroupMod.ReadFrom` copes with every input in which no bucket, wherever it were to
begin, has type code 27 where an action begins.  Missing: the other inputs, on which it can
panic (`groupMod_panic`). -/
theorem groupMod_total_partial : TotalOn NoBucket27 GroupMod.readFrom (.unknownType :: short) := by
  have h := buckets_safeOn
  refine totalOn_of_safeOn ?_
  unfold GroupMod.readFrom; safeOn

/-- C39.  The same for `GroupDescStats.ReadFrom`.  Missing: the other inputs. -/
theorem groupDescStats_total_partial : TotalOn NoBucket27 GroupDescStats.readFrom (.unknownType :: short) := by
  have h := buckets_safeOn
  refine totalOn_of_safeOn ?_
  unfold GroupDescStats.readFrom
  refine SafeOn.withLocal (SafeOn.cons
    (Safe.on (Safe.ignoreErr (E' := ActErr) GroupDescStats.header_flat.safe)) ?_)
  safeOn

/-- An instruction that carries actions, of either type. -/
private theorem instrMake_actions {t : UInt8} (ht : t = 3 ∨ t = 4) :
    ∃ z, instructionMake (ofBE UInt16 [0, t]) = .ok z ∧ ∃ as, z = .writeActions as ∨ z = .applyActions as := by
  rcases ht with rfl | rfl
  · exact ⟨_, rfl, _, .inl rfl⟩
  · exact ⟨_, rfl, _, .inr rfl⟩

private theorem instructions_panics (is s : List Instruction) (hv : ∀ i ∈ is, i.Valid) (t : UInt8)
    (ht : t = 3 ∨ t = 4) (tail : Bytes) (h : Instruction27 (0 :: t :: tail)) :
    Panics Instructions.readFrom s (is.flatMap Instruction.bytes ++ 0 :: t :: tail) := by
  obtain ⟨z, h1, h2⟩ := instrMake_actions ht
  refine Panics.scanFrom (tail := 0 :: t :: tail) (z := z) (Nat.le_add_left 2 tail.length)
    (show instructionMake (ofBE UInt16 [0, t]) = .ok z from h1) ?_ is (fun i hi => i.reads (hv i hi))
    (fun i _ => instructionMake_type i) (fun i _ => i.bytes_type)
  intro r hr hc
  exact (instruction_panic_iff z r hr).mpr ⟨h2, hc ▸ h⟩

/-- C39 is false of the code: after any valid instructions, one whose actions part contains type
code 27 where an action begins makes the decoder panic. -/
theorem instructions_panic (is s : List Instruction) (hv : ∀ i ∈ is, i.Valid) (t : UInt8)
    (ht : t = 3 ∨ t = 4) (tail : Bytes) (h : Instruction27 (0 :: t :: tail)) (r : Rd) (hr : r.Ok .eof)
    (hc : r.content = (Instructions.writeTo is).out ++ 0 :: t :: tail) :
    (Instructions.readFrom s r).err = some .panic := by
  rw [Instructions.writeTo_eq] at hc
  exact instructions_panics is s hv t ht tail h r hr hc

/-- C39 is false of the code: a valid flow-mod followed by such an instruction. -/
theorem flowMod_panic (f s : FlowMod) (hm : f.mtch.Valid) (hv : ∀ i ∈ f.instructions, i.Valid) (t : UInt8)
    (ht : t = 3 ∨ t = 4) (tail : Bytes) (h : Instruction27 (0 :: t :: tail)) (r : Rd) (hr : r.Ok .eof)
    (hc : r.content = f.writeTo.out ++ 0 :: t :: tail) : (FlowMod.readFrom s r).err = some .panic := by
  rw [FlowMod.out_eq] at hc
  simp only [List.append_assoc] at hc
  refine Panics.assignCons ?_ r hr hc
  have num : ∀ {α : Type} [Wire α] {set : α → FlowMod → FlowMod} {l : List (Step FlowMod)} {s : FlowMod} {b : Bytes} (x : α),
      Panics (Enc.readFrom l) (set x s) b → Panics (Enc.readFrom (Enc.num set :: l)) s (be x ++ b) :=
    fun x h => Panics.cons (Reads.num x) h
  refine num _ (num _ (num _ (num _ (num _ (num _ (num _ (num _ (num _ (num _ (num _ ?_))))))))))
  refine Panics.cons (Reads.skip (zeros_length 2)) (Panics.cons (Reads.sub (f.mtch.reads hm _)) ?_)
  exact Panics.last (Panics.sub (instructions_panics f.instructions _ hv t ht tail h))

/-- C39 is false of the code: a valid group-mod followed by a bucket whose actions part
contains type code 27 where an action begins. -/
theorem groupMod_panic (g s : GroupMod) (hv : ∀ b ∈ g.buckets, b.Valid) (tail : Bytes) (h : Bucket27 tail)
    (r : Rd) (hr : r.Ok .eof) (hc : r.content = g.writeTo.out ++ tail) :
    (GroupMod.readFrom s r).err = some .panic := by
  rw [GroupMod.out_eq] at hc
  simp only [List.append_assoc] at hc
  refine Panics.cons (Reads.num _) (Panics.cons (Reads.num _) (Panics.cons (Reads.skip (zeros_length 1))
    (Panics.cons (Reads.num _) ?_))) r hr hc
  refine Panics.last (Panics.sub (Panics.readSliceFrom (fun r hr hc => ?_) g.buckets
    (fun b hb => b.reads (hv b hb) _) (fun b _ => ?_)))
  · exact (bucket_panic_iff _ r hr).mpr (hc ▸ h)
  · rw [Bucket.bytes_length]; unfold Bucket.size; omega

private theorem code27_of_reaches {b c : Bytes} {j k n : Nat} (h : Reaches27 ((c.drop j).take n)) (hc : b.drop k = c) :
    ¬ NoCode27 b := by
  obtain ⟨fs, tail, _, h⟩ := h
  intro hn
  subst hc
  have hb : b = b.take (k + j) ++ ((b.drop (k + j)).take n ++ (b.drop (k + j)).drop n) := by
    rw [List.take_append_drop, List.take_append_drop]
  rw [List.drop_drop] at h
  rw [h] at hb
  refine noCode27 hn (b.take (k + j) ++ fs.flatten) (tail ++ (b.drop (k + j)).drop n) ?_
  simpa using hb

/-- The inputs of the theorems `_untrusted_partial` are among those of `_total_partial`. -/
theorem noCode27_total {b : Bytes} (h : NoCode27 b) :
    ¬ Reaches27 b ∧ ¬ PacketOut27 b ∧ NoInstruction27 b ∧ NoBucket27 b := by
  refine ⟨fun h1 => ?_, fun h1 => ?_, fun k t tail _ hb h1 => ?_, fun k h1 => ?_⟩
  · refine code27_of_reaches (b := b) (c := b) (j := 0) (k := 0) (n := b.length) ?_ rfl h
    simpa using h1
  · exact code27_of_reaches (k := 0) h1.2 rfl h
  · rw [← hb] at h1
    exact code27_of_reaches (k := k) h1.2 rfl h
  · exact code27_of_reaches (k := k) h1.2 rfl h

/-- A set-field action with the bytes 0, 27 within it, and a packet with them, too. -/
example : ¬ PacketOut27 ([255, 255, 255, 255, 0, 0, 0, 1, 0, 16, 0, 0, 0, 0, 0, 0] ++
    [0, 25, 0, 16, 128, 0, 0, 4, 0, 27, 0, 27, 0, 0, 0, 0] ++ [0, 27, 0, 27]) := by
  intro h
  have hr : Rd.Ok .eof (.src ([255, 255, 255, 255, 0, 0, 0, 1, 0, 16, 0, 0, 0, 0, 0, 0] ++
    [0, 25, 0, 16, 128, 0, 0, 4, 0, 27, 0, 27, 0, 0, 0, 0] ++ [0, 27, 0, 27]) [] .eof false) := rfl
  have := (packetOut_panic_iff default _ hr).mpr h
  revert this
  decide +kernel

/-- The same set-field action, followed by type code 27. -/
example : Reaches27 [0, 25, 0, 16, 128, 0, 0, 4, 0, 27, 0, 27, 0, 0, 0, 0, 0, 27, 1] :=
  ⟨[[0, 25, 0, 16, 128, 0, 0, 4, 0, 27, 0, 27, 0, 0, 0, 0]], [1], by
    intro f hf
    simp only [List.mem_singleton] at hf
    subst hf
    exact ActionFrame.setField (hi := 0) (lo := 16) (x := 128) (y := 0) (z := 0) (n := 4) (v := [0, 27, 0, 27])
      (p := [0, 0, 0, 0]) rfl rfl, rfl⟩

/-- An apply-actions instruction with it. -/
example : Instruction27 [0, 4, 0, 16, 0, 0, 0, 0, 0, 27, 0, 8, 0, 0, 0, 0] :=
  ⟨by decide, [], [0, 8, 0, 0, 0, 0], by simp, rfl⟩

/-- A goto-table instruction to table 27 (the bytes 0, 27 occur after it as well) and an
apply-actions instruction with an output action to port 27. -/
example : NoInstruction27 ([0, 1, 0, 8, 27, 0, 0, 0] ++ [0, 4, 0, 24, 0, 0, 0, 0] ++
    [0, 0, 0, 16, 0, 0, 0, 27, 0, 27, 0, 0, 0, 0, 0, 0]) := by
  intro k t tail ht hb h
  have hk : k < 32 := by
    have := congrArg List.length hb
    simp at this
    omega
  have key : ∀ k < 32, k = 8 ∨ ((([0, 1, 0, 8, 27, 0, 0, 0] ++ [0, 4, 0, 24, 0, 0, 0, 0] ++
      [0, 0, 0, 16, 0, 0, 0, 27, 0, 27, 0, 0, 0, 0, 0, 0] : Bytes).drop k).take 2 ≠ [0, 3] ∧
      (([0, 1, 0, 8, 27, 0, 0, 0] ++ [0, 4, 0, 24, 0, 0, 0, 0] ++
        [0, 0, 0, 16, 0, 0, 0, 27, 0, 27, 0, 0, 0, 0, 0, 0] : Bytes).drop k).take 2 ≠ [0, 4]) := by decide
  rcases key k hk with rfl | hn
  · rw [← hb] at h
    have hr : Rd.Ok .eof (.src (([0, 1, 0, 8, 27, 0, 0, 0] ++ [0, 4, 0, 24, 0, 0, 0, 0] ++
      [0, 0, 0, 16, 0, 0, 0, 27, 0, 27, 0, 0, 0, 0, 0, 0] : Bytes).drop 8) [] .eof false) := rfl
    have := (instruction_panic_iff (.applyActions []) _ hr).mpr ⟨⟨_, .inr rfl⟩, h⟩
    revert this
    decide +kernel
  · rw [hb] at hn
    rcases ht with rfl | rfl
    · exact hn.1 rfl
    · exact hn.2 rfl

/-- A bucket of weight 27. -/
example : NoBucket27 ([0, 32, 0, 27, 255, 255, 255, 255, 255, 255, 255, 255, 0, 0, 0, 0] ++
    [0, 0, 0, 16, 0, 0, 0, 1, 255, 255, 0, 0, 0, 0, 0, 0]) := by
  intro k h
  have hr : Rd.Ok .eof (.src (([0, 32, 0, 27, 255, 255, 255, 255, 255, 255, 255, 255, 0, 0, 0, 0] ++
    [0, 0, 0, 16, 0, 0, 0, 1, 255, 255, 0, 0, 0, 0, 0, 0] : Bytes).drop k) [] .eof false) := rfl
  have h1 := (bucket_panic_iff default _ hr).mpr h
  have key : ∀ k < 32, (Bucket.readFrom default (.src (([0, 32, 0, 27, 255, 255, 255, 255, 255, 255, 255, 255, 0, 0, 0, 0] ++
    [0, 0, 0, 16, 0, 0, 0, 1, 255, 255, 0, 0, 0, 0, 0, 0] : Bytes).drop k) [] .eof false)).err ≠ some .panic := by
    decide +kernel
  have hk : k < 32 := by
    have := h.1
    simp at this
    omega
  exact key k hk h1

/-- A bucket with it. -/
example : Bucket27 [0, 24, 0, 0, 0, 0, 0, 0, 0, 0, 0, 0, 0, 0, 0, 0, 0, 27, 0, 8, 0, 0, 0, 0] :=
  ⟨by decide, [], [0, 8, 0, 0, 0, 0], by simp, rfl⟩

end Verif.Props
