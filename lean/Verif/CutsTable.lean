import Verif.CutsStats

/-!
# Where the decoder of table features stops on a truncated input
-/

namespace Verif

variable {σ τ : Type} {d : Nat}

/-- A variable part followed by padding. -/
theorem Stops.padded {mid : Step σ} {pad : σ → Nat} {s1 s2 : σ} {bs : Bytes} {P : Nat}
    {cut : Nat → Option Err} {k : Nat}
    (hmid : ∀ j < bs.length, Stops mid s1 (bs.take j) (cut j) (fun v => pad v = P) 0)
    (hfull : Reads mid s1 bs s2) (hpad : pad s2 = P) (hk : k < bs.length + P) :
    Stops (Enc.readFrom [mid, Enc.dyn (fun s => Enc.skip (pad s))]) s1 ((bs ++ zeros P).take k)
      (if k < bs.length then (match cut k with | some e => some e | none => if P = 0 then none else some .eof)
        else some (eofIn [bs.length] k)) (fun _ => True) d := by
  by_cases h : k < bs.length
  · rw [if_pos h, take_append_lt (by omega)]
    have hm := hmid k h
    cases hc : cut k with
    | some e =>
      rw [hc] at hm
      refine (Stops.here (e := e) (V := fun v => pad v = P) fun r hr hcc => ?_).mono fun _ _ => trivial
      obtain ⟨a, b, c, m, e1, e2, e3⟩ := hm r hr hcc
      exact ⟨a, b, c, m, e1, by omega, e3⟩
    | none =>
      rw [hc] at hm
      refine Stops.consNone hm fun v b1 hv hb => ?_
      have : b1 = [] := List.length_eq_zero_iff.mp (by omega)
      subst this
      refine (Stops.last (Stops.dyn (V := fun _ => True) ?_)).mono fun _ _ => trivial
      rw [hv]
      by_cases h0 : P = 0
      · subst h0
        have := (Reads.skip (s := v) (k := 0) (b := []) rfl)
        simp only [if_pos]
        intro r hr hcc
        obtain ⟨r1, e1, a1, o1⟩ := this r [] hr (by simpa using hcc)
        rw [e1]
        exact ⟨rfl, trivial, o1, _, a1, by simp, by simp⟩
      · simp only [if_neg h0]
        have := Stops.skip (d := d) (s := v) (k := P) (b := []) (by simp; omega)
        exact this.mono fun _ _ => trivial
  · rw [if_neg h, take_append_ge (by omega)]
    refine Stops.cons hfull (Stops.last (Stops.dyn ?_))
    rw [hpad]
    have hl : ((zeros P).take (k - bs.length)).length = k - bs.length := by
      rw [List.length_take, zeros_length]; omega
    have := Stops.skip (d := d) (s := s2) (k := P) (b := (zeros P).take (k - bs.length)) (by rw [hl]; omega)
    have he : (if (zeros P).take (k - bs.length) = [] then Err.eof else .unexpectedEOF) = eofIn [bs.length] k := by
      unfold eofIn
      by_cases hkb : k = bs.length
      · subst hkb; simp
      · rw [if_neg (fun h => by rw [h] at hl; simp at hl; omega), if_neg (by simpa using hkb)]
    rw [he] at this
    exact this.mono fun _ _ => trivial

theorem XM.read_flat : Flat (XM.read false) 4 := by
  intro s r hr
  exact (Flat.cons Flat.num <| Flat.cons Flat.num <| Flat.cons Flat.num <| Flat.cons Flat.assign <|
    Flat.cons Flat.assign <| Flat.cons Flat.assign Flat.nil : Flat _ 4) (s, 0, false) r hr

/-- Headers without payloads: there is nothing to go wrong. -/
theorem readAllXMLoop_false : ∀ (fuel : Nat) (acc : List XM) (r : Rd), r.Ok .eof → r.content.length < fuel →
    (readAllXMLoop false fuel acc r).2 = none := by
  intro fuel
  induction fuel with
  | zero => intro acc r hr hf; omega
  | succ fuel ih =>
    intro acc r hr hf
    by_cases h4 : 4 ≤ r.content.length
    · obtain ⟨h1, h2, h3, -⟩ := XM.read_flat XM.zero r hr
      obtain ⟨h5, h6⟩ := h3 h4
      rcases hst : XM.read false XM.zero r with ⟨v, n, ee, r1⟩
      rw [hst] at h1 h2 h5 h6; simp only at h1 h2 h5 h6; subst h5 h6
      simp only [readAllXMLoop, h4, if_true, hst]
      refine ih _ r1 h1 ?_
      rw [h2.content.2, List.length_drop]; omega
    · simp only [readAllXMLoop, h4, if_false]

theorem readAllXM_false_stops (b : Bytes) (s : List XM) : Stops (readAllXM false) s b none (fun _ => True) d := by
  intro r hr hc
  obtain ⟨r', h1, h2, h3⟩ := readAll_spec .eof r hr
  have := readAllXMLoop_false (r.content.length + 1) s (.src r.content [] .eof false) (by simp [Rd.Ok])
    (by simp [Rd.content])
  simp only [readAllXM, h1, skipEOF, this]
  exact ⟨trivial, trivial, h3, _, h2, by rw [← hc]; omega, fun _ => by rw [← hc]; omega⟩

theorem Stops.sub2 {get : (Bool × σ) × UInt16 → σ} {set : σ → (Bool × σ) × UInt16 → (Bool × σ) × UInt16}
    {st : Step σ} {s : (Bool × σ) × UInt16} {b : Bytes} {eo : Option Err} {V : σ → Prop}
    (h : Stops st (get s) b eo V d) (hset : ∀ v, (set v s).2 = s.2) :
    Stops (Enc.sub get set st) s b eo (fun v => v.2 = s.2) d :=
  (Stops.sub (set := set) h).mono fun v ⟨w, _, hw⟩ => by rw [hw, hset]

theorem readTypeCodes_stops (as : List UInt16) (k : Nat) (hk : k < 4 * as.length) (s : List UInt16) :
    Stops (readTypeCodes actionHeader.readFrom) s ((typeCodes as).take k)
      (if k % 2 = 0 then none else some .unexpectedEOF) (fun _ => True) d := by
  have hsum : ∀ as : List (UInt16 × UInt16), (as.map fun _ => 4).sum = 4 * as.length := by
    intro as; induction as with
    | nil => rfl
    | cons b bs ih => simp only [List.map_cons, List.sum_cons, List.length_cons, ih]; omega
  let cs : List (UInt16 × UInt16) := as.map fun a => (a, 4)
  have hb : typeCodes as = cs.flatMap (fun c => be c.1 ++ be c.2) := by
    simp only [typeCodes, cs, List.flatMap_map]
  have hc4 : cs.length = as.length := by simp [cs]
  have h := Stops.slice (d := d) (zero := ((0, 0) : UInt16 × UInt16)) (st := actionHeader.readFrom)
    (enc := fun c => be c.1 ++ be c.2) (val := fun b => b) (sz := fun _ => 4)
    (cut := fun _ j => some (eofIn [0, 2] j)) cs (fun b _ => by simp)
    (fun b _ => Reads.cons (Reads.num _) (Reads.last (Reads.num _))) (fun b _ j hj => by
      have hl : ((be b.1 ++ be b.2).take j).length = j := by rw [List.length_take]; simp; omega
      have := actionHeader.fields.stops (d := 0) (s := (0, 0)) (b := (be b.1 ++ be b.2).take j)
        (by rw [hl]; exact hj)
      rw [hl] at this; exact this) header_eof k (by rw [hsum, hc4]; exact hk) (by simp) []
  rw [hb]
  have he : listCut (fun _ => 4) (fun (_ : UInt16 × UInt16) j => (some (eofIn [0, 2] j)).bind skipEOF) cs k =
      if k % 2 = 0 then none else some .unexpectedEOF := by
    have hkc : k < 4 * cs.length := by omega
    clear h hb
    generalize cs = cs at hkc
    obtain ⟨xs1, x, xs2, j, rfl, rfl, hj⟩ := list_split (fun _ => 4) cs k (by rw [hsum]; exact hkc)
    rw [listCut_append (fun _ => 4) _ xs1 x xs2 j hj, hsum]
    have : j = 0 ∨ j = 1 ∨ j = 2 ∨ j = 3 := by omega
    rcases this with rfl | rfl | rfl | rfl
    · rw [if_pos (by omega)]; rfl
    · rw [if_neg (by omega)]; rfl
    · rw [if_pos (by omega)]; rfl
    · rw [if_neg (by omega)]; rfl
  rw [he] at h
  intro r hr hc
  obtain ⟨h1, -, h3, h4⟩ := h r hr hc
  exact ⟨h1, trivial, h3, h4⟩

/-- The error of the decoder of a property on the first `k` bytes. -/
def TableProp.cut (p : TableProp) (k : Nat) : Option Err :=
  if k < 4 then some (eofIn [0] k)
  else if k < p.size then
    match p with
    | .nextTables .. => some (eofIn [4] k)
    | .instructions .. | .writeActions .. | .applyActions .. =>
      if k % 2 = 1 then some .unexpectedEOF else if padLen p.size = 0 then none else some .eof
    | .experimenter .. =>
      if k < 12 then some (eofIn [4, 8] k) else if padLen p.size = 0 then none else some .eof
    | _ => if padLen p.size = 0 then none else some .eof
  else some (eofIn [p.size] k)

/-- A property with the usual header. -/
theorem prop_stops (hm : Bool) (t : UInt16) (bs : Bytes) (hl : 4 + bs.length ≤ 65535)
    (f : (Bool × σ) × UInt16 → (Bool × σ) × UInt16) (mid : Step ((Bool × σ) × UInt16)) (s : Bool × σ)
    (s1 s2 : (Bool × σ) × UInt16) (cut : Nat → Option Err) (k : Nat)
    (hk : k < 4 + bs.length + padLen (4 + bs.length))
    (hf : f ((if hm then t &&& 1 == 1 else s.1, s.2), UInt16.ofNat (4 + bs.length)) = s1)
    (hmid : ∀ j < bs.length, Stops mid s1 (bs.take j) (cut j) (fun v => v.2 = UInt16.ofNat (4 + bs.length)) 0)
    (hfull : Reads mid s1 bs s2) (h2 : s2.2 = UInt16.ofNat (4 + bs.length)) :
    Stops (Enc.readFrom [yieldTableProp hm, Enc.assign f, mid, Enc.dyn (fun s => Enc.skip (padLen s.2.toNat))])
      (s, 0) (((be t ++ be (UInt16.ofNat (4 + bs.length))) ++ (bs ++ zeros (padLen (4 + bs.length)))).take k)
      (if k < 4 then some (eofIn [0] k) else if k < 4 + bs.length then
        (match cut (k - 4) with | some e => some e | none => if padLen (4 + bs.length) = 0 then none else some .eof)
        else some (eofIn [4 + bs.length] k)) (fun _ => True) d := by
  have key := Stops.first (d := d) (l := [yieldTableProp hm, Enc.assign f, mid,
    Enc.dyn (fun s => Enc.skip (padLen s.2.toNat))]) 2 (ks := [4]) (s := (s, 0)) (s1 := s1)
    (hb := be t ++ be (UInt16.ofNat (4 + bs.length))) (rest := bs ++ zeros (padLen (4 + bs.length))) (k := k)
    (cut := if k - 4 < bs.length then
        (match cut (k - 4) with | some e => some e | none => if padLen (4 + bs.length) = 0 then none else some .eof)
        else some (eofIn [bs.length] (k - 4)))
    (by
      simp only [List.take_succ_cons, List.take_zero]
      exact Fields.cons Fields.bin (Fields.cons Fields.assign Fields.nil))
    (by
      simp only [List.take_succ_cons, List.take_zero]
      have := Reads.cons (yield_reads hm t (UInt16.ofNat (4 + bs.length)) (s, 0))
        (Reads.last (Reads.assign (f := f)))
      rw [List.append_nil, hf] at this
      exact this) (by simp) (fun h => by
      refine Stops.padded (cut := cut) (s2 := s2) (P := padLen (4 + bs.length)) (fun j hj => ?_) hfull ?_ ?_
      · exact (hmid j hj).mono fun v hv => by rw [hv, u16_ofNat_toNat hl]
      · rw [h2, u16_ofNat_toNat hl]
      · simp only [List.sum_cons, List.sum_nil] at h ⊢; omega)
  rw [show cuts [4] = [0] from rfl] at key
  by_cases h4 : k < 4
  · rw [if_pos (show k < [4].sum by simpa using h4)] at key; rw [if_pos h4]; exact key
  · rw [if_neg (show ¬ k < [4].sum by simpa using h4)] at key; rw [if_neg h4]
    by_cases h5 : k < 4 + bs.length
    · rw [if_pos (by omega)] at key; rw [if_pos h5]; exact key
    · rw [if_neg (by omega)] at key; rw [if_neg h5]
      have : eofIn [bs.length] (k - 4) = eofIn [4 + bs.length] k := by
        unfold eofIn; simp only [List.mem_singleton]
        by_cases hq : k = 4 + bs.length
        · rw [if_pos (by omega), if_pos hq]
        · rw [if_neg (by omega), if_neg hq]
      rw [this] at key; exact key

theorem readTablePropXM_stops (hm : Bool) (t : UInt16) (xs : List XM) (hx : ∀ x ∈ xs, x.Plain)
    (s : Bool × List XM) (hl : 4 + 4 * xs.length ≤ 65535) (k : Nat)
    (hk : k < 4 + 4 * xs.length + padLen (4 + 4 * xs.length)) :
    Stops (readTablePropXM hm) s ((writeTablePropXM t xs).out.take k)
      (if k < 4 then some (eofIn [0] k) else if k < 4 + 4 * xs.length then
        (if padLen (4 + 4 * xs.length) = 0 then none else some .eof)
        else some (eofIn [4 + 4 * xs.length] k)) (fun _ => True) d := by
  have hb : (xs.flatMap XM.bytes).length = 4 * xs.length := by
    clear hl hk; induction xs with
    | nil => rfl
    | cons x xs ih =>
      have := (hx x (by simp)).bytes
      rw [List.flatMap_cons, List.length_append, ih fun y hy => hx y (by simp [hy]), this, List.length_cons]
      simp [XM.headerBytes]; omega
  have ho : (writeTablePropXM t xs).out = (be t ++ be (UInt16.ofNat (4 + 4 * xs.length))) ++
      (xs.flatMap XM.bytes ++ zeros (padLen (4 + 4 * xs.length))) := by
    rw [writeTablePropXM_eq]; simp
  rw [ho]
  unfold readTablePropXM
  refine (Stops.withLocal (V := fun _ => True) ?_).mono fun _ _ => trivial
  rw [← hb] at hl hk ⊢
  refine prop_stops hm t (xs.flatMap XM.bytes) hl _ _ s _ ((if hm then t &&& 1 == 1 else s.1, xs),
    UInt16.ofNat (4 + (xs.flatMap XM.bytes).length)) (fun _ => none) k hk rfl (fun j hj => ?_) ?_ rfl
  · refine (Stops.dyn (Stops.limited (Stops.sub2 (readAllXM_false_stops _ _) (fun _ => rfl)) ?_))
    simp only [List.length_take]; rw [len_sub4 hl]; omega
  · have h1 := readAllXM_reads' false XM.headerBytes XM.ofHeader [] (xs.map XM.header)
      (fun h _ s => XM.header_reads h s) (fun h _ => by simp [XM.headerBytes])
    rw [plain_map xs hx, ← plain_flatMap xs hx] at h1
    exact Reads.dyn (Reads.limited (ReadsAll.sub h1) (by simp only; rw [len_sub4 hl]))

theorem readTablePropCodes_stops (t : UInt16) (as : List UInt16) (s : Bool × List UInt16)
    (hl : 4 + 4 * as.length ≤ 65535) (k : Nat) (hk : k < 4 + 4 * as.length + padLen (4 + 4 * as.length)) :
    Stops (readTablePropCodes actionHeader.readFrom) s (((be t ++ be (UInt16.ofNat (4 + 4 * as.length))) ++
      (typeCodes as ++ zeros (padLen (4 + 4 * as.length)))).take k)
      (if k < 4 then some (eofIn [0] k) else if k < 4 + 4 * as.length then
        (if k % 2 = 1 then some .unexpectedEOF else if padLen (4 + 4 * as.length) = 0 then none else some .eof)
        else some (eofIn [4 + 4 * as.length] k)) (fun _ => True) d := by
  have hb := typeCodes_length as
  unfold readTablePropCodes
  refine (Stops.withLocal (V := fun _ => True) ?_).mono fun _ _ => trivial
  have hl' := hl
  have hk' := hk
  rw [← hb] at hl hk
  have key := prop_stops (d := d) true t (typeCodes as) hl (fun s => ((s.1.1, []), s.2))
    (Enc.dyn (fun s => Enc.limited (s.2 - 4).toNat
      (Enc.sub (fun s => s.1.2) (fun xs s => ((s.1.1, xs), s.2)) (readTypeCodes actionHeader.readFrom)))) s
    ((t &&& 1 == 1, []), UInt16.ofNat (4 + (typeCodes as).length))
    ((t &&& 1 == 1, as), UInt16.ofNat (4 + (typeCodes as).length))
    (fun j => if j % 2 = 0 then none else some .unexpectedEOF) k hk rfl (fun j hj => by
      refine (Stops.dyn (Stops.limited (Stops.sub2 (readTypeCodes_stops as j (by omega) _) (fun _ => rfl)) ?_))
      simp only [List.length_take]; rw [len_sub4 hl]; omega) (by
      have h1 := readTypeCodes_reads (as.map fun a => (a, 4)) []
      have e1 : (as.map fun a => (a, (4 : UInt16))).flatMap (fun c => be c.1 ++ be c.2) = typeCodes as := by
        rw [List.flatMap_map]; rfl
      have e2 : (as.map fun a => (a, (4 : UInt16))).map (·.1) = as := by simp [Function.comp_def]
      rw [e1, e2] at h1
      exact Reads.dyn (Reads.limited (ReadsAll.sub h1) (by simp only; rw [len_sub4 hl]))) rfl
  rw [hb] at key
  by_cases h4 : k < 4
  · rw [if_pos h4] at key ⊢; exact key
  · rw [if_neg h4] at key ⊢
    by_cases h5 : k < 4 + 4 * as.length
    · rw [if_pos h5] at key ⊢
      by_cases h2 : k % 2 = 1
      · rw [if_pos h2]; rw [if_neg (show ¬ (k - 4) % 2 = 0 by omega)] at key; exact key
      · rw [if_neg h2]; rw [if_pos (show (k - 4) % 2 = 0 by omega)] at key; exact key
    · rw [if_neg h5] at key ⊢; exact key

theorem readNextTables_stops (t : UInt16) (ts : Bytes) (s : Bool × Bytes)
    (hl : 4 + ts.length ≤ 65535) (k : Nat) (hk : k < 4 + ts.length + padLen (4 + ts.length)) :
    Stops readNextTables s (((be t ++ be (UInt16.ofNat (4 + ts.length))) ++
      (ts ++ zeros (padLen (4 + ts.length)))).take k)
      (if k < 4 then some (eofIn [0] k) else if k < 4 + ts.length then some (eofIn [4] k)
        else some (eofIn [4 + ts.length] k)) (fun _ => True) d := by
  unfold readNextTables
  refine (Stops.withLocal (V := fun _ => True) ?_).mono fun _ _ => trivial
  have key := prop_stops (d := d) true t ts hl (fun s => ((s.1.1, zeros (s.2 - 4).toNat), s.2))
    (Enc.dyn (fun s => Enc.bin (s.2 - 4).toNat (fun b s => ((s.1.1, b), s.2)))) s
    ((t &&& 1 == 1, zeros (UInt16.ofNat (4 + ts.length) - 4).toNat), UInt16.ofNat (4 + ts.length))
    ((t &&& 1 == 1, ts), UInt16.ofNat (4 + ts.length))
    (fun j => some (eofIn [0] j)) k hk rfl (fun j hj => by
      have hj' : (ts.take j).length = j := by rw [List.length_take]; omega
      have h1 := Stops.bin (d := 0) (set := fun b (s : (Bool × Bytes) × UInt16) => ((s.1.1, b), s.2))
        (s := ((t &&& 1 == 1, zeros (UInt16.ofNat (4 + ts.length) - 4).toNat), UInt16.ofNat (4 + ts.length)))
        (k := (UInt16.ofNat (4 + ts.length) - 4).toNat) (b := ts.take j) (by rw [hj', len_sub4 hl]; exact hj)
      have he : (if ts.take j = [] then Err.eof else .unexpectedEOF) = eofIn [0] j := by
        unfold eofIn; simp only [List.mem_singleton]
        by_cases h0 : j = 0
        · subst h0; simp
        · rw [if_neg (fun h => by rw [h] at hj'; simp at hj'; omega), if_neg h0]
      rw [he] at h1
      exact (Stops.dyn h1).mono fun v hv => by rw [hv]) (by
      exact Reads.dyn (Reads.bin (by simp only; rw [len_sub4 hl]))) rfl
  by_cases h4 : k < 4
  · rw [if_pos h4] at key ⊢; exact key
  · rw [if_neg h4] at key ⊢
    by_cases h5 : k < 4 + ts.length
    · rw [if_pos h5] at key ⊢
      have : eofIn [0] (k - 4) = eofIn [4] k := by
        unfold eofIn; simp only [List.mem_singleton]
        by_cases hq : k = 4
        · rw [if_pos (by omega), if_pos hq]
        · rw [if_neg (by omega), if_neg hq]
      simp only [this] at key
      exact key
    · rw [if_neg h5] at key ⊢; exact key

theorem readTablePropExperimenter_stops (t : UInt16) (e et : UInt32) (b : Bytes) (s : UInt32 × UInt32 × Bytes)
    (hl : 12 + b.length ≤ 65535) (k : Nat) (hk : k < 12 + b.length + padLen (12 + b.length)) :
    Stops readTablePropExperimenter s (((be t ++ be (UInt16.ofNat (12 + b.length))) ++
      (be e ++ (be et ++ (b ++ zeros (padLen (12 + b.length)))))).take k)
      (if k < 12 then some (eofIn [0, 4, 8] k) else if k < 12 + b.length then
        (if padLen (12 + b.length) = 0 then none else some .eof)
        else some (eofIn [12 + b.length] k)) (fun _ => True) d := by
  have hs : (UInt16.ofNat (12 + b.length) - 4 - 8).toNat = b.length := by
    have h1 := len_sub4 (k := b.length + 8) (by omega)
    rw [show 12 + b.length = 4 + (b.length + 8) from by omega, UInt16.toNat_sub_of_le]
    · rw [h1]; simp
    · rw [UInt16.le_iff_toNat_le, h1]; simp
  have hb : (be t ++ be (UInt16.ofNat (12 + b.length))) ++
      (be e ++ (be et ++ (b ++ zeros (padLen (12 + b.length))))) =
      ((be t ++ be (UInt16.ofNat (12 + b.length))) ++ (be e ++ be et)) ++ (b ++ zeros (padLen (12 + b.length))) := by
    simp
  rw [hb]
  unfold readTablePropExperimenter
  refine (Stops.withLocal (V := fun _ => True) ?_).mono fun _ _ => trivial
  have key := Stops.first (d := d) (l := [
    Enc.bin 4 (fun b (s : (UInt32 × UInt32 × Bytes) × UInt16) => (s.1, ofBE UInt16 (b.drop 2))),
    Enc.num (fun v s => ((v, s.1.2), s.2)),
    Enc.num (fun v s => ((s.1.1, v, s.1.2.2), s.2)),
    Enc.dyn (fun s => Enc.limited (s.2 - 4 - 8).toNat
      (Enc.rest (fun b s => ((s.1.1, s.1.2.1, b), s.2)))),
    Enc.dyn (fun s => Enc.skip ((s.2 + 7) / 8 * 8 - s.2).toNat)]) 3 (ks := [4, 4, 4]) (s := (s, 0))
    (s1 := ((e, et, s.2.2), UInt16.ofNat (12 + b.length)))
    (hb := (be t ++ be (UInt16.ofNat (12 + b.length))) ++ (be e ++ be et))
    (rest := b ++ zeros (padLen (12 + b.length))) (k := k)
    (cut := if k - 12 < b.length then
        (match (none : Option Err) with | some e => some e | none => if padLen (12 + b.length) = 0 then none else some .eof)
        else some (eofIn [b.length] (k - 12)))
    (by fields)
    (by
      simp only [List.take_succ_cons, List.take_zero]
      have := Reads.bin (s := (s, (0 : UInt16))) (k := 4)
          (b := be t ++ be (UInt16.ofNat (12 + b.length)))
          (set := fun b s => (s.1, ofBE UInt16 (b.drop 2))) (by simp)
      rw [List.drop_left' (by simp), ofBE_be] at this
      exact Reads.cons this (Reads.cons (Reads.num _) (Reads.last (Reads.num _))))
    (by simp) (fun h => by
      refine Stops.padded (cut := fun _ => none) (s2 := ((e, et, b), UInt16.ofNat (12 + b.length)))
        (P := padLen (12 + b.length)) (fun j hj => ?_) ?_ ?_ ?_
      · refine (Stops.dyn (Stops.limited (ReadsAll.rest (b.take j)).stops ?_)).mono ?_
        · simp only [List.length_take]; rw [hs]; omega
        · intro v hv; rw [hv]; simp only; rw [pad16, u16_ofNat_toNat hl]
      · exact Reads.dyn (Reads.limited (ReadsAll.rest b) (by simp only; rw [hs]))
      · simp only; rw [pad16, u16_ofNat_toNat hl]
      · simp only [List.sum_cons, List.sum_nil] at h ⊢; omega)
  rw [show cuts [4, 4, 4] = [0, 4, 8] from rfl] at key
  by_cases h4 : k < 12
  · rw [if_pos (show k < [4, 4, 4].sum by simpa using h4)] at key; rw [if_pos h4]; exact key
  · rw [if_neg (show ¬ k < [4, 4, 4].sum by simpa using h4)] at key; rw [if_neg h4]
    by_cases h5 : k < 12 + b.length
    · rw [if_pos (by omega)] at key; rw [if_pos h5]; exact key
    · rw [if_neg (by omega)] at key; rw [if_neg h5]
      have : eofIn [b.length] (k - 12) = eofIn [12 + b.length] k := by
        unfold eofIn; simp only [List.mem_singleton]
        by_cases hq : k = 12 + b.length
        · rw [if_pos (by omega), if_pos hq]
        · rw [if_neg (by omega), if_neg hq]
      rw [this] at key; exact key

theorem XMs.plain_length (xs : List XM) (hx : ∀ x ∈ xs, x.Plain) : (xs.flatMap XM.bytes).length = 4 * xs.length := by
  induction xs with
  | nil => rfl
  | cons x xs ih =>
    have := (hx x (by simp)).bytes
    rw [List.flatMap_cons, List.length_append, ih fun y hy => hx y (by simp [hy]), this, List.length_cons]
    simp [XM.headerBytes]; omega

/-- The encoding of a property, with its padding. -/
theorem TableProp.bytes_split (p : TableProp) (hl : p.size ≤ 65535) :
    p.bytes = match p with
      | .nextTables _ ts => (be p.type ++ be (UInt16.ofNat (4 + ts.length))) ++ (ts ++ zeros (padLen (4 + ts.length)))
      | .instructions _ as | .writeActions _ as | .applyActions _ as =>
        (be p.type ++ be (UInt16.ofNat (4 + 4 * as.length))) ++ (typeCodes as ++ zeros (padLen (4 + 4 * as.length)))
      | .experimenter _ e t d => (be p.type ++ be (UInt16.ofNat (12 + d.length))) ++
        (be e ++ (be t ++ (d ++ zeros (padLen (12 + d.length)))))
      | _ => (writeTablePropXM p.type p.fields).out := by
  have hu := u16_ofNat_toNat hl
  cases p with
  | experimenter m e t d =>
    simp only [TableProp.size] at hu
    simp [TableProp.bytes, TableProp.writeTo, Enc.writeTo, Enc.gather, tablePropHeader,
      -UInt16.toNat_ofNat', -UInt16.ofNat_add, hu, show 4 + d.length + 8 = 12 + d.length from by omega]
  | instructions m is =>
    simp only [TableProp.size] at hu
    simp [TableProp.bytes, TableProp.writeTo, Enc.writeTo, Enc.writeSliceTo, Enc.gather, tablePropHeader,
      -UInt16.toNat_ofNat', -UInt16.ofNat_add, hu, typeCodes]
  | nextTables m ts => simp [TableProp.bytes, TableProp.writeTo, Enc.writeTo, Enc.gather, tablePropHeader]
  | writeActions m as =>
    simp [TableProp.bytes, TableProp.writeTo, writeTablePropActions, Enc.writeTo, Enc.gather, tablePropHeader, typeCodes]
  | applyActions m as =>
    simp [TableProp.bytes, TableProp.writeTo, writeTablePropActions, Enc.writeTo, Enc.gather, tablePropHeader, typeCodes]
  | _ => rfl

theorem TableProp.bytes_length (p : TableProp) (hx : ∀ x ∈ p.fields, x.Plain) (hl : p.size ≤ 65535) :
    p.bytes.length = p.size + padLen p.size := by
  rw [p.bytes_split hl]
  cases p with
  | experimenter m e t d => simp [TableProp.size]; omega
  | nextTables m ts => simp [TableProp.size]; omega
  | instructions m as => simp [TableProp.size, typeCodes_length]; omega
  | writeActions m as => simp [TableProp.size, typeCodes_length]; omega
  | applyActions m as => simp [TableProp.size, typeCodes_length]; omega
  | _ =>
    have := XMs.plain_length _ hx
    simp only [TableProp.fields] at this
    rw [writeTablePropXM_eq]
    simp only [TableProp.size, TableProp.fields]
    rw [List.length_append, List.length_append, List.length_append, this]
    simp; omega

theorem TableProp.stops (p : TableProp) (hx : ∀ x ∈ p.fields, x.Plain) (hl : p.size ≤ 65535) (k : Nat)
    (hk : k < p.size + padLen p.size) :
    Stops TableProp.readFrom p.zero (p.bytes.take k) (p.cut k) (fun _ => True) d := by
  rw [p.bytes_split hl]
  cases p with
  | instructions m as =>
    have h := readTablePropCodes_stops (d := d) (TableProp.instructions m as).type as (false, []) hl k hk
    have := Stops.wrap (dec := TableProp.readFrom) (s := .instructions false [])
      (f := fun s : Bool × List UInt16 => TableProp.instructions s.1 s.2) h (fun r => rfl)
    exact this.mono fun _ _ => trivial
  | writeActions m as =>
    have h := readTablePropCodes_stops (d := d) (TableProp.writeActions m as).type as (false, []) hl k hk
    have := Stops.wrap (dec := TableProp.readFrom) (s := .writeActions false [])
      (f := fun s : Bool × List UInt16 => TableProp.writeActions s.1 s.2) h (fun r => rfl)
    exact this.mono fun _ _ => trivial
  | applyActions m as =>
    have h := readTablePropCodes_stops (d := d) (TableProp.applyActions m as).type as (false, []) hl k hk
    have := Stops.wrap (dec := TableProp.readFrom) (s := .applyActions false [])
      (f := fun s : Bool × List UInt16 => TableProp.applyActions s.1 s.2) h (fun r => rfl)
    exact this.mono fun _ _ => trivial
  | nextTables m ts =>
    have h := readNextTables_stops (d := d) (TableProp.nextTables m ts).type ts (false, []) hl k hk
    have := Stops.wrap (dec := TableProp.readFrom) (s := .nextTables false [])
      (f := fun s : Bool × Bytes => TableProp.nextTables s.1 s.2) h (fun r => rfl)
    exact this.mono fun _ _ => trivial
  | «matches» xs =>
    have h := readTablePropXM_stops (d := d) false (TableProp.matches xs).type xs hx (false, []) hl k hk
    have := Stops.wrap (dec := TableProp.readFrom) (s := .matches [])
      (f := fun s : Bool × List XM => TableProp.matches s.2) h (fun r => rfl)
    exact this.mono fun _ _ => trivial
  | wildcards xs =>
    have h := readTablePropXM_stops (d := d) false (TableProp.wildcards xs).type xs hx (false, []) hl k hk
    have := Stops.wrap (dec := TableProp.readFrom) (s := .wildcards [])
      (f := fun s : Bool × List XM => TableProp.wildcards s.2) h (fun r => rfl)
    exact this.mono fun _ _ => trivial
  | writeSetField m xs =>
    have h := readTablePropXM_stops (d := d) true (TableProp.writeSetField m xs).type xs hx (false, []) hl k hk
    have := Stops.wrap (dec := TableProp.readFrom) (s := .writeSetField false [])
      (f := fun s : Bool × List XM => TableProp.writeSetField s.1 s.2) h (fun r => rfl)
    exact this.mono fun _ _ => trivial
  | applySetField m xs =>
    have h := readTablePropXM_stops (d := d) true (TableProp.applySetField m xs).type xs hx (false, []) hl k hk
    have := Stops.wrap (dec := TableProp.readFrom) (s := .applySetField false [])
      (f := fun s : Bool × List XM => TableProp.applySetField s.1 s.2) h (fun r => rfl)
    exact this.mono fun _ _ => trivial
  | experimenter m e t b =>
    have h := readTablePropExperimenter_stops (d := d) (TableProp.experimenter m e t b).type e t b (0, 0, []) hl k hk
    have := Stops.wrap (dec := TableProp.readFrom) (s := .experimenter false 0 0 [])
      (f := fun s : UInt32 × UInt32 × Bytes => TableProp.experimenter false s.1 s.2.1 s.2.2) h (fun r => rfl)
    refine Stops.mono (V := fun _ => True) ?_ fun _ _ => trivial
    have he : (TableProp.experimenter m e t b).cut k = (if k < 12 then some (eofIn [0, 4, 8] k) else
        if k < 12 + b.length then (if padLen (12 + b.length) = 0 then none else some .eof)
        else some (eofIn [12 + b.length] k)) := by
      show (if k < 4 then some (eofIn [0] k) else if k < 12 + b.length then
        (if k < 12 then some (eofIn [4, 8] k) else if padLen (12 + b.length) = 0 then none else some .eof)
        else some (eofIn [12 + b.length] k)) = _
      by_cases h4 : k < 4
      · rw [if_pos h4, if_pos (by omega)]
        unfold eofIn
        have : k ∈ [0, 4, 8] ↔ k ∈ [0] := by simp; omega
        simp only [this]
      · rw [if_neg h4]
        by_cases h12 : k < 12
        · rw [if_pos (by omega), if_pos h12, if_pos h12]
          unfold eofIn
          have : k ∈ [0, 4, 8] ↔ k ∈ [4, 8] := by simp; omega
          simp only [this]
        · rw [if_neg h12, if_neg h12]
    rw [he]
    exact this.mono fun _ _ => trivial

theorem TableFeatures.stops (t s : TableFeatures)
    (hp : ∀ p ∈ t.properties, (∀ x ∈ p.fields, x.Plain) ∧ p.expMiss = false ∧ p.size ≤ 65535)
    (hl : 64 + (TableProps.bytes t.properties).length ≤ 65535) (k : Nat) (hk : k < t.writeTo.out.length) :
    Stops TableFeatures.readFrom s (t.writeTo.out.take k)
      (if k < 64 then some (eofIn [0, 2, 3, 8, 40, 48, 56, 60] k) else
        listCut (fun p => p.size + padLen p.size) (fun p j => if j < 2 then none else (p.cut j).bind skipEOF)
          t.properties (k - 64)) (fun _ => True) d := by
  have hsub : (UInt16.ofNat (64 + (TableProps.bytes t.properties).length)).toNat - 64 =
      (TableProps.bytes t.properties).length := by
    rw [u16_ofNat_toNat hl]; omega
  have hsum : (TableProps.bytes t.properties).length = (t.properties.map fun p => p.size + padLen p.size).sum := by
    clear hl hk hsub
    generalize t.properties = ps at hp
    induction ps with
    | nil => rfl
    | cons p ps ih =>
      have h1 := p.bytes_length (hp p (by simp)).1 (hp p (by simp)).2.2
      have h2 := ih fun q hq => hp q (by simp [hq])
      simp only [TableProps.bytes, List.flatMap_cons, List.length_append, List.map_cons, List.sum_cons] at h2 ⊢
      rw [h1, h2]
  have ho : t.writeTo.out = (be (UInt16.ofNat (64 + (TableProps.bytes t.properties).length)) ++ (be t.table ++ (zeros 5 ++
      (copyTo t.name 32 ++ (be t.metadataMatch ++ (be t.metadataWrite ++ (be t.config ++
      be t.maxEntries))))))) ++ TableProps.bytes t.properties := by
    rw [TableFeatures.out_eq]; simp
  rw [ho] at hk ⊢
  unfold TableFeatures.readFrom
  refine (Stops.withLocal (V := fun _ => True) ?_).mono fun _ _ => trivial
  refine Stops.first (ks := [2, 1, 5, 32, 8, 8, 4, 4]) 9 (s1 := ({ t with name := copyTo t.name 32, properties := [] },
    copyTo t.name 32, UInt16.ofNat (64 + (TableProps.bytes t.properties).length))) (by fields) ?_ (by simp) ?_
  · simp only [List.take_succ_cons, List.take_zero]
    refine Reads.cons (Reads.num _) ?_
    refine Reads.cons (Reads.num _) ?_
    refine Reads.cons (Reads.skip (by simp)) ?_
    refine Reads.cons (Reads.bin (by simp)) ?_
    refine Reads.cons (Reads.num _) ?_
    refine Reads.cons (Reads.num _) ?_
    refine Reads.cons (Reads.num _) ?_
    refine Reads.cons (Reads.num _) ?_
    exact Reads.last Reads.assign
  · intro h
    refine (Stops.last (Stops.dyn (Stops.limited (Stops.sub (Stops.scanList (enc := TableProp.bytes)
      (zero := TableProp.zero) (code := TableProp.type) t.properties
      (fun p hm => p.bytes_length (hp p hm).1 (hp p hm).2.2)
      (fun p hm => p.reads _ (by cases p <;> rfl) (by rw [(hp p hm).2.1]; cases p <;> rfl)
        (hp p hm).1 (hp p hm).2.2) tablePropMake_type (fun p => p.bytes_type)
      (fun p hm j hj => p.stops (hp p hm).1 (hp p hm).2.2 j hj) _ ?_ _)) ?_))).mono fun _ _ => trivial
    · rw [← hsum]; simp at h hk ⊢; omega
    · simp only [List.length_take]; rw [hsub]; show _ ≤ (TableProps.bytes t.properties).length
      exact Nat.min_le_right _ _

end Verif
