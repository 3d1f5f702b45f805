import Verif.Props.Understood

/-! Helper lemmas for table features read by the specification: what is read, is what the decoder
makes of the same bytes. -/

namespace Verif.Props

/-- The properties of table features that the library can be told: identifiers of fields with a mask
have an even length other than zero, and there is no experimenter property for table misses. -/
def KnownProp : Spec.TableProp → Prop
  | .oxmIds _ fs => ∀ f ∈ fs, f.2.2.1 = true → f.2.2.2 % 2 = 0 ∧ f.2.2.2 ≠ 0
  | .experimenter name _ _ => name ≠ "OFPTFPT_EXPERIMENTER_MISS"
  | _ => True

instance : DecidablePred KnownProp := fun p => by cases p <;> unfold KnownProp <;> infer_instance

theorem chunks_inv' {α β : Type} {k : Nat} {f : Bytes → Option β} {g : α → β} {w : α → Bytes} {P : β → Prop}
    (h1 : ∀ b y, b.length = k → P y → f b = some y → ∃ x, g x = y ∧ b = w x) :
    ∀ (fuel : Nat) (b : Bytes) (bs : List Bytes) (ys : List β), Spec.chunksFuel k fuel b = some bs →
      Spec.each f bs = some ys → (∀ y ∈ ys, P y) → ∃ xs : List α, xs.map g = ys ∧ b = xs.flatMap w := by
  intro fuel b bs
  induction bs generalizing fuel b with
  | nil =>
    intro ys h h2 _
    have hb : b = [] := by
      cases fuel with
      | zero => simp only [Spec.chunksFuel] at h; split at h <;> simp_all
      | succ n =>
        simp only [Spec.chunksFuel] at h
        split at h
        · assumption
        · split at h
          · simp at h
          · simp at h
    simp only [Spec.each, Option.some.injEq] at h2
    exact ⟨[], by simpa using h2, by simpa using hb⟩
  | cons c cs ih =>
    intro ys h h2 hP
    cases fuel with
    | zero => simp only [Spec.chunksFuel] at h; split at h <;> simp at h
    | succ n =>
      simp only [Spec.chunksFuel] at h
      split at h
      · simp at h
      split at h
      · rename_i hk
        simp only [Option.map_eq_some_iff, List.cons.injEq] at h
        obtain ⟨bs', h3, rfl, rfl⟩ := h
        obtain ⟨y, ys', rfl, hy, hys⟩ := Spec.each_cons_inv h2
        obtain ⟨x, rfl, hx⟩ := h1 _ _ (by simp [hk]) (hP y (by simp)) hy
        obtain ⟨xs, rfl, hxs⟩ := ih _ _ _ h3 hys (fun y hy => hP y (by simp [hy]))
        refine ⟨x :: xs, rfl, ?_⟩
        rw [List.flatMap_cons, ← hx, ← hxs, List.take_append_drop]
      · simp at h

theorem array_inv' {α β : Type} {k : Nat} {f : Bytes → Option β} {g : α → β} {w : α → Bytes} {P : β → Prop}
    (h1 : ∀ b y, b.length = k → P y → f b = some y → ∃ x, g x = y ∧ b = w x) {b : Bytes} {ys : List β}
    (h : Spec.array k f b = some ys) (hP : ∀ y ∈ ys, P y) : ∃ xs : List α, xs.map g = ys ∧ b = xs.flatMap w := by
  unfold Spec.array at h
  rw [Option.bind_eq_some_iff] at h
  obtain ⟨bs, h2, h3⟩ := h
  exact chunks_inv' h1 _ _ _ _ h2 h3 hP

theorem typeId_inv (b : Bytes) (y : Nat) (hb : b.length = 4) (_ : True) (h : Spec.typeId b = some y) :
    ∃ x : UInt16, x.toNat = y ∧ b = be x ++ be (4 : UInt16) := by
  obtain ⟨t, l, b', rfl, ht, hl, hd⟩ := Spec.head_inv (b := b) (by omega)
  have hb' : b' = [] := List.length_eq_zero_iff.1 (by simp at hb; omega)
  subst hb'
  simp only [Spec.typeId, ht, hl] at h
  split at h
  · rename_i h4
    simp only [Option.some.injEq] at h
    have : l = 4 := UInt16.toNat_inj.1 h4
    exact ⟨t, h, by rw [this]; simp⟩
  · simp at h

theorem half_u8 : ∀ n < 256, (UInt8.ofNat n >>> 1).toNat = n / 2 ∧
    (((UInt8.ofNat n &&& 1) == 1) = (n % 2 == 1)) := by decide +kernel

theorem oxmId_inv (b : Bytes) (y : Nat × Nat × Bool × Nat) (hb : b.length = 4)
    (hP : y.2.2.1 = true → y.2.2.2 % 2 = 0 ∧ y.2.2.2 ≠ 0) (h : Spec.oxmId b = some y) :
    ∃ x : UInt16 × UInt8 × UInt8, tablePropSaid.oxmIdSaid (XM.ofHeader x) = y ∧ b = XM.headerBytes x := by
  obtain ⟨c, b, rfl, hb1⟩ := split16 (n := 2) b hb
  obtain ⟨f, b, rfl, hb2⟩ := split8 (n := 1) b hb1
  obtain ⟨l, b, rfl, hb3⟩ := split8 (n := 0) b hb2
  obtain rfl := List.length_eq_zero_iff.1 hb3
  have e2 : Spec.u8 2 (be c ++ (be f ++ (be l ++ []))) = f.toNat := by
    simp [Spec.u8, getBE_be, Wire.toNat]
  have e3 : Spec.u8 3 (be c ++ (be f ++ (be l ++ []))) = l.toNat := by
    have hd : List.drop 3 (be c ++ (be f ++ (be l ++ []))) = be l ++ [] := by
      rw [← List.append_assoc]
      exact List.drop_left' (by simp)
    rw [Spec.u8, hd]
    simp [List.take_of_length_le, getBE_be, Wire.toNat]
  simp only [Spec.oxmId, hb, if_true, Spec.u16_zero, e2, e3, Option.some.injEq] at h
  subst h
  refine ⟨(c, f, l), ?_, by simp [XM.headerBytes]⟩
  obtain ⟨c1, c2⟩ := half_u8 f.toNat f.toNat_lt
  rw [UInt8.ofNat_toNat] at c1 c2
  simp only at hP
  by_cases hm : (f.toNat % 2 == 1) = true
  · obtain ⟨p1, p2⟩ := hP hm
    rw [hm] at c2
    simp only [tablePropSaid.oxmIdSaid, XM.ofHeader, c2, if_true, c1, hm, zeros_length]
    have hz : (zeros (l.toNat / 2)).isEmpty = false := by
      rw [List.isEmpty_eq_false_iff]
      intro h0
      have := congrArg List.length h0
      simp at this
      omega
    rw [hz]
    simp; omega
  · have hm' : (f.toNat % 2 == 1) = false := by simpa using hm
    rw [hm'] at c2
    simp [tablePropSaid.oxmIdSaid, XM.ofHeader, c2, c1, hm']

theorem headerBytes_length' (cs : List (UInt16 × UInt8 × UInt8)) :
    (cs.flatMap XM.headerBytes).length = 4 * cs.length := by
  induction cs with
  | nil => rfl
  | cons h hs ih =>
    rw [List.flatMap_cons, List.length_append, ih, List.length_cons]
    simp [XM.headerBytes]; omega

theorem tableProp_inv (c pad : Bytes) (v : Spec.TableProp) (h : Spec.tableProp c = some v) (hk : KnownProp v)
    (hl : Spec.u16 2 c = c.length) (h4 : 4 ≤ c.length) (hp : pad.length = padLen c.length) :
    ∃ (p z : TableProp) (code : UInt16), tablePropMake code = .ok z ∧ Reads TableProp.readFrom z (c ++ pad) p ∧
      tablePropSaid p = v ∧ ∃ t, c ++ pad = be code ++ t := by
  obtain ⟨t, l, b', rfl, ht, hl', hd⟩ := Spec.head_inv h4
  have hlt := l.toNat_lt
  rw [hl'] at hl
  have hlb : l.toNat = 4 + b'.length := by rw [hl]; simp; omega
  have hpad : pad.length = padLen (4 + b'.length) := by rw [hp, ← hl, hlb]
  unfold Spec.tableProp at h
  simp only [Option.bind_eq_bind, Option.bind_eq_some_iff, Option.pure_def, Prod.exists, hd] at h
  obtain ⟨name, kind, hn, h⟩ := h
  rw [ht] at hn
  have hmem := lookup_mem hn
  have hlo : ∀ k, k ≤ 65535 → b'.length + 4 = k → l = UInt16.ofNat k := fun k h1 h2 =>
    UInt16.toNat_inj.1 (by rw [u16_ofNat_toNat h1]; omega)
  have hto : ∀ k, k ≤ 65535 → t.toNat = k → t = UInt16.ofNat k := fun k h1 h2 =>
    UInt16.toNat_inj.1 (by rw [u16_ofNat_toNat h1]; omega)
  -- lists of types
  have ids : ∀ ts, Spec.array 4 Spec.typeId b' = some ts → ∃ cs : List UInt16, cs.map UInt16.toNat = ts ∧
      ∀ s, Reads (readTablePropCodes actionHeader.readFrom) s (be t ++ (be l ++ b') ++ pad) (t &&& 1 == 1, cs) := by
    intro ts ha
    obtain ⟨cs, e1, rfl⟩ := array_inv' (P := fun _ => True) typeId_inv ha (by simp)
    have hcl : (cs.flatMap fun x => be x ++ be (4 : UInt16)).length = 4 * cs.length := typeCodes_length cs
    rw [hcl] at hlb hpad
    have := readTablePropCodes_reads t (cs.map fun a => (a, 4)) pad
    refine ⟨cs, e1, fun s => ?_⟩
    have := this s (by simp; omega) (by simpa using hpad)
    have f2 : (cs.map fun a => (a, (4 : UInt16))).map (·.1) = cs := by simp [Function.comp_def]
    rw [f2, List.flatMap_map, List.length_map, ← hlo (4 + 4 * cs.length) (by omega) (by omega)] at this
    simpa using this
  have oxms : ∀ fs, Spec.array 4 Spec.oxmId b' = some fs → (∀ f ∈ fs, f.2.2.1 = true → f.2.2.2 % 2 = 0 ∧ f.2.2.2 ≠ 0) →
      ∃ xs : List XM, xs.map tablePropSaid.oxmIdSaid = fs ∧
      ∀ hm s, Reads (readTablePropXM hm) s (be t ++ (be l ++ b') ++ pad) (if hm then t &&& 1 == 1 else s.1, xs) := by
    intro fs ha hP
    obtain ⟨cs, e1, rfl⟩ := array_inv' oxmId_inv ha hP
    have hcl : (cs.flatMap XM.headerBytes).length = 4 * cs.length := by
      exact headerBytes_length' cs
    rw [hcl] at hlb hpad
    refine ⟨cs.map XM.ofHeader, by rw [List.map_map]; exact e1, fun hm s => ?_⟩
    have := readTablePropXM_reads hm t cs pad s (by omega) hpad
    rw [← hlo (4 + 4 * cs.length) (by omega) (by omega)] at this
    simpa using this
  have tabs : ∀ s, Reads readNextTables s (be t ++ (be l ++ b') ++ pad) (t &&& 1 == 1, b') := by
    intro s
    have := readNextTables_reads t b' pad s (by omega) hpad
    rw [← hlo (4 + b'.length) (by omega) (by omega)] at this
    simpa using this
  have hcode : ∃ u, be t ++ (be l ++ b') ++ pad = be t ++ u := ⟨be l ++ b' ++ pad, by simp⟩
  simp only [Spec.tablePropTypes, List.mem_cons, Prod.mk.injEq, List.not_mem_nil, or_false] at hmem
  rcases hmem with ⟨hk0, rfl, rfl⟩ | ⟨hk0, rfl, rfl⟩ | ⟨hk0, rfl, rfl⟩ | ⟨hk0, rfl, rfl⟩ | ⟨hk0, rfl, rfl⟩ |
    ⟨hk0, rfl, rfl⟩ | ⟨hk0, rfl, rfl⟩ | ⟨hk0, rfl, rfl⟩ | ⟨hk0, rfl, rfl⟩ | ⟨hk0, rfl, rfl⟩ | ⟨hk0, rfl, rfl⟩ |
    ⟨hk0, rfl, rfl⟩ | ⟨hk0, rfl, rfl⟩ | ⟨hk0, rfl, rfl⟩ | ⟨hk0, rfl, rfl⟩ | ⟨hk0, rfl, rfl⟩ <;>
    obtain rfl := hto _ (by omega) hk0 <;>
    simp only [Option.bind_eq_some_iff, Option.some.injEq] at h
  · obtain ⟨ts, ha, rfl⟩ := h
    obtain ⟨cs, e1, e2⟩ := ids ts ha
    exact ⟨.instructions false cs, .instructions false [], _, rfl,
      Reads.wrap (dec := TableProp.readFrom) (f := fun s : Bool × List UInt16 => .instructions s.1 s.2) (e2 (false, [])) (fun r => rfl),
      by simp [tablePropSaid, e1], hcode⟩
  · obtain ⟨ts, ha, rfl⟩ := h
    obtain ⟨cs, e1, e2⟩ := ids ts ha
    exact ⟨.instructions true cs, .instructions false [], _, rfl,
      Reads.wrap (dec := TableProp.readFrom) (f := fun s : Bool × List UInt16 => .instructions s.1 s.2) (e2 (false, [])) (fun r => rfl),
      by simp [tablePropSaid, e1], hcode⟩
  · subst h
    exact ⟨.nextTables false b', .nextTables false [], _, rfl,
      Reads.wrap (dec := TableProp.readFrom) (f := fun s : Bool × Bytes => .nextTables s.1 s.2) (tabs (false, [])) (fun r => rfl),
      by simp [tablePropSaid], hcode⟩
  · subst h
    exact ⟨.nextTables true b', .nextTables false [], _, rfl,
      Reads.wrap (dec := TableProp.readFrom) (f := fun s : Bool × Bytes => .nextTables s.1 s.2) (tabs (false, [])) (fun r => rfl),
      by simp [tablePropSaid], hcode⟩
  · obtain ⟨ts, ha, rfl⟩ := h
    obtain ⟨cs, e1, e2⟩ := ids ts ha
    exact ⟨.writeActions false cs, .writeActions false [], _, rfl,
      Reads.wrap (dec := TableProp.readFrom) (f := fun s : Bool × List UInt16 => .writeActions s.1 s.2) (e2 (false, [])) (fun r => rfl),
      by simp [tablePropSaid, e1], hcode⟩
  · obtain ⟨ts, ha, rfl⟩ := h
    obtain ⟨cs, e1, e2⟩ := ids ts ha
    exact ⟨.writeActions true cs, .writeActions false [], _, rfl,
      Reads.wrap (dec := TableProp.readFrom) (f := fun s : Bool × List UInt16 => .writeActions s.1 s.2) (e2 (false, [])) (fun r => rfl),
      by simp [tablePropSaid, e1], hcode⟩
  · obtain ⟨ts, ha, rfl⟩ := h
    obtain ⟨cs, e1, e2⟩ := ids ts ha
    exact ⟨.applyActions false cs, .applyActions false [], _, rfl,
      Reads.wrap (dec := TableProp.readFrom) (f := fun s : Bool × List UInt16 => .applyActions s.1 s.2) (e2 (false, [])) (fun r => rfl),
      by simp [tablePropSaid, e1], hcode⟩
  · obtain ⟨ts, ha, rfl⟩ := h
    obtain ⟨cs, e1, e2⟩ := ids ts ha
    exact ⟨.applyActions true cs, .applyActions false [], _, rfl,
      Reads.wrap (dec := TableProp.readFrom) (f := fun s : Bool × List UInt16 => .applyActions s.1 s.2) (e2 (false, [])) (fun r => rfl),
      by simp [tablePropSaid, e1], hcode⟩
  · obtain ⟨fs, ha, rfl⟩ := h
    obtain ⟨xs, e1, e2⟩ := oxms fs ha hk
    exact ⟨.matches xs, .matches [], _, rfl,
      Reads.wrap (dec := TableProp.readFrom) (f := fun s : Bool × List XM => .matches s.2) (e2 false (false, [])) (fun r => rfl),
      by simp [tablePropSaid, e1], hcode⟩
  · obtain ⟨fs, ha, rfl⟩ := h
    obtain ⟨xs, e1, e2⟩ := oxms fs ha hk
    exact ⟨.wildcards xs, .wildcards [], _, rfl,
      Reads.wrap (dec := TableProp.readFrom) (f := fun s : Bool × List XM => .wildcards s.2) (e2 false (false, [])) (fun r => rfl),
      by simp [tablePropSaid, e1], hcode⟩
  · obtain ⟨fs, ha, rfl⟩ := h
    obtain ⟨xs, e1, e2⟩ := oxms fs ha hk
    exact ⟨.writeSetField false xs, .writeSetField false [], _, rfl,
      Reads.wrap (dec := TableProp.readFrom) (f := fun s : Bool × List XM => .writeSetField s.1 s.2) (e2 true (false, [])) (fun r => rfl),
      by simp [tablePropSaid, e1], hcode⟩
  · obtain ⟨fs, ha, rfl⟩ := h
    obtain ⟨xs, e1, e2⟩ := oxms fs ha hk
    exact ⟨.writeSetField true xs, .writeSetField false [], _, rfl,
      Reads.wrap (dec := TableProp.readFrom) (f := fun s : Bool × List XM => .writeSetField s.1 s.2) (e2 true (false, [])) (fun r => rfl),
      by simp [tablePropSaid, e1], hcode⟩
  · obtain ⟨fs, ha, rfl⟩ := h
    obtain ⟨xs, e1, e2⟩ := oxms fs ha hk
    exact ⟨.applySetField false xs, .applySetField false [], _, rfl,
      Reads.wrap (dec := TableProp.readFrom) (f := fun s : Bool × List XM => .applySetField s.1 s.2) (e2 true (false, [])) (fun r => rfl),
      by simp [tablePropSaid, e1], hcode⟩
  · obtain ⟨fs, ha, rfl⟩ := h
    obtain ⟨xs, e1, e2⟩ := oxms fs ha hk
    exact ⟨.applySetField true xs, .applySetField false [], _, rfl,
      Reads.wrap (dec := TableProp.readFrom) (f := fun s : Bool × List XM => .applySetField s.1 s.2) (e2 true (false, [])) (fun r => rfl),
      by simp [tablePropSaid, e1], hcode⟩
  · simp only [Prod.exists] at h
    obtain ⟨r, data, hr, rfl⟩ := h
    obtain ⟨v1, _, _, rfl, hr1, rfl⟩ := Spec.read_u32_inv hr
    obtain ⟨v2, d, _, rfl, hr2, rfl⟩ := Spec.read_u32_inv hr1
    obtain ⟨rfl, rfl⟩ := Spec.read_nil_inv hr2
    simp at hlb hpad
    have := readTablePropExperimenter_reads 0xfffe v1 v2 d pad (0, 0, []) (by omega) (by rw [hpad]; congr 1; omega)
    rw [← hlo (4 + d.length + 8) (by omega) (by simp; omega)] at this
    refine ⟨.experimenter false v1 v2 d, .experimenter false 0 0 [], _, rfl,
      Reads.wrap (dec := TableProp.readFrom) (t := (0, 0, [])) (t' := (v1, v2, d)) (f := fun s : UInt32 × UInt32 × Bytes => .experimenter false s.1 s.2.1 s.2.2)
        (by simpa using this) (fun r => rfl), by simp [tablePropSaid], hcode⟩
  · simp only [Prod.exists] at h
    obtain ⟨r, data, hr, rfl⟩ := h
    exact absurd rfl hk

theorem take_mid {b : Bytes} {n m : Nat} (h : n ≤ m) :
    b = b.take n ++ ((b.drop n).take (m - n) ++ b.drop m) := by
  have : b.drop m = (b.drop n).drop (m - n) := by rw [List.drop_drop]; congr 1; omega
  rw [this, List.take_append_drop, List.take_append_drop]

/-- The properties of table features, each padded to a multiple of eight bytes. -/
theorem tableProps_inv : ∀ (bs : List Bytes) (fuel : Nat) (b : Bytes) (vs : List Spec.TableProp),
    Spec.recordsFuel 2 8 fuel b = some bs → Spec.each Spec.tableProp bs = some vs → (∀ v ∈ vs, KnownProp v) →
    ∃ ys : List (TableProp × TableProp × UInt16 × Bytes), b = ys.flatMap (·.2.2.2) ∧
      (ys.map (·.1)).map tablePropSaid = vs ∧
      ∀ y ∈ ys, Reads TableProp.readFrom y.2.1 y.2.2.2 y.1 ∧ tablePropMake y.2.2.1 = .ok y.2.1 ∧
        ∃ t, y.2.2.2 = be y.2.2.1 ++ t := by
  intro bs
  induction bs with
  | nil =>
    intro fuel b vs h hy hP
    rcases Spec.recordsFuel_inv fuel b [] h with ⟨rfl, -⟩ | ⟨_, _, _, _, h0, _⟩
    · exact ⟨[], rfl, by simpa [Spec.each] using hy, by simp⟩
    · simp at h0
  | cons c bs ih =>
    intro fuel b vs h hy hP
    rcases Spec.recordsFuel_inv fuel b _ h with ⟨-, h0⟩ | ⟨fuel', bs', h2, h3, h0, h4⟩
    · simp at h0
    · simp only [List.cons.injEq] at h0
      obtain ⟨hc, hbs⟩ := h0
      subst bs'
      obtain ⟨v, vs', rfl, hy1, hy2⟩ := Spec.each_cons_inv hy
      obtain ⟨ys, a1, a2, a3⟩ := ih fuel' _ _ h4 hy2 (fun y hy => hP y (by simp [hy]))
      have hle : Spec.u16 2 b ≤ (Spec.u16 2 b + 8 - 1) / 8 * 8 := by omega
      have hcl : c.length = Spec.u16 2 b := by rw [hc]; simp; omega
      have hl : Spec.u16 2 c = c.length := by
        have : Spec.u16 2 (c ++ b.drop (Spec.u16 2 b)) = Spec.u16 2 c := Spec.u16_append (by omega) _
        rw [hc, List.take_append_drop] at this
        rw [hcl, hc, ← this]
      have hb : b = c ++ ((b.drop (Spec.u16 2 b)).take ((Spec.u16 2 b + 8 - 1) / 8 * 8 - Spec.u16 2 b) ++
          b.drop ((Spec.u16 2 b + 8 - 1) / 8 * 8)) := by
        rw [hc]
        exact take_mid hle
      obtain ⟨p, z, code, e1, e2, e3, e4⟩ := tableProp_inv c
        ((b.drop (Spec.u16 2 b)).take ((Spec.u16 2 b + 8 - 1) / 8 * 8 - Spec.u16 2 b)) v hy1 (hP v (by simp)) hl
        (by omega) (by rw [hcl]; simp [padLen]; omega)
      refine ⟨(p, z, code, c ++ (b.drop (Spec.u16 2 b)).take ((Spec.u16 2 b + 8 - 1) / 8 * 8 - Spec.u16 2 b)) :: ys, ?_, ?_, ?_⟩
      · rw [List.flatMap_cons, ← a1, List.append_assoc]
        exact hb
      · simp [e3, ← a2]
      · intro y hy
        rcases List.mem_cons.1 hy with rfl | hy
        · exact ⟨e2, e1, e4⟩
        · exact a3 y hy

/-- What table features say, with the name up to the first null. -/
def tableFeaturesSaid (n : Nat) (t : TableFeatures) : Spec.Record × List Spec.TableProp :=
  ([("length", .num n), ("table_id", .num t.table.toNat), ("name", .bytes (cstr t.name)),
    ("metadata_match", .num t.metadataMatch.toNat), ("metadata_write", .num t.metadataWrite.toNat),
    ("config", .num t.config.toNat), ("max_entries", .num t.maxEntries.toNat)],
   t.properties.map tablePropSaid)

theorem tableFeatures_inv (b : Bytes) (v : Spec.Record × List Spec.TableProp)
    (h : Spec.tableFeatures b = some v) (hl : Spec.u16 0 b = b.length) (hk : ∀ p ∈ v.2, KnownProp p) :
    ∃ t : TableFeatures, (∀ s, Reads TableFeatures.readFrom s b t) ∧ tableFeaturesSaid b.length t = v := by
  unfold Spec.tableFeatures at h
  simp only [Option.bind_eq_bind, Option.bind_eq_some_iff, Option.pure_def, Option.some.injEq, Prod.exists] at h
  obtain ⟨r, bs, hr, ps, hps, rfl⟩ := h
  obtain ⟨l, _, _, rfl, h1, rfl⟩ := Spec.read_u16_inv hr
  obtain ⟨v1, _, _, rfl, h2, rfl⟩ := Spec.read_u8_inv h1
  obtain ⟨p2, _, rfl, l2, h3⟩ := Spec.read_pad_inv h2
  obtain ⟨v3, _, _, rfl, l3, h4, rfl⟩ := read_text_inv h3
  obtain ⟨v4, _, _, rfl, h5, rfl⟩ := Spec.read_u64_inv h4
  obtain ⟨v5, _, _, rfl, h6, rfl⟩ := Spec.read_u64_inv h5
  obtain ⟨v6, _, _, rfl, h7, rfl⟩ := Spec.read_u32_inv h6
  obtain ⟨v7, bs', _, rfl, h8, rfl⟩ := Spec.read_u32_inv h7
  obtain ⟨rfl, rfl⟩ := Spec.read_nil_inv h8
  unfold Spec.list at hps
  rw [Option.bind_eq_some_iff] at hps
  obtain ⟨rs, hrs, hps⟩ := hps
  obtain ⟨ys, e1, e2, e3⟩ := tableProps_inv _ _ _ _ hrs hps hk
  rw [Spec.u16_zero] at hl
  have hscan := ReadsAll.scanFrom' (enc := fun y : TableProp × TableProp × UInt16 × Bytes => y.2.2.2)
    (val := (·.1)) (zero := (·.2.1)) (code := (·.2.2.1)) (mk := tablePropMake) (st := TableProp.readFrom) [] ys
    (fun y hy => (e3 y hy).1) (fun y hy => (e3 y hy).2.1) (fun y hy => (e3 y hy).2.2)
  rw [← e1, List.nil_append] at hscan
  have hsub : l.toNat - 64 = bs'.length := by rw [hl]; simp [l2, l3]; omega
  refine ⟨⟨v1, v3, v4, v5, v6, v7, ys.map (·.1)⟩, fun s => ?_, ?_⟩
  · unfold TableFeatures.readFrom
    refine Reads.withLocal (l' := (v3, l)) ?_
    refine Reads.cons (Reads.num _) ?_
    refine Reads.cons (Reads.num _) ?_
    refine Reads.cons (Reads.skip l2) ?_
    refine Reads.cons (Reads.bin l3) ?_
    refine Reads.cons (Reads.num _) ?_
    refine Reads.cons (Reads.num _) ?_
    refine Reads.cons (Reads.num _) ?_
    refine Reads.cons (Reads.num _) ?_
    exact Reads.assignCons (Reads.last (Reads.dyn (Reads.limited (ReadsAll.sub hscan) hsub)))
  · simp only [tableFeaturesSaid, e2, hl]

end Verif.Props
