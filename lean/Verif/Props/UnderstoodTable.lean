import Verif.UnderstoodTable

/-! C92 for table features: what a switch sends by the specification is decoded as meant. -/

namespace Verif.Props

/-- Struct ofp_table_features with its properties, whatever the padding behind each of them holds:
what the specification reads, the decoder understands.  The decoded name is the array of 32
characters, as for ports.  Missing: experimenter properties for table misses and identifiers of
fields with a mask of an odd or zero length (`tableFeatures_understood_false`,
`tableFeatures_mask_understood_false`). -/
theorem tableFeatures_understood_partial (b : Bytes) (v : Spec.Record × List Spec.TableProp)
    (h : Spec.tableFeatures b = some v) (hl : Spec.u16 0 b = b.length) (hk : ∀ p ∈ v.2, KnownProp p) :
    ∃ t : TableFeatures, Decodes TableFeatures.readFrom b t ∧ tableFeaturesSaid b.length t = v := by
  obtain ⟨t, h1, h2⟩ := tableFeatures_inv b v h hl hk
  exact ⟨t, Reads.decodes h1, h2⟩

/-- The features of a table of 64 bytes and the properties that follow. -/
private def features (n : UInt8) (props : Bytes) : Bytes :=
  [0, n, 7, 9, 9, 9, 9, 9] ++ ([65, 66] ++ zeros 30) ++ zeros 16 ++ [0, 0, 0, 3, 0, 0, 1, 0] ++ props

example : ∃ b v, Spec.tableFeatures b = some v ∧ Spec.u16 0 b = b.length ∧ (∀ p ∈ v.2, KnownProp p) ∧
    v.2 = [.ids "OFPTFPT_INSTRUCTIONS_MISS" [1], .tables "OFPTFPT_NEXT_TABLES_MISS" [4, 5],
      .oxmIds "OFPTFPT_MATCH" [(0x8000, 11, false, 0), (0x8000, 9, true, 12)]] ∧
    v.1.lookup "name" = some (.bytes [65, 66]) :=
  ⟨features 96 [0, 1, 0, 8, 0, 1, 0, 4, 0, 3, 0, 6, 4, 5, 9, 9, 0, 8, 0, 12, 128, 0, 22, 0, 128, 0, 19, 12, 9, 9, 9, 9],
    ([("length", .num 96), ("table_id", .num 7), ("name", .bytes [65, 66]), ("metadata_match", .num 0),
      ("metadata_write", .num 0), ("config", .num 3), ("max_entries", .num 256)],
      [.ids "OFPTFPT_INSTRUCTIONS_MISS" [1], .tables "OFPTFPT_NEXT_TABLES_MISS" [4, 5],
      .oxmIds "OFPTFPT_MATCH" [(0x8000, 11, false, 0), (0x8000, 9, true, 12)]]),
    by decide +kernel, by decide +kernel, by decide +kernel, rfl, rfl⟩

/-- An experimenter property for table misses is decoded as one for all packets. -/
theorem tableFeatures_understood_false : ∃ b v, Spec.tableFeatures b = some v ∧ Spec.u16 0 b = b.length ∧
    v.2 = [.experimenter "OFPTFPT_EXPERIMENTER_MISS" [("experimenter", .num 7), ("exp_type", .num 8)] [1, 2, 3, 4]] ∧
    ¬ ∃ t : TableFeatures, Decodes TableFeatures.readFrom b t ∧ tableFeaturesSaid b.length t = v := by
  refine ⟨features 80 [255, 255, 0, 16, 0, 0, 0, 7, 0, 0, 0, 8, 1, 2, 3, 4],
    ([("length", .num 80), ("table_id", .num 7), ("name", .bytes [65, 66]), ("metadata_match", .num 0),
      ("metadata_write", .num 0), ("config", .num 3), ("max_entries", .num 256)],
      [.experimenter "OFPTFPT_EXPERIMENTER_MISS" [("experimenter", .num 7), ("exp_type", .num 8)] [1, 2, 3, 4]]),
    by decide +kernel, by decide +kernel, rfl, ?_⟩
  rintro ⟨t, h1, h2⟩
  have := (decodes_val h1 default).1
  subst this
  exact absurd h2 (by decide +kernel)

/-- The identifier of a field with a mask and a length of three bytes is decoded as one of two bytes,
and one of no length as one without a mask. -/
theorem tableFeatures_mask_understood_false (n : UInt8) (hn : n = 3 ∨ n = 0) : ∃ b v,
    Spec.tableFeatures b = some v ∧ Spec.u16 0 b = b.length ∧
    v.2 = [.oxmIds "OFPTFPT_WILDCARDS" [(0x8000, 9, true, n.toNat)]] ∧
    ¬ ∃ t : TableFeatures, Decodes TableFeatures.readFrom b t ∧ tableFeaturesSaid b.length t = v := by
  refine ⟨features 72 [0, 10, 0, 8, 128, 0, 19, n],
    ([("length", .num 72), ("table_id", .num 7), ("name", .bytes [65, 66]), ("metadata_match", .num 0),
      ("metadata_write", .num 0), ("config", .num 3), ("max_entries", .num 256)],
      [.oxmIds "OFPTFPT_WILDCARDS" [(0x8000, 9, true, n.toNat)]]),
    by rcases hn with rfl | rfl <;> decide +kernel, by rcases hn with rfl | rfl <;> decide +kernel, rfl, ?_⟩
  rintro ⟨t, h1, h2⟩
  have := (decodes_val h1 default).1
  subst this
  rcases hn with rfl | rfl <;> exact absurd h2 (by decide +kernel)

end Verif.Props
