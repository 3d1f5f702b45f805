import Verif.Pays
import Verif.Ofp.Port

/-!
# Decoding does not amplify (C77)

What a decoder builds from untrusted bytes is bounded by the bytes that it takes from the
connection, whatever they say about their own lengths.  `held` counts the elements of lists and
the bytes of byte slices of a value (`Verif.Spec.Held`).

Matches, packet-in messages, echoes and errors hold at most one unit per byte.  Lists of actions and
of instructions, and what contains them, hold at most 64 per byte, because a set-field action
that is cut off keeps the buffer that was allocated for it.  For the features of a table there
is no such factor: the list of next tables is allocated by the length in its header, and a
property that is cut off there is accepted (`table_features_amplify`).

`r` ranges over all readers without a transport fault: every content, every fragmentation, every
nesting of `io.LimitReader` and `bufio.Reader`; the receiver is arbitrary.
-/

namespace Verif.Props

/-- The bytes that a decoder took from the reader. -/
def taken {σ : Type} (r : Rd) (o : Out σ) : Nat := r.content.length - o.rd.content.length

theorem taken_eq {σ : Type} {m : Nat} {r : Rd} {o : Out σ} (h : Rd.Adv m r o.rd) : taken r o = m := by
  have := h.content
  unfold taken
  rw [this.2, List.length_drop]
  omega

private theorem of_pays {σ : Type} {K : Nat} {μ : σ → Nat} {st : Step σ} (h : Pays K 0 μ st) (s : σ) (r : Rd)
    (hr : r.Ok .eof) : μ (st s r).val ≤ μ s + K * taken r (st s r) := by
  obtain ⟨m, a, _, _, q⟩ := h s r hr
  rw [taken_eq a]
  omega

/-! ## One unit per byte -/

/-- An extensible match that was decoded holds what was read for it, after four bytes of header. -/
theorem xm_bounded (s : XM) (r : Rd) (hr : r.Ok .eof) (h : (XM.readFrom s r).err = none) :
    (XM.readFrom s r).val.held + 4 ≤ taken r (XM.readFrom s r) := by
  obtain ⟨m, a, _, h1, _⟩ := XM.read_cost true s r hr
  have := taken_eq (o := XM.readFrom s r) a
  rw [this]
  exact (h1 h).2.2 rfl

theorem match_bounded (s : Match) (r : Rd) (hr : r.Ok .eof) :
    (Match.readFrom s r).val.held ≤ s.held + taken r (Match.readFrom s r) := by
  simpa using of_pays Match.readFrom_pays s r hr

theorem packet_in_bounded (s : PacketIn) (r : Rd) (hr : r.Ok .eof) :
    (PacketIn.readFrom s r).val.held ≤ s.held + taken r (PacketIn.readFrom s r) := by
  have h := Match.readFrom_pays
  have : Pays 1 0 PacketIn.held PacketIn.readFrom := by
    unfold PacketIn.readFrom
    pays
    any_goals exact Nat.le_refl _
    · exact Pays.sub h fun x s => by simp only [PacketIn.held]; omega
    · simp only [PacketIn.held]; omega
  simpa using of_pays this s r hr

theorem flow_removed_bounded (s : FlowRemoved) (r : Rd) (hr : r.Ok .eof) :
    (FlowRemoved.readFrom s r).val.mtch.held ≤ s.mtch.held + taken r (FlowRemoved.readFrom s r) := by
  have h := Match.readFrom_pays
  have : Pays 1 0 (fun f : FlowRemoved => f.mtch.held) FlowRemoved.readFrom := by
    unfold FlowRemoved.readFrom
    pays
    any_goals exact Nat.le_refl _
    exact Pays.sub h fun x s => by simp only; omega
  simpa using of_pays this s r hr

theorem flow_stats_request_bounded (s : FlowStatsRequest) (r : Rd) (hr : r.Ok .eof) :
    (FlowStatsRequest.readFrom s r).val.mtch.held ≤ s.mtch.held + taken r (FlowStatsRequest.readFrom s r) := by
  have h := Match.readFrom_pays
  have : Pays 1 0 (fun f : FlowStatsRequest => f.mtch.held) FlowStatsRequest.readFrom := by
    unfold FlowStatsRequest.readFrom
    pays
    any_goals exact Nat.le_refl _
    exact Pays.sub h fun x s => by simp only; omega
  simpa using of_pays this s r hr

theorem aggregate_request_bounded (s : AggregateStatsRequest) (r : Rd) (hr : r.Ok .eof) :
    (AggregateStatsRequest.readFrom s r).val.mtch.held ≤
      s.mtch.held + taken r (AggregateStatsRequest.readFrom s r) := by
  have h := Match.readFrom_pays
  have : Pays 1 0 (fun f : AggregateStatsRequest => f.mtch.held) AggregateStatsRequest.readFrom := by
    unfold AggregateStatsRequest.readFrom
    pays
    any_goals exact Nat.le_refl _
    exact Pays.sub h fun x s => by simp only; omega
  simpa using of_pays this s r hr

theorem echo_request_bounded (s : EchoRequest) (r : Rd) (hr : r.Ok .eof) :
    (EchoRequest.readFrom s r).val.data.length ≤ s.data.length + taken r (EchoRequest.readFrom s r) := by
  have : Pays 1 0 (fun e : EchoRequest => e.data.length) EchoRequest.readFrom := by
    unfold EchoRequest.readFrom
    pays
    simp only; omega
  simpa using of_pays this s r hr

theorem echo_reply_bounded (s : EchoReply) (r : Rd) (hr : r.Ok .eof) :
    (EchoReply.readFrom s r).val.data.length ≤ s.data.length + taken r (EchoReply.readFrom s r) := by
  have : Pays 1 0 (fun e : EchoReply => e.data.length) EchoReply.readFrom := by
    unfold EchoReply.readFrom
    pays
    simp only; omega
  simpa using of_pays this s r hr

theorem error_bounded (s : OfpError) (r : Rd) (hr : r.Ok .eof) :
    (OfpError.readFrom s r).val.data.length ≤ s.data.length + taken r (OfpError.readFrom s r) := by
  have : Pays 1 0 (fun e : OfpError => e.data.length) OfpError.readFrom := by
    unfold OfpError.readFrom
    pays
    any_goals exact Nat.le_refl _
    simp only; omega
  simpa using of_pays this s r hr

theorem error_experimenter_bounded (s : ErrorExperimenter) (r : Rd) (hr : r.Ok .eof) :
    (ErrorExperimenter.readFrom s r).val.data.length ≤
      s.data.length + taken r (ErrorExperimenter.readFrom s r) := by
  have : Pays 1 0 (fun e : ErrorExperimenter => e.data.length) ErrorExperimenter.readFrom := by
    unfold ErrorExperimenter.readFrom
    pays
    any_goals exact Nat.le_refl _
    simp only; omega
  simpa using of_pays this s r hr

/-! ## A fixed factor -/

theorem actions_bounded (s : List Action) (r : Rd) (hr : r.Ok .eof) :
    listSize Action.held (Actions.readFrom s r).val ≤
      listSize Action.held s + 64 * taken r (Actions.readFrom s r) :=
  of_pays Actions.readFrom_pays s r hr

theorem instructions_bounded (s : List Instruction) (r : Rd) (hr : r.Ok .eof) :
    listSize Instruction.held (Instructions.readFrom s r).val ≤
      listSize Instruction.held s + 64 * taken r (Instructions.readFrom s r) :=
  of_pays Instructions.readFrom_pays s r hr

theorem bucket_bounded (s : Bucket) (r : Rd) (hr : r.Ok .eof) :
    listSize Action.held (Bucket.readFrom s r).val.actions ≤
      listSize Action.held s.actions + 64 * taken r (Bucket.readFrom s r) := by
  have h := Actions.readFrom_pays
  have : Pays 64 0 (fun b : Bucket => listSize Action.held b.actions) Bucket.readFrom := by
    unfold Bucket.readFrom
    pays
    any_goals exact Nat.le_refl _
    · simp [listSize]
    · exact Pays.sub h fun x s => by simp only; omega
  exact of_pays this s r hr

theorem packet_out_bounded (s : PacketOut) (r : Rd) (hr : r.Ok .eof) :
    (PacketOut.readFrom s r).val.held ≤ s.held + 64 * taken r (PacketOut.readFrom s r) := by
  have h := Actions.readFrom_pays
  have : Pays 64 0 PacketOut.held PacketOut.readFrom := by
    unfold PacketOut.readFrom
    pays
    any_goals exact Nat.le_refl _
    · simp [PacketOut.held, listSize]
    · exact Pays.sub h fun x s => by simp only [PacketOut.held]; omega
    · simp only [PacketOut.held]; omega
  exact of_pays this s r hr

theorem flow_mod_bounded (s : FlowMod) (r : Rd) (hr : r.Ok .eof) :
    (FlowMod.readFrom s r).val.held ≤ s.held + 64 * taken r (FlowMod.readFrom s r) := by
  have h1 := Match.readFrom_pays.mono (K' := 64) (by omega)
  have h2 := Instructions.readFrom_pays
  have : Pays 64 0 FlowMod.held FlowMod.readFrom := by
    unfold FlowMod.readFrom
    pays
    any_goals exact Nat.le_refl _
    · simp [FlowMod.held, listSize]
    · exact Pays.sub h1 fun x s => by simp only [FlowMod.held]; omega
    · exact Pays.sub h2 fun x s => by simp only [FlowMod.held]; omega
  exact of_pays this s r hr

theorem flow_stats_bounded (s : FlowStats) (r : Rd) (hr : r.Ok .eof) :
    (FlowStats.readFrom s r).val.held ≤ s.held + 64 * taken r (FlowStats.readFrom s r) := by
  have h1 := Match.readFrom_pays.mono (K' := 64) (by omega)
  have h2 := Instructions.readFrom_pays
  have : Pays 64 0 FlowStats.held FlowStats.readFrom := by
    unfold FlowStats.readFrom
    pays
    any_goals exact Nat.le_refl _
    · exact Pays.sub h1 fun x s => by simp only [FlowStats.held]; omega
    · simp [FlowStats.held, listSize]
    · exact Pays.sub h2 fun x s => by simp only [FlowStats.held]; omega
  exact of_pays this s r hr

/-! ## Where the factor is used up -/

/-- Eight bytes of a set-field action without its value are accepted as a list of one action with
a value of 255 bytes. -/
theorem actions_amplify :
    let r := Rd.src [0, 25, 1, 8, 0x80, 0, 0, 255] [] .eof false
    (Actions.readFrom [] r).err = none ∧ taken r (Actions.readFrom [] r) = 8 ∧
      listSize Action.held (Actions.readFrom [] r).val = 256 := by
  decide +kernel

/-- The features of tables: no more than 65535 units above the factor. -/
theorem table_features_bounded_partial (s : TableFeatures) (r : Rd) (hr : r.Ok .eof) :
    (TableFeatures.readFrom s r).val.held ≤ s.held + 64 * taken r (TableFeatures.readFrom s r) + 65535 := by
  obtain ⟨m, a, _, q⟩ := TableFeatures.readFrom_pays s r hr
  rw [taken_eq a]
  exact q

/-- The 64 bytes of the features of a table and the first four of a property with next tables; the
property says that it is 65535 bytes long. -/
def cutFeatures : Bytes := [0, 68] ++ zeros 62 ++ [0, 2, 255, 255]

/-- The four bytes are accepted as a list of 65531 tables. -/
theorem table_features_amplify :
    let r := Rd.src cutFeatures [] .eof false
    (TableFeatures.readFrom TableFeatures.zero r).err = none ∧
      (TableFeatures.readFrom TableFeatures.zero r).val.properties = [.nextTables false (zeros 65531)] ∧
      taken r (TableFeatures.readFrom TableFeatures.zero r) = 68 ∧
      (TableFeatures.readFrom TableFeatures.zero r).val.held = 65532 := by
  have h : (TableFeatures.readFrom TableFeatures.zero (.src cutFeatures [] .eof false)).val.properties =
      [.nextTables false (zeros 65531)] := by rfl
  refine ⟨by rfl, h, by rfl, ?_⟩
  have hl : (zeros 65531).length = 65531 := List.length_replicate
  rw [TableFeatures.held, h]
  simp only [listSize, TableProp.held, hl]

/-- So the features of a table are not bounded by 64 units per byte, nor by 963. -/
theorem table_features_bounded_false :
    ¬ ∀ (s : TableFeatures) (r : Rd), r.Ok .eof → (TableFeatures.readFrom s r).err = none →
      (TableFeatures.readFrom s r).val.held ≤ s.held + 963 * taken r (TableFeatures.readFrom s r) := by
  intro h
  obtain ⟨h1, _, h3, h4⟩ := table_features_amplify
  have := h TableFeatures.zero (.src cutFeatures [] .eof false) rfl h1
  rw [h3, h4] at this
  simp [TableFeatures.held, TableFeatures.zero, listSize] at this

private theorem ofHeader_size (h : UInt16 × UInt8 × UInt8) :
    (XM.ofHeader h).held = if h.2.1 &&& 1 == 1 then h.2.2.toNat / 2 * 2 else h.2.2.toNat := by
  unfold XM.ofHeader
  split <;> simp [XM.held, zeros]
  omega

/-- The factor of 64 is reached by complete properties: each identifier of a field takes four bytes
and becomes a match with a value of as many zeros as the identifier says. -/
theorem table_ids_amplify (n : Nat) (hn : 4 + 4 * n ≤ 65535) :
    let b := be (8 : UInt16) ++ be (UInt16.ofNat (4 + 4 * n)) ++
      ((List.replicate n ((0x8000, 0, 255) : UInt16 × UInt8 × UInt8)).flatMap XM.headerBytes ++
        zeros (padLen (4 + 4 * n)))
    ∀ r : Rd, r.Ok .eof → r.content = b →
      (TableProp.readFrom (.matches []) r).err = none ∧
        taken r (TableProp.readFrom (.matches []) r) = 4 + 4 * n + padLen (4 + 4 * n) ∧
        (TableProp.readFrom (.matches []) r).val.held = 256 * n := by
  intro b r hr hb
  have h := readTablePropXM_reads false 8 (List.replicate n ((0x8000, 0, 255) : UInt16 × UInt8 × UInt8))
    (zeros (padLen (4 + 4 * n))) (false, []) (by simpa using hn) (by simp [zeros])
  rw [List.length_replicate] at h
  obtain ⟨r1, e1, a1, o1⟩ := h r [] hr (by rw [List.append_nil]; exact hb)
  have hlen : b.length = 4 + 4 * n + padLen (4 + 4 * n) := by
    have : ∀ k, ((List.replicate k ((0x8000, 0, 255) : UInt16 × UInt8 × UInt8)).flatMap XM.headerBytes).length =
        4 * k := by
      intro k
      induction k with
      | zero => rfl
      | succ k ih => simp [List.replicate_succ, ih, XM.headerBytes]; omega
    simp only [b, List.length_append, this]
    simp [zeros]
    omega
  have hv : TableProp.readFrom (.matches []) r =
      ⟨.matches ((List.replicate n ((0x8000, 0, 255) : UInt16 × UInt8 × UInt8)).map XM.ofHeader), b.length, none, r1⟩ := by
    simp only [TableProp.readFrom, Enc.wrap, e1]
    rfl
  rw [hv]
  refine ⟨rfl, by rw [taken_eq (o := ⟨_, _, _, r1⟩) a1]; exact hlen, ?_⟩
  simp only [TableProp.held]
  clear h e1 hv
  have : ∀ k, listSize XM.held ((List.replicate k ((0x8000, 0, 255) : UInt16 × UInt8 × UInt8)).map XM.ofHeader) =
      256 * k := by
    intro k
    induction k with
    | zero => rfl
    | succ k ih =>
      have h2 := ofHeader_size (0x8000, 0, 255)
      have h3 : (XM.ofHeader (0x8000, 0, 255)).held = 255 := by rw [h2]; rfl
      simp only [List.replicate_succ, List.map_cons, listSize, ih, h3]
      omega
  exact this n

/-! ## Cases -/

/-- A packet-in with a match on the port it came in by (a field of 4 bytes) and 3 bytes of data. -/
example :
    let r := Rd.src ([0,0,0,1, 0,3, 0, 0] ++ zeros 8 ++ [0,1, 0,12, 0x80,0,0,4, 0,0,0,7, 0,0,0,0] ++
      [0,0, 1,2,3]) [5, 0, 7] .eof true
    r.Ok .eof ∧ (PacketIn.readFrom ⟨0, 0, 0, 0, 0, ⟨0, []⟩, []⟩ r).err = none ∧
      (PacketIn.readFrom ⟨0, 0, 0, 0, 0, ⟨0, []⟩, []⟩ r).val.held = 8 ∧
      taken r (PacketIn.readFrom ⟨0, 0, 0, 0, 0, ⟨0, []⟩, []⟩ r) = 37 := ⟨rfl, by decide +kernel⟩

/-- A list of two actions, the second of an unknown type: an error, with one action decoded. -/
example :
    let r := Rd.src ([0,0, 0,16, 0,0,0,1, 0xff,0xff] ++ zeros 6 ++ [0,99,0,8,0,0,0,0]) [] .eof false
    r.Ok .eof ∧ (Actions.readFrom [] r).err = some .unknownType ∧
      (Actions.readFrom [] r).val = [.output 1 0xffff] := ⟨rfl, by decide +kernel⟩

/-- A table with the factor reached: four fields. -/
example : 4 + 4 * 4 ≤ 65535 ∧ 256 * 4 > 40 * (4 + 4 * 4 + padLen (4 + 4 * 4)) := by decide

end Verif.Props
