import Verif.Props.Faults
import Verif.Ofp.Flow
import Verif.Ofp.Packet
import Verif.Ofp.Group
import Verif.Ofp.Meter
import Verif.Ofp.Queue
import Verif.Ofp.Hello
import Verif.Ofp.Table
import Verif.Props.Table
import Verif.Props.Queue

/-!
# Broken streams: messages with inner lengths and lists (C58)

The decoders below read parts of the message through `io.LimitReader`, `io.ReadAll`,
`encoding.ReadFunc` and `encoding.ScanFrom`, which take `io.EOF` for the regular end of a part.
The theorems say that none of them takes a broken stream for such an end: whatever part of an
encoded message arrived before the stream broke, with whatever fragmentation, the decoder
returns the very error of the stream.

`Rd.Ok F` admits every fragmentation of the bytes, and both ways an `io.Reader` may report the
error, together with the last bytes or after them.
-/

namespace Verif.Props

/-- The bytes `bs` encode a message that knows its own length.  If the stream breaks with `F`
before all of them arrived, the decoder returns `F`.  If all arrived, it returns either `F` or
the value, having taken exactly `bs`. -/
def FaultReported {σ : Type} (dec : Step σ) (s : σ) (bs : Bytes) (x : σ) : Prop :=
  ∀ (F : Err) (r : Rd), F ≠ .eof → r.Ok F →
    (r.content <+: bs → r.content ≠ bs → (dec s r).err = some F) ∧
    (bs <+: r.content → (dec s r).err = some F ∨
      ((dec s r).err = none ∧ (dec s r).val = x ∧ (dec s r).n = bs.length ∧
        (dec s r).rd.content = r.content.drop bs.length))

/-- The bytes `bs` encode a message that extends to the end of the stream.  If the stream breaks
with `F` before or at the end of them, the decoder returns `F`. -/
def FaultReportedAll {σ : Type} (dec : Step σ) (s : σ) (bs : Bytes) : Prop :=
  ∀ (F : Err) (r : Rd), F ≠ .eof → r.Ok F → r.content <+: bs → (dec s r).err = some F

private theorem short {σ : Type} {F : Err} {r : Rd} {bs : Bytes} {s' : σ} {o : Out σ} (h : o.Gets F r bs s')
    (hl : r.content.length < bs.length) : o.err = some F := by
  rcases h with h | ⟨r', _, h, _⟩
  · exact h.2
  · have := h.content.1; omega

private theorem prefix_short {a b : Bytes} (h : a <+: b) (hn : a ≠ b) : a.length < b.length := by
  rcases Nat.lt_or_ge a.length b.length with hl | hl
  · exact hl
  · exact absurd (h.eq_of_length_le hl) hn

theorem Reads.faultReported {σ : Type} {dec : Step σ} {s x : σ} {bs : Bytes} (h : Reads dec s bs x) :
    FaultReported dec s bs x := by
  intro F r hF hr
  refine ⟨fun hp hn => short (h.run F r hr.okB (.inr ⟨hp, hr.not_ends hF⟩)) (prefix_short hp hn), fun hp => ?_⟩
  rcases h.run F r hr.okB (.inl hp) with h | ⟨r', h1, h2, _⟩
  · exact .inl h.2
  · rw [h1]; exact .inr ⟨rfl, rfl, rfl, h2.content.2⟩

/-- A message that is the beginning of a longer one. -/
private theorem readsAll_fault {σ : Type} {dec : Step σ} {s x : σ} {bs t : Bytes} (ht : t ≠ [])
    (h : ReadsAll dec s (bs ++ t) x) : FaultReportedAll dec s bs := by
  intro F r hF hr hp
  refine short (h.run F r hr.okB (.inr ⟨hp.trans (List.prefix_append bs t), hr.not_ends hF⟩)) ?_
  have := hp.length_le
  have := List.length_pos_iff.2 ht
  rw [List.length_append]; omega

/-! ## Matches -/

/-- C58. -/
theorem xm_fault (x : XM) (hv : x.Valid) (s : XM) : FaultReported XM.readFrom s x.writeTo.out x :=
  Reads.faultReported (x.reads hv s)

/-- C58. -/
theorem match_fault (m : Match) (hv : m.Valid) (s : Match) :
    FaultReported Match.readFrom s m.writeTo.out m := Reads.faultReported (m.reads hv s)

example : ∃ m : Match, m.Valid ∧ 8 < m.writeTo.out.length :=
  ⟨⟨1, [⟨0x8000, 0, [0, 0, 0, 1], []⟩, ⟨0x8000, 3, [1, 2, 3, 4, 5, 6], [255, 255, 255, 0, 0, 0]⟩]⟩, by decide⟩

/-! ## Actions and instructions -/

/-- C58. -/
theorem action_fault (a : Action) (hv : a.Valid) (s : Action) (hs : s.type = a.type) :
    FaultReported Action.readFrom s a.writeTo.out a := Reads.faultReported (a.reads' hv s hs)

/-- C58. -/
theorem actions_fault (as : List Action) (hv : ∀ a ∈ as, a.Valid) (s : List Action) :
    FaultReportedAll Actions.readFrom s (Actions.writeTo as).out := by
  rw [Actions.writeTo_eq]
  refine readsAll_fault (t := (Action.popVLAN).bytes) (x := as ++ [.popVLAN]) (by decide) ?_
  have := Actions.readsAll (as ++ [.popVLAN]) (by
    intro a ha
    rcases List.mem_append.1 ha with ha | ha
    · exact hv a ha
    · simp at ha; subst ha; simp [Action.Valid]) s
  simpa [Actions.bytes] using this

/-- C58. -/
theorem instruction_fault (i : Instruction) (hv : i.Valid) (s : Instruction) (hs : s.type = i.type) :
    FaultReported Instruction.readFrom s i.writeTo.out i := Reads.faultReported (i.reads' hv s hs)

private theorem instructions_longer (is : List Instruction) (hv : ∀ i ∈ is, i.Valid) :
    (∀ i ∈ is ++ [.gotoTable 0], i.Valid) ∧
    Instructions.bytes (is ++ [.gotoTable 0]) = Instructions.bytes is ++ (Instruction.gotoTable 0).bytes := by
  constructor
  · intro i hi
    rcases List.mem_append.1 hi with hi | hi
    · exact hv i hi
    · simp at hi; subst hi; simp [Instruction.Valid]
  · simp [Instructions.bytes]

/-- C58. -/
theorem instructions_fault (is : List Instruction) (hv : ∀ i ∈ is, i.Valid) (s : List Instruction) :
    FaultReportedAll Instructions.readFrom s (Instructions.writeTo is).out := by
  rw [Instructions.writeTo_eq]
  have := Instructions.readsAll _ (instructions_longer is hv).1 s
  rw [(instructions_longer is hv).2] at this
  exact readsAll_fault (by decide) this

example : ∃ is : List Instruction, (∀ i ∈ is, i.Valid) ∧ is.length = 2 :=
  ⟨[.applyActions [.output 1 2, .setField ⟨0x8000, 0, [0, 0, 0, 1], []⟩], .gotoTable 3], by decide⟩

/-! ## Flows -/

/-- C58. -/
theorem flowMod_fault (f : FlowMod) (hm : f.mtch.Valid) (hi : ∀ i ∈ f.instructions, i.Valid) (s : FlowMod) :
    FaultReportedAll FlowMod.readFrom s f.writeTo.out := by
  have := FlowMod.readsAll { f with instructions := f.instructions ++ [.gotoTable 0] } hm
    (instructions_longer _ hi).1 s
  rw [FlowMod.out_eq] at this ⊢
  simp only [(instructions_longer _ hi).2, ← List.append_assoc] at this ⊢
  exact readsAll_fault (by decide) this

/-- C58. -/
theorem flowRemoved_fault (f s : FlowRemoved) (hm : f.mtch.Valid) :
    FaultReported FlowRemoved.readFrom s f.writeTo.out f := Reads.faultReported (f.reads hm s)

/-- C58. -/
theorem flowStatsRequest_fault (f s : FlowStatsRequest) (hm : f.mtch.Valid) :
    FaultReported FlowStatsRequest.readFrom s f.writeTo.out f := Reads.faultReported (f.reads hm s)

/-- C58. -/
theorem aggregateStatsRequest_fault (f s : AggregateStatsRequest) (hm : f.mtch.Valid) :
    FaultReported AggregateStatsRequest.readFrom s f.writeTo.out f := Reads.faultReported (f.reads hm s)

/-- C58. -/
theorem flowStats_fault (f s : FlowStats) (hm : f.mtch.Valid) (hi : ∀ i ∈ f.instructions, i.Valid)
    (hs : f.writeTo.out.length ≤ 65535) : FaultReported FlowStats.readFrom s f.writeTo.out f := by
  refine Reads.faultReported (f.reads hm hi ?_ s)
  have : f.writeTo.out.length = f.size := by
    rw [FlowStats.out_eq]
    simp only [FlowStats.size, Match.writeTo_eq, Instructions.writeTo_eq]
    simp; omega
  omega

/-- A flow modification that breaks in its instructions. -/
example : ∃ (f : FlowMod) (r : Rd), f.mtch.Valid ∧ (∀ i ∈ f.instructions, i.Valid) ∧ r.Ok (.io 7) ∧
    r.content <+: f.writeTo.out ∧ r.content.length = 60 ∧ f.writeTo.out.length = 80 :=
  let f : FlowMod := ⟨1, 2, 3, 4, 5, 6, 7, 8, 9, 10, 11, ⟨1, []⟩, [.gotoTable 1, .applyActions [.output 1 2]]⟩
  ⟨f, .src (f.writeTo.out.take 60) [3, 1, 0] (.io 7) true, by decide, by decide, rfl, List.take_prefix _ _,
    by decide +kernel, by decide +kernel⟩

/-! ## Packets -/

/-- C58. -/
theorem packetIn_fault (p s : PacketIn) (hm : p.mtch.Valid) :
    FaultReportedAll PacketIn.readFrom s p.writeTo.out := by
  have := PacketIn.readsAll { p with data := p.data ++ [0] } hm s
  rw [PacketIn.out_eq] at this ⊢
  simp only [← List.append_assoc] at this ⊢
  exact readsAll_fault (by decide) this

/-- C58. -/
theorem packetOut_fault (p s : PacketOut) (hv : ∀ a ∈ p.actions, a.Valid)
    (hl : (Actions.writeTo p.actions).out.length ≤ 65535) :
    FaultReportedAll PacketOut.readFrom s p.writeTo.out := by
  rw [Actions.writeTo_eq] at hl
  have := PacketOut.readsAll { p with data := p.data ++ [0] } hv hl s
  rw [PacketOut.out_eq] at this ⊢
  simp only [← List.append_assoc] at this ⊢
  exact readsAll_fault (by decide) this

example : ∃ p : PacketOut, (∀ a ∈ p.actions, a.Valid) ∧ (Actions.writeTo p.actions).out.length ≤ 65535 ∧
    p.actions ≠ [] ∧ p.data ≠ [] := ⟨⟨1, 2, [.output 3 4], [5]⟩, by decide⟩

/-! ## Ports -/

/-- C58. -/
theorem portMod_fault_partial (p s : PortMod) (hw : p.hwAddr.length = 6) (hs : s.hwAddr.length = 6) :
    FaultReported PortMod.readFrom s p.writeTo.out p := Reads.faultReported (p.reads s (hs.trans hw.symm))

/-! ## Groups -/

private theorem bucket_valid {b : Bucket} (ha : ∀ a ∈ b.actions, a.Valid)
    (hs : b.writeTo.out.length ≤ 65535) : b.Valid :=
  ⟨ha, by rw [← Bucket.bytes_length]; exact hs⟩

/-- C58. -/
theorem bucket_fault (b s : Bucket) (ha : ∀ a ∈ b.actions, a.Valid) (hs : b.writeTo.out.length ≤ 65535) :
    FaultReported Bucket.readFrom s b.writeTo.out b := Reads.faultReported (b.reads (bucket_valid ha hs) s)

/-- C58. -/
theorem groupMod_fault (g s : GroupMod)
    (hb : ∀ b ∈ g.buckets, (∀ a ∈ b.actions, a.Valid) ∧ b.writeTo.out.length ≤ 65535) :
    FaultReportedAll GroupMod.readFrom s g.writeTo.out := by
  have := GroupMod.readsAll { g with buckets := g.buckets ++ [⟨0, 0, 0, []⟩] } (by
    intro b hm
    rcases List.mem_append.1 hm with hm | hm
    · exact bucket_valid (hb b hm).1 (hb b hm).2
    · simp at hm; subst hm; decide) s
  rw [GroupMod.out_eq] at this ⊢
  simp only [Buckets.bytes, List.flatMap_append, ← List.append_assoc] at this ⊢
  exact readsAll_fault (by decide) this

/-- C58. -/
theorem groupStats_fault (g s : GroupStats) (hs : 40 + 16 * g.bucketStats.length ≤ 65535) :
    FaultReported GroupStats.readFrom s g.writeTo.out { g with bucketStats := s.bucketStats } :=
  Reads.faultReported (g.reads hs s)

/-- C58 fails: `GroupDescStats.ReadFrom` drops the error of its header.  A stream that breaks
in the header of a group description is decoded without an error. -/
theorem groupDescStats_fault_false : ∃ (g : GroupDescStats) (F : Err) (r : Rd), F ≠ .eof ∧ r.Ok F ∧
    r.content <+: g.writeTo.out ∧ r.content ≠ g.writeTo.out ∧
    (GroupDescStats.readFrom ⟨0, 0, []⟩ r).err = none :=
  ⟨⟨1, 2, []⟩, .io 7, .src [0, 8, 1, 0] [] (.io 7) false, by decide, rfl, by decide, by decide, by decide +kernel⟩

example : ∃ g : GroupMod, g.buckets ≠ [] ∧
    ∀ b ∈ g.buckets, (∀ a ∈ b.actions, a.Valid) ∧ b.writeTo.out.length ≤ 65535 :=
  ⟨⟨0, 1, 2, [⟨1, 2, 3, [.output 4 0]⟩]⟩, by decide⟩

/-! ## Meters -/

/-- C58. -/
theorem meterBand_fault (b s : MeterBand) (hs : s.type = b.type) :
    FaultReported MeterBand.readFrom s b.writeTo.out b := Reads.faultReported (b.reads' s hs)

private theorem meterBands_longer (bs : List MeterBand) :
    MeterBands.bytes (bs ++ [.drop 0 0]) = MeterBands.bytes bs ++ (MeterBand.drop 0 0).bytes := by
  simp [MeterBands.bytes]

/-- C58. -/
theorem meterBands_fault (bs s : List MeterBand) :
    FaultReportedAll MeterBands.readFrom s (MeterBands.writeTo bs).out := by
  rw [MeterBands.writeTo_eq]
  have := MeterBands.readsAll (bs ++ [.drop 0 0]) s
  rw [meterBands_longer] at this
  exact readsAll_fault (by decide) this

/-- C58. -/
theorem meterMod_fault (m s : MeterMod) : FaultReportedAll MeterMod.readFrom s m.writeTo.out := by
  have := MeterMod.readsAll { m with bands := m.bands ++ [.drop 0 0] } s
  rw [MeterMod.out_eq] at this ⊢
  simp only [meterBands_longer, ← List.append_assoc] at this ⊢
  exact readsAll_fault (by decide) this

/-- C58. -/
theorem meterConfig_fault (m s : MeterConfig) (hs : 8 + 16 * m.bands.length ≤ 65535) :
    FaultReported MeterConfig.readFrom s m.writeTo.out { m with bands := s.bands } :=
  Reads.faultReported (m.reads s hs)

/-- C58 fails: `MeterStats.ReadFrom` drops the error of its header. -/
theorem meterStats_fault_false : ∃ (m : MeterStats) (F : Err) (r : Rd), F ≠ .eof ∧ r.Ok F ∧
    r.content <+: m.writeTo.out ∧ r.content ≠ m.writeTo.out ∧
    (MeterStats.readFrom ⟨0, 0, 0, 0, 0, 0, []⟩ r).err = none :=
  ⟨⟨1, 0, 0, 0, 0, 0, []⟩, .io 7, .src [0, 0, 0, 1, 0, 40] [] (.io 7) false, by decide, rfl, by decide, by decide,
    by decide +kernel⟩

/-! ## Queues -/

/-- C58. -/
theorem queueProp_fault (p s : QueueProp) (hs : s.type = p.type) (hl : p.writeTo.out.length ≤ 65535) :
    FaultReported QueueProp.readFrom s p.writeTo.out p := by
  refine Reads.faultReported (p.reads' s ?_ hs)
  rw [QueueProp.Valid, ← QueueProp.bytes_length]; exact hl

/-- C58. -/
theorem queueProps_fault (ps s : List QueueProp) (hv : ∀ p ∈ ps, p.writeTo.out.length ≤ 65535) :
    FaultReportedAll QueueProps.readFrom s (QueueProps.writeTo ps).out := by
  rw [QueueProps.writeTo_eq]
  have := QueueProps.readsAll (ps ++ [.minRate 0]) s (by
    intro p hm
    rcases List.mem_append.1 hm with hm | hm
    · rw [QueueProp.Valid, ← QueueProp.bytes_length]; exact hv p hm
    · simp at hm; subst hm; decide)
  simp only [QueueProps.bytes, List.flatMap_append] at this ⊢
  exact readsAll_fault (by decide) this

/-- C58. -/
theorem packetQueue_fault (q s : PacketQueue) (hs : q.writeTo.out.length ≤ 65535) :
    FaultReported PacketQueue.readFrom s q.writeTo.out { q with properties := s.properties } :=
  Reads.faultReported (q.reads s (packetQueue_valid hs))

/-- C58. -/
theorem queueGetConfigReply_fault (q s : QueueGetConfigReply)
    (hs : ∀ p ∈ q.queues, p.writeTo.out.length ≤ 65535) :
    FaultReportedAll QueueGetConfigReply.readFrom s q.writeTo.out := by
  have := QueueGetConfigReply.readsAll { q with queues := q.queues ++ [⟨0, 0, []⟩] } s (by
    intro b hm
    rcases List.mem_append.1 hm with hm | hm
    · exact packetQueue_valid (hs b hm)
    · simp at hm; subst hm; decide)
  rw [QueueGetConfigReply.out_eq] at this ⊢
  simp only [PacketQueues.bytes, List.flatMap_append, ← List.append_assoc] at this ⊢
  exact readsAll_fault (by decide) this

/-! ## Hello -/

/-- C58. -/
theorem hello_fault (h s : Hello) (hs : ∀ e ∈ h.elements, e.writeTo.out.length ≤ 65535) :
    FaultReportedAll Hello.readFrom s h.writeTo.out := by
  have := Hello.readsAll { h with elements := h.elements ++ [.versionBitmap []] } s (by
    intro b hm
    rcases List.mem_append.1 hm with hm | hm
    · rw [HelloElem.Valid, ← HelloElem.bytes_length]; exact hs b hm
    · simp at hm; subst hm; decide)
  rw [Hello.writeTo_eq] at this ⊢
  simp only [HelloElems.bytes, List.flatMap_append] at this ⊢
  exact readsAll_fault (by decide) this

example : ∃ h : Hello, h.elements ≠ [] ∧ ∀ e ∈ h.elements, e.writeTo.out.length ≤ 65535 :=
  ⟨⟨[.versionBitmap [0x12]]⟩, by decide⟩

/-! ## Table features -/

/-- C58.  Missing: as for the round trip (C36). -/
theorem tableProp_fault_partial (p s : TableProp) (hs : s.zero = p.zero) (hm : p.expMiss = s.expMiss)
    (hx : ∀ x ∈ p.fields, x.value = [] ∧ x.mask = [] ∧ x.type.toNat < 128)
    (hl : p.writeTo.out.length ≤ 65535) : FaultReported TableProp.readFrom s p.writeTo.out p :=
  Reads.faultReported (p.reads s hs hm.symm hx
    (tableProp_size_le p (fun x h => ⟨(hx x h).1, (hx x h).2.1⟩) hl))

/-- C58.  Missing: as for the round trip (C36). -/
theorem tableFeatures_fault_partial (t s : TableFeatures)
    (hp : ∀ p ∈ t.properties, p.expMiss = false ∧
      ∀ x ∈ p.fields, x.value = [] ∧ x.mask = [] ∧ x.type.toNat < 128)
    (hl : t.writeTo.out.length ≤ 65535) :
    FaultReported TableFeatures.readFrom s t.writeTo.out { t with name := copyTo t.name 32 } := by
  have hlen : t.writeTo.out.length = 64 + (TableProps.bytes t.properties).length := by
    rw [TableFeatures.out_eq]; simp; omega
  have hle : ∀ p ∈ t.properties, p.writeTo.out.length ≤ (TableProps.bytes t.properties).length := by
    intro p hm
    obtain ⟨a, b, hab⟩ := List.append_of_mem hm
    rw [TableProps.bytes, hab]
    simp [TableProp.bytes]; omega
  refine Reads.faultReported (t.reads s (fun p hm => ⟨(hp p hm).2, (hp p hm).1, ?_⟩) (by omega))
  exact tableProp_size_le p (fun x hx => ⟨((hp p hm).2 x hx).1, ((hp p hm).2 x hx).2.1⟩)
    (by have := hle p hm; omega)

example : ∃ p s : TableProp, s.zero = p.zero ∧ p.expMiss = s.expMiss ∧ p ≠ s ∧
    (∀ x ∈ p.fields, x.value = [] ∧ x.mask = [] ∧ x.type.toNat < 128) ∧ p.writeTo.out.length ≤ 65535 :=
  ⟨.instructions false [1, 2], .instructions true [], by decide⟩

/-! ## What is not an encoding -/

/-- C58 fails for other bytes.  A set-field action whose declared length leaves no room for its
field ends the list of actions without an error, although the stream broke. -/
theorem actions_fault_false : ∃ (F : Err) (r : Rd), F ≠ .eof ∧ r.Ok F ∧
    (Actions.readFrom [] r).err = none :=
  ⟨.io 7, .src [0, 25, 0, 4] [] (.io 7) false, by decide, rfl, by decide +kernel⟩

/-- The same in a bucket that declares 48 bytes, of which 20 arrived. -/
theorem bucket_fault_false : ∃ (F : Err) (r : Rd), F ≠ .eof ∧ r.Ok F ∧
    (Bucket.readFrom Bucket.zero r).err = none :=
  ⟨.io 7, .src ([0, 48] ++ zeros 14 ++ [0, 25, 0, 4]) [] (.io 7) false, by decide, rfl, by decide +kernel⟩

end Verif.Props
