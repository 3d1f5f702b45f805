import Verif.Props.Match
import Verif.Props.Action
import Verif.Props.Table
import Verif.Props.Hello
import Verif.Props.Flow
import Verif.Props.Fixed
import Verif.Props.Packet
import Verif.Props.Group
import Verif.Props.Meter
import Verif.Props.Queue
import Verif.Props.Port
import Verif.Props.Raw
import Verif.Props.Request

/-!
# Different messages have different encodings

C78.  No two different messages of one type share an encoding, and no encoding of a
self-delimiting record is the beginning of the encoding of another one.  Where a decoder
restores the message this follows from its round trip; for the messages whose decoders drop
their lists (group, meter and queue messages) it is a fact about the encoders alone, so that
a correct receiver could restore what the sender meant.
-/

namespace Verif

/-! ## What is claimed -/

/-- Different messages (among those with `P`) have different encodings. -/
def Distinct {α : Type} (P : α → Prop) (enc : α → Bytes) : Prop :=
  ∀ x y, P x → P y → enc x = enc y → x = y

/-- Records that can be told apart and taken off a stream: of two streams that begin with a
record and are equal, the records are equal and so are the rests. -/
def Separable {α : Type} (P : α → Prop) (enc : α → Bytes) : Prop :=
  ∀ x y s t, P x → P y → enc x ++ s = enc y ++ t → x = y ∧ s = t

/-- A text that fits a field of `k` bytes and does not end with a zero byte. -/
def Fits (k : Nat) (s : Bytes) : Prop := s.length ≤ k ∧ s.getLast? ≠ some 0

/-! ## Helper lemmas -/

theorem Separable.distinct {α : Type} {P : α → Prop} {enc : α → Bytes} (h : Separable P enc) :
    Distinct P enc := fun x y hx hy he => (h x y [] [] hx hy (by rw [he])).1

theorem Separable.mono {α : Type} {P Q : α → Prop} {enc : α → Bytes} (h : Separable P enc)
    (hq : ∀ x, Q x → P x) : Separable Q enc := fun x y s t hx hy => h x y s t (hq x hx) (hq y hy)

theorem decodesFrom_unique {σ : Type} {dec : Step σ} {s x y : σ} {a b t u : Bytes}
    (hx : DecodesFrom dec s a x) (hy : DecodesFrom dec s b y) (h : a ++ t = b ++ u) :
    x = y ∧ t = u := by
  have h1 := hx (.src (a ++ t) [] .eof false) t rfl (by simp [Rd.content])
  have h2 := hy (.src (a ++ t) [] .eof false) u rfl (by simp [Rd.content, h])
  exact ⟨h1.1.symm.trans h2.1, h1.2.2.2.symm.trans h2.2.2.2⟩

theorem separable_of_decodes {α : Type} {P : α → Prop} {enc : α → Bytes} {dec : Step α} (z : α)
    (h : ∀ x, P x → Decodes dec (enc x) x) : Separable P enc := fun x y _ _ hx hy he =>
  decodesFrom_unique (s := z) (fun r t => h x hx z r t) (fun r t => h y hy z r t) he

theorem distinct_of_decodesAll {α : Type} {P : α → Prop} {enc : α → Bytes} {dec : Step α} (z : α)
    (h : ∀ x, P x → DecodesAll dec (enc x) x) : Distinct P enc := fun x y hx hy he => by
  have h1 := h x hx z (.src (enc x) [] .eof false) rfl (by simp [Rd.content])
  have h2 := h y hy z (.src (enc x) [] .eof false) rfl (by simp [Rd.content, he])
  exact h1.1.symm.trans h2.1

theorem be_split {α : Type} [Wire α] {x y : α} {s t : Bytes} (h : be x ++ s = be y ++ t) :
    x = y ∧ s = t := by
  have hl : (be x).length = (be y).length := by simp
  obtain ⟨h1, h2⟩ := List.append_inj h hl
  exact ⟨by rw [← ofBE_be x, ← ofBE_be y, h1], h2⟩

theorem be_one {α : Type} [Wire α] {x y : α} (h : be x = be y) : x = y := by
  rw [← ofBE_be x, ← ofBE_be y, h]

/-- A list of separable records of known number. -/
theorem Separable.many {α : Type} {P : α → Prop} {enc : α → Bytes} (h : Separable P enc)
    (xs ys : List α) (s t : Bytes) (hx : ∀ x ∈ xs, P x) (hy : ∀ y ∈ ys, P y)
    (hl : xs.length = ys.length) (he : xs.flatMap enc ++ s = ys.flatMap enc ++ t) :
    xs = ys ∧ s = t := by
  induction xs generalizing ys with
  | nil =>
    cases ys with
    | nil => exact ⟨rfl, he⟩
    | cons y ys => simp at hl
  | cons x xs ih =>
    cases ys with
    | nil => simp at hl
    | cons y ys =>
      simp only [List.flatMap_cons, List.append_assoc] at he
      obtain ⟨h1, h2⟩ := h x y _ _ (hx x (by simp)) (hy y (by simp)) he
      obtain ⟨h3, h4⟩ := ih ys (fun z hz => hx z (by simp [hz])) (fun z hz => hy z (by simp [hz]))
        (by simpa using hl) h2
      exact ⟨by rw [h1, h3], h4⟩

/-- A list of separable records, none empty, that takes the whole input. -/
theorem Separable.list {α : Type} {P : α → Prop} {enc : α → Bytes} (h : Separable P enc)
    (hne : ∀ x, P x → enc x ≠ []) (xs ys : List α) (hx : ∀ x ∈ xs, P x) (hy : ∀ y ∈ ys, P y)
    (he : xs.flatMap enc = ys.flatMap enc) : xs = ys := by
  induction xs generalizing ys with
  | nil =>
    cases ys with
    | nil => rfl
    | cons y ys =>
      simp only [List.flatMap_nil, List.flatMap_cons] at he
      exact absurd (List.append_eq_nil_iff.mp he.symm).1 (hne y (hy y (by simp)))
  | cons x xs ih =>
    cases ys with
    | nil =>
      simp only [List.flatMap_nil, List.flatMap_cons] at he
      exact absurd (List.append_eq_nil_iff.mp he).1 (hne x (hx x (by simp)))
    | cons y ys =>
      simp only [List.flatMap_cons] at he
      obtain ⟨h1, h2⟩ := h x y _ _ (hx x (by simp)) (hy y (by simp)) he
      rw [h1, ih ys (fun z hz => hx z (by simp [hz])) (fun z hz => hy z (by simp [hz])) h2]

theorem ofNat16_inj {m n : Nat} (hm : m ≤ 65535) (hn : n ≤ 65535)
    (h : UInt16.ofNat m = UInt16.ofNat n) : m = n := by
  rw [← u16_ofNat_toNat hm, ← u16_ofNat_toNat hn, h]

theorem zeros_succ_last (n : Nat) : (zeros (n + 1)).getLast? = some 0 := by
  simp [zeros, List.getLast?_replicate]

theorem text_aux {a b : Bytes} {k : Nat} (ha : Fits k a) (hb : Fits k b) (hab : a.length ≤ b.length)
    (h : copyTo a k = copyTo b k) : a = b := by
  unfold copyTo at h
  rw [List.take_of_length_le ha.1, List.take_of_length_le hb.1] at h
  obtain ⟨c, hc⟩ : ∃ c, b = a ++ c := by
    refine ⟨b.drop a.length, ?_⟩
    have := congrArg (List.take a.length) h
    rw [List.take_left' rfl, List.take_append_of_le_length hab] at this
    rw [this]
    conv => lhs; rw [← List.take_append_drop a.length b]
    congr 1
    simp [List.length_take]
  subst hc
  rw [List.append_assoc] at h
  have h2 := List.append_cancel_left h
  have hz : c = zeros c.length := by
    have h3 := congrArg (List.take c.length) h2
    rw [List.take_left' rfl] at h3
    rw [← h3]
    have := ha.1; have := hb.1; simp at this
    simp [zeros, List.take_replicate]
  cases hn : c.length with
  | zero => rw [List.length_eq_zero_iff.mp hn]; simp
  | succ n =>
    refine absurd ?_ hb.2
    rw [hz, hn, List.getLast?_append, zeros_succ_last]; rfl

theorem text_inj {a b : Bytes} {k : Nat} (ha : Fits k a) (hb : Fits k b)
    (h : copyTo a k = copyTo b k) : a = b := by
  rcases Nat.le_total a.length b.length with hl | hl
  · exact text_aux ha hb hl h
  · exact (text_aux hb ha hl h.symm).symm

set_option hygiene false in
/-- Take a number off both sides of the equation `he`. -/
macro "peel" : tactic => `(tactic| (
  replace he := be_split he
  obtain ⟨hpeel, he⟩ := he
  subst hpeel))

set_option hygiene false in
/-- Take padding off both sides of the equation `he`. -/
macro "peelPad" : tactic => `(tactic| replace he := List.append_cancel_left he)

namespace Props

/-! ## Messages of fixed size -/

/-- C78.  All messages of a fixed size: any two of one type that share an encoding are equal,
and one can be taken off a stream in one way only. -/
theorem fixed_separable :
    Separable (fun _ => True) (fun x : AggregateStats => x.writeTo.out) ∧
    Separable (fun _ => True) (fun x : SwitchFeatures => x.writeTo.out) ∧
    Separable (fun _ => True) (fun x : SwitchConfig => x.writeTo.out) ∧
    Separable (fun _ => True) (fun x : MultipartReply => x.writeTo.out) ∧
    Separable (fun _ => True) (fun x : ExperimenterMultipartHeader => x.writeTo.out) ∧
    Separable (fun _ => True) (fun x : Experimenter => x.writeTo.out) ∧
    Separable (fun _ => True) (fun x : RoleRequest => x.writeTo.out) ∧
    Separable (fun _ => True) (fun x : AsyncConfig => x.writeTo.out) ∧
    Separable (fun _ => True) (fun x : TableMod => x.writeTo.out) ∧
    Separable (fun _ => True) (fun x : TableStats => x.writeTo.out) ∧
    Separable (fun _ => True) (fun x : PortStatsRequest => x.writeTo.out) ∧
    Separable (fun _ => True) (fun x : PortStats => x.writeTo.out) ∧
    Separable (fun _ => True) (fun x : MeterConfigRequest => x.writeTo.out) ∧
    Separable (fun _ => True) (fun x : MeterFeatures => x.writeTo.out) ∧
    Separable (fun _ => True) (fun x : MeterBandStats => x.writeTo.out) ∧
    Separable (fun _ => True) (fun x : MeterStatsRequest => x.writeTo.out) ∧
    Separable (fun _ => True) (fun x : GroupStatsRequest => x.writeTo.out) ∧
    Separable (fun _ => True) (fun x : BucketCounter => x.writeTo.out) ∧
    Separable (fun _ => True) (fun x : GroupFeatures => x.writeTo.out) ∧
    Separable (fun _ => True) (fun x : QueueStatsRequest => x.writeTo.out) ∧
    Separable (fun _ => True) (fun x : QueueStats => x.writeTo.out) ∧
    Separable (fun _ => True) (fun x : QueueGetConfigRequest => x.writeTo.out) :=
  ⟨separable_of_decodes default fun x _ => (aggregateStats_roundtrip x).2,
    separable_of_decodes default fun x _ => (switchFeatures_roundtrip x).2,
    separable_of_decodes default fun x _ => (switchConfig_roundtrip x).2,
    separable_of_decodes default fun x _ => (multipartReply_roundtrip x).2,
    separable_of_decodes default fun x _ => (experimenterMultipartHeader_roundtrip x).2,
    separable_of_decodes default fun x _ => (experimenter_roundtrip x).2,
    separable_of_decodes default fun x _ => (roleRequest_roundtrip x).2,
    separable_of_decodes default fun x _ => (asyncConfig_roundtrip x).2,
    separable_of_decodes default fun x _ => (tableMod_roundtrip x).2,
    separable_of_decodes default fun x _ => (tableStats_roundtrip x).2,
    separable_of_decodes default fun x _ => (portStatsRequest_roundtrip x).2,
    separable_of_decodes default fun x _ => (portStats_roundtrip x).2,
    separable_of_decodes default fun x _ => (meterConfigRequest_roundtrip x).2,
    separable_of_decodes default fun x _ => (meterFeatures_roundtrip x).2,
    separable_of_decodes default fun x _ => (meterBandStats_roundtrip x).2,
    separable_of_decodes default fun x _ => (meterStatsRequest_roundtrip x).2,
    separable_of_decodes default fun x _ => (groupStatsRequest_roundtrip x).2,
    separable_of_decodes default fun x _ => (bucketCounter_roundtrip x).2,
    separable_of_decodes default fun x _ => (groupFeatures_roundtrip x).2,
    separable_of_decodes default fun x _ => (queueStatsRequest_roundtrip x).2,
    separable_of_decodes default fun x _ => (queueStats_roundtrip x).2,
    separable_of_decodes default fun x _ => (queueGetConfigRequest_roundtrip x).2⟩

/-- C78.  Headers of messages. -/
theorem header_separable : Separable (fun _ => True) (fun h : Header => h.writeTo.out) :=
  separable_of_decodes default fun x _ => (header_roundtrip x).2.2

/-! ## Streams -/

private def frame (p : Header × Bytes) : Bytes := p.1.bytes ++ p.2

private theorem frame_separable : Separable
    (fun p : Header × Bytes => p.1.length = UInt16.ofNat (8 + p.2.length) ∧ 8 + p.2.length ≤ 65535)
    frame := by
  rintro ⟨h, b⟩ ⟨k, c⟩ s t ⟨h1, h2⟩ ⟨k1, k2⟩ he
  simp only [frame, List.append_assoc] at he h1 h2 k1 k2
  obtain ⟨e1, e2⟩ := header_separable h k _ _ trivial trivial (by simpa [Header.writeTo_eq] using he)
  subst e1
  have hl : b.length = c.length := by
    have := ofNat16_inj h2 k2 (h1.symm.trans k1); omega
  obtain ⟨e3, e4⟩ := List.append_inj e2 hl
  exact ⟨by rw [e3], e4⟩

/-- C78.  Two sequences of requests that are the same on the wire are the same: the same
number of messages, with the same version, type, transaction identifier and body, in the same
order, wherever the bytes of the bodies come from. -/
theorem stream_distinct (qs ps : List (Request × Bytes))
    (hq : ∀ q ∈ qs, q.1.body.Yields q.2 ∧ 8 + q.2.length ≤ 65535)
    (hp : ∀ p ∈ ps, p.1.body.Yields p.2 ∧ 8 + p.2.length ≤ 65535)
    (h : serialise (qs.map (·.1)) = serialise (ps.map (·.1))) :
    qs.map (fun q => (q.1.header.version, q.1.header.type, q.1.header.transaction, q.2)) =
      ps.map (fun p => (p.1.header.version, p.1.header.type, p.1.header.transaction, p.2)) := by
  rw [serialise, serialise, foldl_recorder qs hq, foldl_recorder ps hp, List.nil_append,
    List.nil_append, ← List.flatMap_def, ← List.flatMap_def] at h
  have e : ∀ l : List (Request × Bytes), l.flatMap (fun p =>
      Header.bytes { p.1.header with length := UInt16.ofNat (8 + p.2.length) } ++ p.2) =
      (l.map fun p => (({ p.1.header with length := UInt16.ofNat (8 + p.2.length) } : Header), p.2)).flatMap
        frame := by
    intro l; rw [List.flatMap_map]; rfl
  rw [e, e] at h
  have := frame_separable.list (by
      intro x _ hx
      have := congrArg List.length hx
      simp [frame, Header.bytes_length] at this) _ _ ?_ ?_ h
  · have := congrArg (List.map fun p : Header × Bytes => (p.1.version, p.1.type, p.1.transaction, p.2)) this
    simpa [Function.comp_def] using this
  · intro x hx
    obtain ⟨q, hq', rfl⟩ := List.mem_map.mp hx
    exact ⟨rfl, (hq q hq').2⟩
  · intro x hx
    obtain ⟨q, hq', rfl⟩ := List.mem_map.mp hx
    exact ⟨rfl, (hp q hq').2⟩

/-- Non-vacuity: a request whose body is a buffer and one whose body is a reader. -/
example : (Body.buffer [1, 2]).Yields [1, 2] ∧ (Body.reader (.src [1, 2] [1] .eof false)).Yields [1, 2] :=
  ⟨rfl, rfl, rfl⟩

/-! ## Matches, actions, instructions -/

/-- C78.  Match fields. -/
theorem xm_separable : Separable XM.Valid (fun x : XM => x.writeTo.out) :=
  separable_of_decodes default fun x hx => (xm_roundtrip x hx).2

/-- C78.  Beyond the seven bits of a type, two fields share an encoding. -/
theorem xm_distinct_false : ∃ x y : XM, x ≠ y ∧ x.writeTo.out = y.writeTo.out :=
  ⟨⟨0x8000, 3, [7], []⟩, ⟨0x8000, 131, [7], []⟩, by decide +kernel⟩

/-- C78.  Matches. -/
theorem match_separable : Separable Match.Valid (fun m : Match => m.writeTo.out) :=
  separable_of_decodes default fun x hx => (match_roundtrip x hx).2

/-- C78.  Actions of all types: also two actions of different types differ on the wire. -/
theorem action_separable : Separable Action.Valid (fun a : Action => a.writeTo.out) := by
  intro x y s t hx hy he
  have ht : x.type = y.type := by
    obtain ⟨a, ha⟩ := x.bytes_type
    obtain ⟨b, hb⟩ := y.bytes_type
    have he' : x.bytes ++ s = y.bytes ++ t := he
    rw [ha, hb, List.append_assoc, List.append_assoc] at he'
    exact (be_split he').1
  exact decodesFrom_unique (s := x) (fun r u => (action_roundtrip x hx).2 x r u rfl)
    (fun r u => (action_roundtrip y hy).2 x r u ht) he

/-- C78.  Lists of actions. -/
theorem actions_distinct : Distinct (fun as => ∀ a ∈ as, Action.Valid a)
    (fun as : List Action => (Actions.writeTo as).out) :=
  distinct_of_decodesAll [] fun x hx => (actions_roundtrip x hx).2.1

/-- C78.  Instructions of all types. -/
theorem instruction_separable : Separable Instruction.Valid (fun i : Instruction => i.writeTo.out) := by
  intro x y s t hx hy he
  have ht : x.type = y.type := by
    obtain ⟨a, ha⟩ := x.bytes_type
    obtain ⟨b, hb⟩ := y.bytes_type
    have he' : x.bytes ++ s = y.bytes ++ t := he
    rw [ha, hb, List.append_assoc, List.append_assoc] at he'
    exact (be_split he').1
  exact decodesFrom_unique (s := x) (fun r u => (instruction_roundtrip x hx).2 x r u rfl)
    (fun r u => (instruction_roundtrip y hy).2 x r u ht) he

/-- C78.  Lists of instructions. -/
theorem instructions_distinct : Distinct (fun is => ∀ i ∈ is, Instruction.Valid i)
    (fun is : List Instruction => (Instructions.writeTo is).out) := by
  intro x y hx hy he
  simp only [(instructions_roundtrip x hx).2.1, (instructions_roundtrip y hy).2.1] at he
  refine instruction_separable.list (fun i _ h => ?_) x y hx hy he
  obtain ⟨t, ht⟩ := i.bytes_type
  have h' : i.bytes = [] := h
  rw [ht] at h'
  have := congrArg List.length h'
  simp [Wire.size] at this

/-! ## Flows and packets -/

/-- C78.  Flow modifications. -/
theorem flowMod_distinct : Distinct (fun f : FlowMod => f.mtch.Valid ∧ ∀ i ∈ f.instructions, i.Valid)
    (fun f => f.writeTo.out) :=
  distinct_of_decodesAll default fun x hx => (flowMod_roundtrip x hx.1 hx.2).2

/-- C78.  Removed flows. -/
theorem flowRemoved_separable : Separable (fun f : FlowRemoved => f.mtch.Valid) (fun f => f.writeTo.out) :=
  separable_of_decodes default fun x hx => (flowRemoved_roundtrip x hx).2

/-- C78.  Flow statistics requests. -/
theorem flowStatsRequest_separable : Separable (fun f : FlowStatsRequest => f.mtch.Valid)
    (fun f => f.writeTo.out) :=
  separable_of_decodes default fun x hx => (flowStatsRequest_roundtrip x hx).2

/-- C78.  Aggregate statistics requests. -/
theorem aggregateStatsRequest_separable : Separable (fun f : AggregateStatsRequest => f.mtch.Valid)
    (fun f => f.writeTo.out) :=
  separable_of_decodes default fun x hx => (aggregateStatsRequest_roundtrip x hx).2

/-- C78.  Entries of a flow statistics reply. -/
theorem flowStats_separable : Separable (fun f : FlowStats => f.mtch.Valid ∧
    (∀ i ∈ f.instructions, i.Valid) ∧ f.writeTo.out.length ≤ 65535) (fun f => f.writeTo.out) :=
  separable_of_decodes default fun x hx => (flowStats_roundtrip x hx.1 hx.2.1 hx.2.2).2

/-- C78.  Packets received by a switch. -/
theorem packetIn_distinct : Distinct (fun p : PacketIn => p.mtch.Valid) (fun p => p.writeTo.out) :=
  distinct_of_decodesAll default fun x hx => (packetIn_roundtrip x hx).2

/-- C78.  Packets to send: what is an action and what is data is settled by the length. -/
theorem packetOut_distinct : Distinct (fun p : PacketOut => (∀ a ∈ p.actions, a.Valid) ∧
    (p.actions.flatMap (fun a => a.writeTo.out)).length ≤ 65535) (fun p => p.writeTo.out) :=
  distinct_of_decodesAll default fun x hx => (packetOut_roundtrip x hx.1 hx.2).2

/-- C78.  Echo messages and errors. -/
theorem raw_distinct : Distinct (fun _ => True) (fun e : EchoRequest => e.writeTo.out) ∧
    Distinct (fun _ => True) (fun e : EchoReply => e.writeTo.out) ∧
    Distinct (fun _ => True) (fun e : OfpError => e.writeTo.out) ∧
    Distinct (fun _ => True) (fun e : ErrorExperimenter => e.writeTo.out) :=
  ⟨distinct_of_decodesAll default fun x _ => (echoRequest_roundtrip x).2.2,
    distinct_of_decodesAll default fun x _ => (echoReply_roundtrip x).2.2,
    distinct_of_decodesAll default fun x _ => (error_roundtrip x).2.2,
    distinct_of_decodesAll default fun x _ => (errorExperimenter_roundtrip x).2.2⟩

/-- C78.  Multipart requests: the type and the body, wherever it comes from. -/
theorem multipartRequest_distinct (t u : UInt16) (v w : Option Wr) (hv : ∀ x, v = some x → x.err = none)
    (hw : ∀ x, w = some x → x.err = none)
    (he : (newMultipartRequest t v).writeTo.out = (newMultipartRequest u w).writeTo.out) :
    t = u ∧ (v.map Wr.out).getD [] = (w.map Wr.out).getD [] := by
  have h1 := (multipartRequest_roundtrip t v hv).2.2 ⟨0, 0, .buffer []⟩
    (.src (newMultipartRequest t v).writeTo.out [] .eof false) rfl (by simp [Rd.content])
  have h2 := (multipartRequest_roundtrip u w hw).2.2 ⟨0, 0, .buffer []⟩
    (.src (newMultipartRequest t v).writeTo.out [] .eof false) rfl (by simp [Rd.content, he])
  have h := h1.1.symm.trans h2.1
  injection h with a b c
  injection c with c
  exact ⟨a, c⟩

/-- Non-vacuity: valid flow modifications, packets and entries of statistics. -/
example : (∃ f : FlowMod, f.mtch.Valid ∧ (∀ i ∈ f.instructions, i.Valid) ∧ f.instructions.length = 2) ∧
    (∃ p : PacketOut, (∀ a ∈ p.actions, a.Valid) ∧
      (p.actions.flatMap (fun a => a.writeTo.out)).length ≤ 65535 ∧ p.actions ≠ []) ∧
    (∃ f : FlowStats, f.mtch.Valid ∧ (∀ i ∈ f.instructions, i.Valid) ∧ f.writeTo.out.length ≤ 65535 ∧
      f.instructions ≠ []) :=
  ⟨⟨{ (default : FlowMod) with
      mtch := ⟨1, [⟨0x8000, 11, [10, 0, 0, 0], [255, 0, 0, 0]⟩]⟩,
      instructions := [.gotoTable 3, .applyActions [.output 4 0]] }, by decide +kernel⟩,
   ⟨{ (default : PacketOut) with actions := [.output 4 0], data := [1] }, by decide +kernel⟩,
   ⟨{ (default : FlowStats) with
      mtch := ⟨1, [⟨0x8000, 11, [10, 0, 0, 0], [255, 0, 0, 0]⟩]⟩,
      instructions := [.applyActions [.output 4 0]] }, by decide +kernel⟩⟩

/-! ## Groups -/

/-- C78.  Buckets. -/
theorem bucket_separable : Separable (fun b : Bucket => (∀ a ∈ b.actions, a.Valid) ∧
    b.writeTo.out.length ≤ 65535) (fun b => b.writeTo.out) :=
  separable_of_decodes (dec := Bucket.readFrom) default fun x hx => Reads.decodes fun s =>
    x.reads ⟨hx.1, by rw [← Bucket.bytes_length]; exact hx.2⟩ s

private theorem bucket_ne (b : Bucket) : b.writeTo.out ≠ [] := by
  intro h
  have : b.bytes.length = 0 := congrArg List.length h
  rw [b.bytes_length] at this
  simp [Bucket.size] at this

/-- C78.  Group modifications, though their decoder loses the buckets (C31). -/
theorem groupMod_distinct : Distinct (fun g : GroupMod => ∀ b ∈ g.buckets,
    (∀ a ∈ b.actions, a.Valid) ∧ b.writeTo.out.length ≤ 65535) (fun g => g.writeTo.out) := by
  rintro ⟨c, ty, g, bs⟩ ⟨c', ty', g', bs'⟩ hx hy he
  simp only [GroupMod.out_eq] at he
  peel; peel; peelPad; peel
  rw [bucket_separable.list (fun b _ => bucket_ne b) bs bs' hx hy he]

private theorem buckets_le {bs : List Bucket} {b : Bucket} (h : b ∈ bs) :
    b.writeTo.out.length ≤ (Buckets.bytes bs).length := by
  obtain ⟨u, v, rfl⟩ := List.append_of_mem h
  simp [Buckets.bytes, Bucket.bytes]; omega

/-- C78.  Entries of a group description. -/
theorem groupDescStats_separable : Separable (fun g : GroupDescStats =>
    (∀ b ∈ g.buckets, ∀ a ∈ b.actions, a.Valid) ∧ g.writeTo.out.length ≤ 65535)
    (fun g => g.writeTo.out) := by
  rintro ⟨ty, g, bs⟩ ⟨ty', g', bs'⟩ s t ⟨hx, lx⟩ ⟨hy, ly⟩ he
  have l1 : 8 + (Buckets.bytes bs).length ≤ 65535 := by
    rw [GroupDescStats.out_eq] at lx; simp at lx; omega
  have l2 : 8 + (Buckets.bytes bs').length ≤ 65535 := by
    rw [GroupDescStats.out_eq] at ly; simp at ly; omega
  simp only [GroupDescStats.out_eq, List.append_assoc] at he
  replace he := be_split he
  obtain ⟨hl, he⟩ := he
  have hl := ofNat16_inj l1 l2 hl
  peel; peelPad; peel
  obtain ⟨he, ht⟩ := List.append_inj he (by omega)
  rw [bucket_separable.list (fun b _ => bucket_ne b) bs bs'
    (fun b hb => ⟨hx b hb, by have := buckets_le hb; omega⟩)
    (fun b hb => ⟨hy b hb, by have := buckets_le hb; omega⟩) he]
  exact ⟨rfl, ht⟩

/-- C78.  Entries of a group statistics reply. -/
theorem groupStats_separable : Separable (fun g : GroupStats => 40 + 16 * g.bucketStats.length ≤ 65535)
    (fun g => g.writeTo.out) := by
  rintro ⟨g, rc, pc, bc, ds, dn, bs⟩ ⟨g', rc', pc', bc', ds', dn', bs'⟩ s t lx ly he
  simp only at lx ly
  simp only [GroupStats.out_eq, List.append_assoc, BucketCounters.bytes_length] at he
  replace he := be_split he
  obtain ⟨hl, he⟩ := he
  have hl := ofNat16_inj lx ly hl
  peelPad; peel; peel; peelPad; peel; peel; peel; peel
  have sep : Separable (fun _ => True) (fun x : BucketCounter => x.writeTo.out) :=
    separable_of_decodes default fun x _ => (bucketCounter_roundtrip x).2
  obtain ⟨rfl, rfl⟩ := sep.many bs bs' s t (fun _ _ => trivial) (fun _ _ => trivial) (by omega) he
  exact ⟨rfl, rfl⟩

/-! ## Meters -/

/-- C78.  Meter bands. -/
theorem meterBand_separable : Separable (fun _ => True) (fun b : MeterBand => b.writeTo.out) := by
  intro x y s t _ _ he
  have ht : x.type = y.type := by
    obtain ⟨a, ha⟩ := x.bytes_type
    obtain ⟨b, hb⟩ := y.bytes_type
    have he' : x.bytes ++ s = y.bytes ++ t := he
    rw [ha, hb, List.append_assoc, List.append_assoc] at he'
    exact (be_split he').1
  exact decodesFrom_unique (meterBand_roundtrip x x rfl) (meterBand_roundtrip y x ht) he

private theorem band_ne (b : MeterBand) : b.writeTo.out ≠ [] := by
  intro h
  have : b.bytes.length = 0 := congrArg List.length h
  rw [b.bytes_length] at this
  omega

/-- C78.  Lists of meter bands. -/
theorem meterBands_distinct : Distinct (fun _ => True)
    (fun bs : List MeterBand => (MeterBands.writeTo bs).out) := by
  intro x y _ _ he
  simp only [MeterBands.writeTo_eq] at he
  exact meterBand_separable.list (fun b _ => band_ne b) x y (fun _ _ => trivial) (fun _ _ => trivial) he

/-- C78.  Meter modifications, though their decoder loses the bands (C32). -/
theorem meterMod_distinct : Distinct (fun _ => True) (fun m : MeterMod => m.writeTo.out) := by
  rintro ⟨c, f, m, bs⟩ ⟨c', f', m', bs'⟩ _ _ he
  simp only [MeterMod.out_eq] at he
  peel; peel; peel
  rw [meterBand_separable.list (fun b _ => band_ne b) bs bs' (fun _ _ => trivial) (fun _ _ => trivial) he]

/-- C78.  Entries of a meter configuration reply. -/
theorem meterConfig_separable : Separable (fun m : MeterConfig => 8 + 16 * m.bands.length ≤ 65535)
    (fun m => m.writeTo.out) := by
  rintro ⟨f, m, bs⟩ ⟨f', m', bs'⟩ s t lx ly he
  simp only at lx ly
  simp only [MeterConfig.out_eq, List.append_assoc, MeterBands.bytes_length] at he
  replace he := be_split he
  obtain ⟨hl, he⟩ := he
  have hl := ofNat16_inj lx ly hl
  peel; peel
  obtain ⟨rfl, rfl⟩ := meterBand_separable.many bs bs' s t (fun _ _ => trivial) (fun _ _ => trivial)
    (by omega) he
  exact ⟨rfl, rfl⟩

/-- C78.  Entries of a meter statistics reply. -/
theorem meterStats_separable : Separable (fun m : MeterStats => 40 + 16 * m.bandStats.length ≤ 65535)
    (fun m => m.writeTo.out) := by
  rintro ⟨m, fc, pc, bc, ds, dn, bs⟩ ⟨m', fc', pc', bc', ds', dn', bs'⟩ s t lx ly he
  simp only at lx ly
  simp only [MeterStats.out_eq, List.append_assoc, MeterBandStatss.bytes_length] at he
  peel
  replace he := be_split he
  obtain ⟨hl, he⟩ := he
  have hl := ofNat16_inj lx ly hl
  peelPad; peel; peel; peel; peel; peel
  have sep : Separable (fun _ => True) (fun x : MeterBandStats => x.writeTo.out) :=
    separable_of_decodes default fun x _ => (meterBandStats_roundtrip x).2
  obtain ⟨rfl, rfl⟩ := sep.many bs bs' s t (fun _ _ => trivial) (fun _ _ => trivial) (by omega) he
  exact ⟨rfl, rfl⟩

/-! ## Queues -/

/-- C78.  Queue properties. -/
theorem queueProp_separable : Separable (fun p : QueueProp => p.writeTo.out.length ≤ 65535)
    (fun p => p.writeTo.out) := by
  intro x y s t hx hy he
  have ht : x.type = y.type := by
    obtain ⟨a, ha⟩ := x.bytes_type
    obtain ⟨b, hb⟩ := y.bytes_type
    have he' : x.bytes ++ s = y.bytes ++ t := he
    rw [ha, hb, List.append_assoc, List.append_assoc] at he'
    exact (be_split he').1
  exact decodesFrom_unique (queueProp_roundtrip x x rfl hx) (queueProp_roundtrip y x ht hy) he

private theorem queueProp_ne (p : QueueProp) : p.writeTo.out ≠ [] := by
  intro h
  have : p.bytes.length = 0 := congrArg List.length h
  rw [p.bytes_length] at this
  cases p <;> simp [QueueProp.size] at this

/-- C78.  Lists of queue properties. -/
theorem queueProps_distinct : Distinct (fun ps => ∀ p ∈ ps, p.writeTo.out.length ≤ 65535)
    (fun ps : List QueueProp => (QueueProps.writeTo ps).out) := by
  intro x y hx hy he
  simp only [QueueProps.writeTo_eq] at he
  exact queueProp_separable.list (fun b _ => queueProp_ne b) x y hx hy he

/-- C78.  Queues with their properties. -/
theorem packetQueue_separable : Separable (fun q : PacketQueue => q.writeTo.out.length ≤ 65535)
    (fun q => q.writeTo.out) := by
  rintro ⟨q, p, ps⟩ ⟨q', p', ps'⟩ s t lx ly he
  have hx := (packetQueue_valid lx).1
  have hy := (packetQueue_valid ly).1
  change (PacketQueue.bytes _).length ≤ _ at lx
  change (PacketQueue.bytes _).length ≤ _ at ly
  change PacketQueue.bytes _ ++ s = PacketQueue.bytes _ ++ t at he
  simp only [PacketQueue.bytes_eq, List.append_assoc] at he
  rw [PacketQueue.bytes_eq] at lx ly
  simp at lx ly
  peel; peel
  replace he := be_split he
  obtain ⟨hl, he⟩ := he
  have hl := ofNat16_inj (by omega) (by omega) hl
  peelPad
  obtain ⟨he, ht⟩ := List.append_inj he (by omega)
  rw [queueProp_separable.list (fun b _ => queueProp_ne b) ps ps'
    (fun b hb => by have := hx b hb; rwa [QueueProp.Valid, ← QueueProp.bytes_length] at this)
    (fun b hb => by have := hy b hb; rwa [QueueProp.Valid, ← QueueProp.bytes_length] at this) he]
  exact ⟨rfl, ht⟩

/-- C78.  Queue configuration replies, though their decoder loses the queues (C33). -/
theorem queueGetConfigReply_distinct : Distinct
    (fun r : QueueGetConfigReply => ∀ q ∈ r.queues, q.writeTo.out.length ≤ 65535)
    (fun r => r.writeTo.out) := by
  rintro ⟨p, qs⟩ ⟨p', qs'⟩ hx hy he
  simp only [QueueGetConfigReply.out_eq] at he
  peel; peelPad
  rw [packetQueue_separable.list (fun q _ h => ?_) qs qs' hx hy he]
  have : q.bytes.length = 0 := congrArg List.length h
  rw [q.bytes_length] at this
  simp [PacketQueue.size] at this

/-! ## Tables -/

private theorem xms_split {t t' : UInt16} {as bs : List XM} {s u : Bytes}
    (hx : 4 + 4 * as.length ≤ 65535) (hy : 4 + 4 * bs.length ≤ 65535) (vx : ∀ x ∈ as, x.Valid)
    (vy : ∀ x ∈ bs, x.Valid)
    (he : (writeTablePropXM t as).out ++ s = (writeTablePropXM t' bs).out ++ u) :
    as = bs ∧ s = u := by
  simp only [writeTablePropXM_eq, List.append_assoc] at he
  peel
  replace he := be_split he
  obtain ⟨hl, he⟩ := he
  have hl := ofNat16_inj hx hy hl
  obtain ⟨rfl, he⟩ := xm_separable.many as bs _ _ vx vy (by omega) he
  exact ⟨rfl, List.append_cancel_left he⟩

/-- C78.  Table properties of all kinds, with or without miss, also with fields that carry
values: the number of fields, not the size, is in the length field, and is enough. -/
theorem tableProp_separable : Separable (fun p : TableProp => (∀ x ∈ p.fields, x.Valid) ∧ p.size ≤ 65535)
    (fun p => p.writeTo.out) := by
  intro x y s t ⟨vx, lx⟩ ⟨vy, ly⟩ he
  have ht : x.type = y.type := by
    obtain ⟨a, ha⟩ := x.bytes_type
    obtain ⟨b, hb⟩ := y.bytes_type
    have he' : x.bytes ++ s = y.bytes ++ t := he
    rw [ha, hb, List.append_assoc, List.append_assoc] at he'
    exact (be_split he').1
  have hz : x.zero = y.zero := by
    have h1 := tablePropMake_type x
    rw [ht, tablePropMake_type y] at h1
    exact (Except.ok.inj h1).symm
  have hm : x.expMiss = y.expMiss := by
    cases x <;> cases y <;> first | rfl | (simp [TableProp.zero] at hz; done) | skip
    rename_i m _ _ _ m' _ _ _
    cases m <;> cases m' <;> simp_all [TableProp.type, tablePropType, TableProp.expMiss]
  cases x with
  | «matches» xs =>
    cases y <;> simp [TableProp.zero] at hz
    obtain ⟨rfl, rfl⟩ := xms_split lx ly vx vy he
    exact ⟨rfl, rfl⟩
  | wildcards xs =>
    cases y <;> simp [TableProp.zero] at hz
    obtain ⟨rfl, rfl⟩ := xms_split lx ly vx vy he
    exact ⟨rfl, rfl⟩
  | writeSetField m xs =>
    cases y <;> simp [TableProp.zero] at hz
    obtain ⟨rfl, rfl⟩ := xms_split lx ly vx vy he
    rename_i m'
    cases m <;> cases m' <;> first | exact ⟨rfl, rfl⟩ | simp [TableProp.type, tablePropType] at ht
  | applySetField m xs =>
    cases y <;> simp [TableProp.zero] at hz
    obtain ⟨rfl, rfl⟩ := xms_split lx ly vx vy he
    rename_i m'
    cases m <;> cases m' <;> first | exact ⟨rfl, rfl⟩ | simp [TableProp.type, tablePropType] at ht
  | _ =>
    have hf : ∀ q : TableProp, q.fields = [] → ∀ x ∈ q.fields, x.Plain := by
      intro q hq; simp [hq]
    have hy' : y.fields = [] := by cases y <;> first | rfl | (simp [TableProp.zero] at hz; done)
    exact decodesFrom_unique (Reads.decodesFrom (TableProp.reads _ _ rfl rfl (hf _ rfl) lx))
      (Reads.decodesFrom (TableProp.reads y _ hz hm (hf y hy') ly)) he

private theorem tableProp_size (p : TableProp) (hl : p.writeTo.out.length ≤ 65535) : p.size ≤ 65535 := by
  have hx' : ∀ xs : List XM, 4 * xs.length ≤ (xs.flatMap XM.bytes).length := by
    intro xs
    induction xs with
    | nil => simp
    | cons y ys ih => rw [List.flatMap_cons, List.length_append, XM.bytes_length, List.length_cons]; omega
  cases p <;> simp only [TableProp.size, TableProp.fields] <;>
    simp only [TableProp.writeTo, writeTablePropXM_eq, writeTablePropActions, Enc.writeSliceTo, Enc.writeTo,
      Enc.gather, tablePropHeader, List.length_append, be_length, zeros_length] at hl <;> (try simp at hl) <;>
    (try (have := typeCodes_length ‹List UInt16›; unfold typeCodes at this; simp at this)) <;>
    (try (have := hx' ‹List XM›; simp at this)) <;> omega

private theorem tableProps_le {ps : List TableProp} {p : TableProp} (h : p ∈ ps) :
    p.bytes.length ≤ (TableProps.bytes ps).length := by
  obtain ⟨u, v, rfl⟩ := List.append_of_mem h
  simp [TableProps.bytes]; omega

/-- C78.  Entries of a table features message, with names that fit their field. -/
theorem tableFeatures_separable : Separable (fun t : TableFeatures => Fits 32 t.name ∧
    (∀ p ∈ t.properties, ∀ x ∈ p.fields, x.Valid) ∧ t.writeTo.out.length ≤ 65535)
    (fun t => t.writeTo.out) := by
  rintro ⟨tb, n, mm, mw, c, me, ps⟩ ⟨tb', n', mm', mw', c', me', ps'⟩ s t ⟨nx, vx, lx⟩ ⟨ny, vy, ly⟩ he
  simp only at nx ny vx vy
  have l1 : 64 + (TableProps.bytes ps).length ≤ 65535 := by
    rw [TableFeatures.out_eq] at lx; simp at lx; omega
  have l2 : 64 + (TableProps.bytes ps').length ≤ 65535 := by
    rw [TableFeatures.out_eq] at ly; simp at ly; omega
  simp only [TableFeatures.out_eq, List.append_assoc] at he
  replace he := be_split he
  obtain ⟨hl, he⟩ := he
  have hl := ofNat16_inj l1 l2 hl
  peel; peelPad
  replace he := List.append_inj he (by simp)
  obtain ⟨hn, he⟩ := he
  cases text_inj nx ny hn
  peel; peel; peel; peel
  obtain ⟨he, ht⟩ := List.append_inj he (by omega)
  rw [tableProp_separable.list (fun p _ h => ?_) ps ps'
    (fun p hp => ⟨vx p hp, tableProp_size p (by have h := tableProps_le hp; rw [TableProp.bytes] at h; omega)⟩)
    (fun p hp => ⟨vy p hp, tableProp_size p (by have h := tableProps_le hp; rw [TableProp.bytes] at h; omega)⟩) he]
  · exact ⟨rfl, ht⟩
  · obtain ⟨u, hu⟩ := p.bytes_type
    have h' : p.bytes = [] := h
    rw [hu] at h'
    have := congrArg List.length h'
    simp [Wire.size] at this

/-- Non-vacuity: groups, meters, queues and tables with the lists that the decoders lose, and
fields with values in a table property. -/
example : (∃ g : GroupMod, (∀ b ∈ g.buckets, (∀ a ∈ b.actions, a.Valid) ∧ b.writeTo.out.length ≤ 65535) ∧
      g.buckets.length = 2) ∧
    (∃ g : GroupDescStats, ((∀ b ∈ g.buckets, ∀ a ∈ b.actions, a.Valid) ∧ g.writeTo.out.length ≤ 65535) ∧
      g.buckets.length = 2) ∧
    (∃ r : QueueGetConfigReply, (∀ q ∈ r.queues, q.writeTo.out.length ≤ 65535) ∧ r.queues.length = 2) ∧
    (∃ t : TableFeatures, (Fits 32 t.name ∧ (∀ p ∈ t.properties, ∀ x ∈ p.fields, x.Valid) ∧
      t.writeTo.out.length ≤ 65535) ∧ t.properties.length = 2) :=
  ⟨⟨⟨0, 1, 7, [⟨1, 2, 3, [.output 4 0]⟩, ⟨1, 2, 3, []⟩]⟩, by decide +kernel⟩,
   ⟨⟨1, 7, [⟨1, 2, 3, [.output 4 0]⟩, ⟨1, 2, 3, []⟩]⟩, by decide +kernel⟩,
   ⟨⟨3, [⟨1, 2, [.experimenter 5 [6]]⟩, ⟨3, 4, []⟩]⟩, by decide +kernel⟩,
   ⟨⟨1, [116, 97, 98], 0, 0, 0, 0, [.matches [⟨0x8000, 0, [0, 0, 0, 1], []⟩], .experimenter true 5 6 [7]]⟩,
    by unfold Fits; decide +kernel⟩⟩

/-! ## Ports and descriptions -/

/-- C78.  Ports, with names that fit their field. -/
theorem port_separable : Separable (fun p : Port => p.hwAddr.length = 6 ∧ Fits 16 p.name)
    (fun p => p.writeTo.out) := by
  rintro ⟨pn, hw, n, c, st, cu, ad, su, pe, cs, ms⟩ ⟨pn', hw', n', c', st', cu', ad', su', pe', cs', ms'⟩
    s t ⟨hx, nx⟩ ⟨hy, ny⟩ he
  simp only at hx hy nx ny
  simp only [Port.out_eq, List.append_assoc] at he
  peel; peelPad
  replace he := List.append_inj he (by omega)
  obtain ⟨hw_, he⟩ := he
  subst hw_
  peelPad
  replace he := List.append_inj he (by simp)
  obtain ⟨hn, he⟩ := he
  cases text_inj nx ny hn
  peel; peel; peel; peel; peel; peel; peel; peel
  exact ⟨rfl, he⟩

/-- C78.  Port status messages. -/
theorem portStatus_separable : Separable (fun p : PortStatus => p.port.hwAddr.length = 6 ∧
    Fits 16 p.port.name) (fun p => p.writeTo.out) := by
  rintro ⟨r, p⟩ ⟨r', p'⟩ s t hx hy he
  simp only [PortStatus.out_eq, List.append_assoc] at he
  peel; peelPad
  obtain ⟨rfl, rfl⟩ := port_separable p p' s t hx hy he
  exact ⟨rfl, rfl⟩

/-- C78.  Port modifications. -/
theorem portMod_separable : Separable (fun p : PortMod => p.hwAddr.length = 6)
    (fun p => p.writeTo.out) := by
  rintro ⟨pn, hw, c, m, a⟩ ⟨pn', hw', c', m', a'⟩ s t hx hy he
  simp only at hx hy
  simp only [PortMod.out_eq, List.append_assoc] at he
  peel; peelPad
  replace he := List.append_inj he (by omega)
  obtain ⟨hw_, he⟩ := he
  subst hw_
  peelPad; peel; peel; peel; peelPad
  exact ⟨rfl, he⟩

/-- C78.  Descriptions of a switch whose texts fit their fields. -/
theorem description_separable : Separable (fun d : Description => Fits 256 d.manufacturer ∧
    Fits 256 d.hardware ∧ Fits 256 d.software ∧ Fits 32 d.serialNum ∧ Fits 256 d.datapath)
    (fun d => d.writeTo.out) := by
  rintro ⟨a, b, c, d, e⟩ ⟨a', b', c', d', e'⟩ s t ⟨x1, x2, x3, x4, x5⟩ ⟨y1, y2, y3, y4, y5⟩ he
  simp only at x1 x2 x3 x4 x5 y1 y2 y3 y4 y5
  simp only [Description.out_eq, List.append_assoc] at he
  obtain ⟨h1, he⟩ := List.append_inj he (by simp)
  obtain ⟨h2, he⟩ := List.append_inj he (by simp)
  obtain ⟨h3, he⟩ := List.append_inj he (by simp)
  obtain ⟨h4, he⟩ := List.append_inj he (by simp)
  obtain ⟨h5, he⟩ := List.append_inj he (by simp)
  rw [text_inj x1 y1 h1, text_inj x2 y2 h2, text_inj x3 y3 h3, text_inj x4 y4 h4, text_inj x5 y5 h5]
  exact ⟨rfl, he⟩

/-- Non-vacuity. -/
example : ∃ p : Port, p.hwAddr.length = 6 ∧ Fits 16 p.name :=
  ⟨⟨1, zeros 6, [101, 116, 104, 48], 0, 0, 0, 0, 0, 0, 0, 0⟩, by unfold Fits; decide +kernel⟩

/-- C78.  A name that ends with a zero byte, or that is too long, shares its encoding with
another one. -/
theorem port_distinct_false : ∃ p q r u : Port, p ≠ q ∧ p.writeTo.out = q.writeTo.out ∧
    r ≠ u ∧ r.writeTo.out = u.writeTo.out :=
  ⟨⟨1, zeros 6, [101], 0, 0, 0, 0, 0, 0, 0, 0⟩, ⟨1, zeros 6, [101, 0], 0, 0, 0, 0, 0, 0, 0, 0⟩,
    ⟨1, zeros 6, List.replicate 16 101, 0, 0, 0, 0, 0, 0, 0, 0⟩,
    ⟨1, zeros 6, List.replicate 17 101, 0, 0, 0, 0, 0, 0, 0, 0⟩, by decide +kernel⟩

/-! ## Hello -/

/-- C78 fails for the version bitmaps of a hello message: a bitmap with an even number of
words and the same bitmap with one more word of zeros are the same on the wire. -/
theorem versionBitmap_distinct_false (ws : List UInt32) (he : ws.length % 2 = 0) :
    (HelloElem.versionBitmap ws).writeTo.out = (HelloElem.versionBitmap (ws ++ [0])).writeTo.out := by
  have h := HelloElem.canonical_bytes (.versionBitmap ws)
  simp only [HelloElem.canonical, paddedWords, he, if_true] at h
  exact h.symm

/-- C78 fails for hello messages: bitmaps of two and of three words, the same on the wire. -/
theorem hello_distinct_false : ∃ h g : Hello, h ≠ g ∧ h.writeTo.out = g.writeTo.out :=
  ⟨⟨[.versionBitmap [0, 16]]⟩, ⟨[.versionBitmap [0, 16, 0]]⟩, by decide +kernel⟩

/-- C78.  Version bitmaps with an odd number of words (one word is what every version in use
needs) are distinct.  Missing: bitmaps with an even number of words. -/
theorem versionBitmap_separable_partial : Separable
    (fun h : HelloElem => h.writeTo.out.length ≤ 65535 ∧ ∀ ws, h = .versionBitmap ws → ws.length % 2 = 1)
    (fun h => h.writeTo.out) := by
  rintro ⟨ws⟩ ⟨ws'⟩ s t ⟨lx, ox⟩ ⟨ly, oy⟩ he
  exact decodesFrom_unique (s := .versionBitmap [])
    (fun r u => versionBitmap_roundtrip_partial ws (ox ws rfl) lx _ r u)
    (fun r u => versionBitmap_roundtrip_partial ws' (oy ws' rfl) ly _ r u) he

/-- C78.  Hello messages whose version bitmaps have an odd number of words.  Missing: the
other ones. -/
theorem hello_distinct_partial : Distinct (fun h : Hello => ∀ e ∈ h.elements,
    e.writeTo.out.length ≤ 65535 ∧ ∀ ws, e = .versionBitmap ws → ws.length % 2 = 1)
    (fun h => h.writeTo.out) := by
  rintro ⟨es⟩ ⟨es'⟩ hx hy he
  simp only [Hello.writeTo_eq] at he
  rw [versionBitmap_separable_partial.list (fun e _ h => ?_) es es' hx hy he]
  have : e.bytes.length = 0 := congrArg List.length h
  rw [e.bytes_length] at this
  cases e; simp [HelloElem.size] at this

/-- Non-vacuity: the bitmap of versions 1.0 and 1.3. -/
example : ∃ h : Hello, h.elements ≠ [] ∧ ∀ e ∈ h.elements,
    e.writeTo.out.length ≤ 65535 ∧ ∀ ws, e = .versionBitmap ws → ws.length % 2 = 1 := by
  refine ⟨⟨[.versionBitmap [18]]⟩, by simp, ?_⟩
  intro e he
  simp only [List.mem_singleton] at he
  subst he
  exact ⟨by decide +kernel, fun ws h => by injection h with h; subst h; rfl⟩

end Props
end Verif
