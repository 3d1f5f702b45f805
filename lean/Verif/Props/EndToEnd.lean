import Verif.Props.Conn
import Verif.Props.Request
import Verif.Props.Fixed
import Verif.Props.Flow
import Verif.Props.Packet
import Verif.Props.Group
import Verif.Props.Meter
import Verif.Props.Queue
import Verif.Props.Port
import Verif.Props.Table
import Verif.Props.Hello
import Verif.Props.Raw

/-!
# Property C47: end-to-end delivery

`Send` on one side, `Receive` and a decoder on the other, over any transport and any
fragmentation.
-/

namespace Verif.Props

open Verif

/-- The request a user builds for a message: `NewRequest` with the message's serialiser
`w`, and then a header of their own (version, type and transaction). -/
def requestFor (h : Header) (w : Wr) : Request :=
  { newRequest h.type (some fun _ => w) with header := h }

/-- The message with serialiser `w`, sent under header `h` in a batch with any other
requests over a new connection with any transport, arrives: if `Send` returned nil, then the
peer, reading what was transmitted in any fragmentation (followed by anything), receives at
the position of the message a request with the same version, type and transaction, whose
length field is the length of the message; and decoding its body into the receiver `s`
succeeds, consumes the whole body and gives `x`.

(`Sep`: the transport reports the end of the stream in a call of its own, or something
follows on the stream.  See `stream_framing`.) -/
def Delivers {σ : Type} (w : Wr) (dec : Step σ) (s x : σ) : Prop :=
  ∀ (plan : List (Option (Nat × Err))) (h : Header) (before after : List Request)
    (F : Err) (r : Rd) (tail : Bytes),
    (∀ q ∈ before ++ after, ∃ b, q.body.Yields b) →
    (sendBatch (.new plan) (before ++ requestFor h w :: after)).1 = none →
    r.Ok F → r.Sep ∨ tail ≠ [] →
    r.content = (sendBatch (.new plan) (before ++ requestFor h w :: after)).2.tr.out ++ tail →
    ∃ (q : Request) (b : Bytes),
      (receiveN (before.length + (1 + after.length)) r).1[before.length]? = some (some q, none) ∧
      q.header.version = h.version ∧ q.header.type = h.type ∧
      q.header.transaction = h.transaction ∧ q.header.length.toNat = 8 + b.length ∧
      q.body = .buffer b ∧ q.contentLength = b.length ∧
      ∀ rb : Rd, rb.Ok .eof → rb.content = b →
        (dec s rb).val = x ∧ (dec s rb).err = none ∧ (dec s rb).n = b.length ∧
          (dec s rb).rd.content = []

/-! ## The message of a request -/

theorem send_message (q : Request) (b : Bytes) (h : q.body.Yields b)
    (hs : (ConnOp.send q).Serialises) :
    8 + b.length ≤ 65535 ∧ (ConnOp.send q).message =
      Header.bytes { q.header with length := UInt16.ofNat (8 + b.length) } ++ b := by
  obtain ⟨q', _, ⟨hl, hw⟩ | ⟨hl, hw⟩⟩ := q.writeTo_yields Conn.write b (BW.new []) h
  · refine ⟨hl, ?_⟩
    generalize hm : Header.bytes { q.header with length := UInt16.ofNat (8 + b.length) } ++ b = msg at hw
    have hne : msg ≠ [] := by
      intro hc; rw [hc] at hm; have := congrArg List.length hm; simp [Header.bytes_length] at this
    have hr : ConnOp.run (.new []) (.send q) = (((BW.new []).write msg).2.1, ((BW.new []).write msg).2.2) := by
      simp only [ConnOp.run, Conn.send, hw, bufWriteTo_conn _ msg hne]
    obtain ⟨_, o2, _, o4⟩ := op_took (.send q) (.new [])
    have he := (o4 rfl rfl).1
    rw [hr] at he
    simp only [ConnOp.message, hr]
    rw [(((BW.new []).write_took msg).1.ok he).2]
    simp [BW.new]
  · simp [ConnOp.Serialises, ConnOp.run, Conn.send, hw] at hs

/-- C47.  A successful send implies that the message fits the 16-bit length field: every
request of the batch was at most 65535 bytes long. -/
theorem send_fits (c : BW) (qs : List Request) (h : (sendBatch c qs).1 = none) (q : Request)
    (hq : q ∈ qs) (b : Bytes) (hb : q.body.Yields b) : 8 + b.length ≤ 65535 :=
  (send_message q b hb ((sendBatch_success_partial c qs h).1 q hq)).1

private theorem pairs : ∀ qs : List Request, (∀ q ∈ qs, ∃ b, q.body.Yields b) →
    ∃ ps : List (Request × Bytes), ps.map (·.1) = qs ∧ ∀ p ∈ ps, p.1.body.Yields p.2
  | [], _ => ⟨[], rfl, by simp⟩
  | q :: t, h => by
    obtain ⟨b, hb⟩ := h q (by simp)
    obtain ⟨ps, h1, h2⟩ := pairs t (fun x hx => h x (by simp [hx]))
    refine ⟨(q, b) :: ps, by simp [h1], ?_⟩
    intro p hp
    rcases List.mem_cons.1 hp with rfl | hp
    · exact hb
    · exact h2 p hp

/-- What a successful batch put on the wire is what C03 is about. -/
theorem sent_stream (plan : List (Option (Nat × Err))) (qs : List (Request × Bytes))
    (hyq : ∀ p ∈ qs, p.1.body.Yields p.2) (hsend : (sendBatch (.new plan) (qs.map (·.1))).1 = none) :
    (∀ p ∈ qs, p.1.body.Yields p.2 ∧ 8 + p.2.length ≤ 65535) ∧
    serialise (qs.map (·.1)) = (sendBatch (.new plan) (qs.map (·.1))).2.tr.out := by
  obtain ⟨s1, s2, _⟩ := sendBatch_success_partial _ _ hsend
  have hfit : ∀ p ∈ qs, p.1.body.Yields p.2 ∧ 8 + p.2.length ≤ 65535 := fun p hp =>
    ⟨hyq p hp, (send_message p.1 p.2 (hyq p hp) (s1 p.1 (List.mem_map_of_mem hp))).1⟩
  refine ⟨hfit, ?_⟩
  · rw [serialise, foldl_recorder qs hfit, s2]
    simp only [BW.new, List.nil_append, List.flatMap_map]
    rw [List.flatMap_def]
    congr 1
    exact List.map_congr_left fun p hp =>
      (send_message p.1 p.2 (hyq p hp) (s1 p.1 (List.mem_map_of_mem hp))).2.symm

/-- C47, for any message.  Its serialiser has to succeed and to report what it wrote, and
its bytes have to decode to `x` whenever the message is not longer than 65535 bytes. -/
theorem deliver {σ : Type} {w : Wr} {dec : Step σ} {s x : σ} (he : Encodes w)
    (hd : 8 + w.out.length ≤ 65535 → DecodesAllFrom dec s w.out x) : Delivers w dec s x := by
  intro plan h before after F r tail hy hsend hr hsep hc
  obtain ⟨pb, hb1, hb2⟩ := pairs before (fun q hq => hy q (by simp [hq]))
  obtain ⟨pa, ha1, ha2⟩ := pairs after (fun q hq => hy q (by simp [hq]))
  subst hb1 ha1
  have hw : (requestFor h w).body.Yields w.out := by
    show w = _
    obtain ⟨e1, e2⟩ := he
    cases w; simp_all
  let qs : List (Request × Bytes) := pb ++ (requestFor h w, w.out) :: pa
  have hqs : pb.map (·.1) ++ requestFor h w :: pa.map (·.1) = qs.map (·.1) := by simp [qs]
  rw [hqs] at hsend hc
  have hyq : ∀ p ∈ qs, p.1.body.Yields p.2 := by
    intro p hp
    simp only [qs, List.mem_append, List.mem_cons] at hp
    rcases hp with hp | rfl | hp
    · exact hb2 p hp
    · exact hw
    · exact ha2 p hp
  obtain ⟨hfit, hser⟩ := sent_stream plan qs hyq hsend
  rw [← hser] at hc
  have key : (receiveN qs.length r).1 = qs.map (fun p => (some ⟨
        { p.1.header with length := UInt16.ofNat (8 + p.2.length) }, .buffer p.2, 1,
        (p.1.header.version - 1).toNat, p.2.length⟩, none)) := by
    rcases hsep with hs | ht
    · exact (stream_framing F qs hfit r tail hr hs hc).1
    · exact (stream_framing_followed F qs hfit r tail hr ht hc).1
  have hlen : qs.length = (pb.map (·.1)).length + (1 + (pa.map (·.1)).length) := by
    simp [qs]; omega
  have hl := (hfit (requestFor h w, w.out) (by simp [qs])).2
  refine ⟨⟨{ h with length := UInt16.ofNat (8 + w.out.length) }, .buffer w.out, 1,
    (h.version - 1).toNat, w.out.length⟩, w.out, ?_, rfl, rfl, rfl, u16_ofNat_toNat hl, rfl, rfl, ?_⟩
  · rw [← hlen, key]
    simp [qs, requestFor]
  · intro rb hrb hcb
    obtain ⟨d1, d2, d3, d4⟩ := hd hl rb hrb hcb
    exact ⟨d1, d3, d2, d4⟩

theorem decodes_all {σ : Type} {dec : Step σ} {bs : Bytes} {x : σ} (h : Decodes dec bs x) (s : σ) :
    DecodesAllFrom dec s bs x := fun r hr hc => h s r [] hr (by simpa using hc)

theorem decodesFrom_all {σ : Type} {dec : Step σ} {bs : Bytes} {s x : σ} (h : DecodesFrom dec s bs x) :
    DecodesAllFrom dec s bs x := fun r hr hc => h r [] hr (by simpa using hc)

theorem decodesAll_from {σ : Type} {dec : Step σ} {bs : Bytes} {x : σ} (h : DecodesAll dec bs x) (s : σ) :
    DecodesAllFrom dec s bs x := fun r hr hc => h s r hr hc

private theorem mem_length {α : Type} (f : α → Bytes) {x : α} {l : List α} (h : x ∈ l) :
    (f x).length ≤ (l.flatMap f).length := by
  induction l with
  | nil => simp at h
  | cons y t ih =>
    rcases List.mem_cons.1 h with rfl | h
    · simp
    · have := ih h; simp only [List.flatMap_cons, List.length_append]; omega

/-! ## Messages with a fixed layout -/

/-- C47. -/
theorem aggregateStats_delivered (x s : AggregateStats) : Delivers x.writeTo AggregateStats.readFrom s x :=
  deliver (aggregateStats_roundtrip x).1 fun _ => decodes_all (aggregateStats_roundtrip x).2 s

/-- C47. -/
theorem switchFeatures_delivered (x s : SwitchFeatures) : Delivers x.writeTo SwitchFeatures.readFrom s x :=
  deliver (switchFeatures_roundtrip x).1 fun _ => decodes_all (switchFeatures_roundtrip x).2 s

/-- C47. -/
theorem switchConfig_delivered (x s : SwitchConfig) : Delivers x.writeTo SwitchConfig.readFrom s x :=
  deliver (switchConfig_roundtrip x).1 fun _ => decodes_all (switchConfig_roundtrip x).2 s

/-- C47. -/
theorem multipartReply_delivered (x s : MultipartReply) : Delivers x.writeTo MultipartReply.readFrom s x :=
  deliver (multipartReply_roundtrip x).1 fun _ => decodes_all (multipartReply_roundtrip x).2 s

/-- C47. -/
theorem experimenterMultipartHeader_delivered (x s : ExperimenterMultipartHeader) : Delivers x.writeTo ExperimenterMultipartHeader.readFrom s x :=
  deliver (experimenterMultipartHeader_roundtrip x).1 fun _ => decodes_all (experimenterMultipartHeader_roundtrip x).2 s

/-- C47. -/
theorem experimenter_delivered (x s : Experimenter) : Delivers x.writeTo Experimenter.readFrom s x :=
  deliver (experimenter_roundtrip x).1 fun _ => decodes_all (experimenter_roundtrip x).2 s

/-- C47. -/
theorem roleRequest_delivered (x s : RoleRequest) : Delivers x.writeTo RoleRequest.readFrom s x :=
  deliver (roleRequest_roundtrip x).1 fun _ => decodes_all (roleRequest_roundtrip x).2 s

/-- C47. -/
theorem asyncConfig_delivered (x s : AsyncConfig) : Delivers x.writeTo AsyncConfig.readFrom s x :=
  deliver (asyncConfig_roundtrip x).1 fun _ => decodes_all (asyncConfig_roundtrip x).2 s

/-- C47. -/
theorem tableMod_delivered (x s : TableMod) : Delivers x.writeTo TableMod.readFrom s x :=
  deliver (tableMod_roundtrip x).1 fun _ => decodes_all (tableMod_roundtrip x).2 s

/-- C47. -/
theorem tableStats_delivered (x s : TableStats) : Delivers x.writeTo TableStats.readFrom s x :=
  deliver (tableStats_roundtrip x).1 fun _ => decodes_all (tableStats_roundtrip x).2 s

/-- C47. -/
theorem portStatsRequest_delivered (x s : PortStatsRequest) : Delivers x.writeTo PortStatsRequest.readFrom s x :=
  deliver (portStatsRequest_roundtrip x).1 fun _ => decodes_all (portStatsRequest_roundtrip x).2 s

/-- C47. -/
theorem portStats_delivered (x s : PortStats) : Delivers x.writeTo PortStats.readFrom s x :=
  deliver (portStats_roundtrip x).1 fun _ => decodes_all (portStats_roundtrip x).2 s

/-- C47. -/
theorem meterConfigRequest_delivered (x s : MeterConfigRequest) : Delivers x.writeTo MeterConfigRequest.readFrom s x :=
  deliver (meterConfigRequest_roundtrip x).1 fun _ => decodes_all (meterConfigRequest_roundtrip x).2 s

/-- C47. -/
theorem meterFeatures_delivered (x s : MeterFeatures) : Delivers x.writeTo MeterFeatures.readFrom s x :=
  deliver (meterFeatures_roundtrip x).1 fun _ => decodes_all (meterFeatures_roundtrip x).2 s

/-- C47. -/
theorem meterBandStats_delivered (x s : MeterBandStats) : Delivers x.writeTo MeterBandStats.readFrom s x :=
  deliver (meterBandStats_roundtrip x).1 fun _ => decodes_all (meterBandStats_roundtrip x).2 s

/-- C47. -/
theorem meterStatsRequest_delivered (x s : MeterStatsRequest) : Delivers x.writeTo MeterStatsRequest.readFrom s x :=
  deliver (meterStatsRequest_roundtrip x).1 fun _ => decodes_all (meterStatsRequest_roundtrip x).2 s

/-- C47. -/
theorem groupStatsRequest_delivered (x s : GroupStatsRequest) : Delivers x.writeTo GroupStatsRequest.readFrom s x :=
  deliver (groupStatsRequest_roundtrip x).1 fun _ => decodes_all (groupStatsRequest_roundtrip x).2 s

/-- C47. -/
theorem bucketCounter_delivered (x s : BucketCounter) : Delivers x.writeTo BucketCounter.readFrom s x :=
  deliver (bucketCounter_roundtrip x).1 fun _ => decodes_all (bucketCounter_roundtrip x).2 s

/-- C47. -/
theorem groupFeatures_delivered (x s : GroupFeatures) : Delivers x.writeTo GroupFeatures.readFrom s x :=
  deliver (groupFeatures_roundtrip x).1 fun _ => decodes_all (groupFeatures_roundtrip x).2 s

/-- C47. -/
theorem queueStatsRequest_delivered (x s : QueueStatsRequest) : Delivers x.writeTo QueueStatsRequest.readFrom s x :=
  deliver (queueStatsRequest_roundtrip x).1 fun _ => decodes_all (queueStatsRequest_roundtrip x).2 s

/-- C47. -/
theorem queueStats_delivered (x s : QueueStats) : Delivers x.writeTo QueueStats.readFrom s x :=
  deliver (queueStats_roundtrip x).1 fun _ => decodes_all (queueStats_roundtrip x).2 s

/-- C47. -/
theorem queueGetConfigRequest_delivered (x s : QueueGetConfigRequest) : Delivers x.writeTo QueueGetConfigRequest.readFrom s x :=
  deliver (queueGetConfigRequest_roundtrip x).1 fun _ => decodes_all (queueGetConfigRequest_roundtrip x).2 s

/-! ## Messages with a payload -/

/-- C47.  Any payload. -/
theorem echoRequest_delivered (x s : EchoRequest) : Delivers x.writeTo EchoRequest.readFrom s x :=
  deliver (echoRequest_roundtrip x).2.1 fun _ => decodesAll_from (echoRequest_roundtrip x).2.2 s

theorem echoReply_delivered (x s : EchoReply) : Delivers x.writeTo EchoReply.readFrom s x :=
  deliver (echoReply_roundtrip x).2.1 fun _ => decodesAll_from (echoReply_roundtrip x).2.2 s

theorem error_delivered (x s : OfpError) : Delivers x.writeTo OfpError.readFrom s x :=
  deliver (error_roundtrip x).2.1 fun _ => decodesAll_from (error_roundtrip x).2.2 s

theorem errorExperimenter_delivered (x s : ErrorExperimenter) :
    Delivers x.writeTo ErrorExperimenter.readFrom s x :=
  deliver (errorExperimenter_roundtrip x).2.1 fun _ => decodesAll_from (errorExperimenter_roundtrip x).2.2 s

/-- C47.  A multipart request carrying any serialisable body. -/
theorem multipartRequest_delivered (t : UInt16) (w : Option Wr) (hw : ∀ x, w = some x → x.err = none)
    (s : MultipartRequest) :
    Delivers (newMultipartRequest t w).writeTo MultipartRequest.readFrom s
      ⟨t, 0, .buffer ((w.map Wr.out).getD [])⟩ :=
  deliver (multipartRequest_roundtrip t w hw).1 fun _ =>
    decodesAll_from (multipartRequest_roundtrip t w hw).2.2 s

/-! ## Messages with matches, actions and instructions

The fields have to be representable (`XM.Valid`: a seven-bit type, at most 255 bytes of
value and mask, a mask as long as the value), nothing is assumed about sizes: that the
lengths inside the message have not overflowed follows from the success of the send. -/

/-- The extensible matches of an action. -/
def Action.xms : Action → List XM
  | .setField x => [x]
  | _ => []

/-- The extensible matches inside the actions of an instruction. -/
def Instruction.xms : Instruction → List XM
  | .writeActions as => as.flatMap Action.xms
  | .applyActions as => as.flatMap Action.xms
  | _ => []

private theorem action_valid {a : Action} (h : ∀ x ∈ Action.xms a, x.Valid) : a.Valid := by
  cases a <;> simp_all [Action.xms, Action.Valid]

private theorem match_valid {m : Match} (h : ∀ x ∈ m.fields, x.Valid)
    (hl : m.writeTo.out.length ≤ 65535) : m.Valid := by
  rw [Match.writeTo_eq] at hl
  simp only [Match.bytes_length] at hl
  exact ⟨h, by rw [← Match.fieldBytes_length]; omega⟩

private theorem instruction_valid {i : Instruction} (h : ∀ x ∈ Instruction.xms i, x.Valid)
    (hl : i.writeTo.out.length ≤ 65535) : i.Valid := by
  have hl' : i.size ≤ 65535 := by rw [← Instruction.bytes_length]; exact hl
  cases i <;> simp_all only [Instruction.xms, Instruction.Valid, Instruction.size, List.mem_flatMap]
  all_goals
    refine ⟨fun a ha => action_valid fun x hx => h x ⟨a, ha, hx⟩, trivial⟩

/-- C47.  Flow modifications. -/
theorem flowMod_delivered (f s : FlowMod) (hm : ∀ x ∈ f.mtch.fields, x.Valid)
    (hi : ∀ i ∈ f.instructions, ∀ x ∈ Instruction.xms i, x.Valid) :
    Delivers f.writeTo FlowMod.readFrom s f := by
  refine deliver (by rw [FlowMod.out_eq]; simp [Encodes]; omega) fun hl => ?_
  rw [FlowMod.out_eq] at hl
  simp at hl
  refine decodesAll_from (flowMod_roundtrip f (match_valid hm ?_) fun i h =>
    instruction_valid (hi i h) ?_).2 s
  · rw [Match.writeTo_eq]; simp only; omega
  · have := mem_length Instruction.bytes h
    rw [Instruction.writeTo_eq]
    simp only [Instructions.bytes] at hl ⊢
    omega

/-- Non-vacuity. -/
example : ∃ f : FlowMod, (∀ x ∈ f.mtch.fields, x.Valid) ∧
    (∀ i ∈ f.instructions, ∀ x ∈ Instruction.xms i, x.Valid) ∧ f.mtch.fields ≠ [] ∧
    f.instructions.flatMap Instruction.xms ≠ [] :=
  ⟨⟨1, 2, 3, 4, 5, 6, 7, 8, 9, 10, 11, ⟨1, [⟨0x8000, 1, [1, 2], [3, 4]⟩]⟩,
    [.applyActions [.setField ⟨0x8000, 2, [5], []⟩, .output 3 4], .gotoTable 5]⟩, by decide⟩

/-- C47.  Flow removals. -/
theorem flowRemoved_delivered (f s : FlowRemoved) (hm : ∀ x ∈ f.mtch.fields, x.Valid) :
    Delivers f.writeTo FlowRemoved.readFrom s f := by
  refine deliver (by simp [Encodes, FlowRemoved.writeTo, Enc.writeTo, Enc.gather, Match.writeTo_eq])
    fun hl => decodes_all (flowRemoved_roundtrip f (match_valid hm ?_)).2 s
  simp [FlowRemoved.writeTo, Enc.writeTo, Enc.gather, Match.writeTo_eq] at hl ⊢
  omega

/-- C47.  Flow statistics requests. -/
theorem flowStatsRequest_delivered (f s : FlowStatsRequest) (hm : ∀ x ∈ f.mtch.fields, x.Valid) :
    Delivers f.writeTo FlowStatsRequest.readFrom s f := by
  refine deliver (by simp [Encodes, FlowStatsRequest.writeTo, Enc.writeTo, Enc.gather, Match.writeTo_eq])
    fun hl => decodes_all (flowStatsRequest_roundtrip f (match_valid hm ?_)).2 s
  simp [FlowStatsRequest.writeTo, Enc.writeTo, Enc.gather, Match.writeTo_eq] at hl ⊢
  omega

/-- C47.  Aggregate statistics requests. -/
theorem aggregateStatsRequest_delivered (f s : AggregateStatsRequest)
    (hm : ∀ x ∈ f.mtch.fields, x.Valid) :
    Delivers f.writeTo AggregateStatsRequest.readFrom s f := by
  refine deliver (by simp [Encodes, AggregateStatsRequest.writeTo, Enc.writeTo, Enc.gather, Match.writeTo_eq])
    fun hl => decodes_all (aggregateStatsRequest_roundtrip f (match_valid hm ?_)).2 s
  simp [AggregateStatsRequest.writeTo, Enc.writeTo, Enc.gather, Match.writeTo_eq] at hl ⊢
  omega

/-- C47.  A flow statistics entry. -/
theorem flowStats_delivered (f s : FlowStats) (hm : ∀ x ∈ f.mtch.fields, x.Valid)
    (hi : ∀ i ∈ f.instructions, ∀ x ∈ Instruction.xms i, x.Valid) :
    Delivers f.writeTo FlowStats.readFrom s f := by
  have hlen : f.writeTo.out.length = 48 + f.mtch.bytes.length + (Instructions.bytes f.instructions).length := by
    rw [FlowStats.out_eq]; simp; omega
  have hsz : f.size = f.writeTo.out.length := by
    rw [hlen]; simp [FlowStats.size, Match.writeTo_eq, Instructions.writeTo_eq]
  refine deliver (by rw [FlowStats.out_eq] at hsz ⊢; exact ⟨rfl, hsz⟩) fun hl => ?_
  refine decodes_all (flowStats_roundtrip f (match_valid hm ?_) (fun i h =>
    instruction_valid (hi i h) ?_) (by omega)).2 s
  · rw [Match.writeTo_eq]; simp only; omega
  · have := mem_length Instruction.bytes h
    rw [Instruction.writeTo_eq]
    simp only [Instructions.bytes] at hlen ⊢
    omega

/-- C47.  Packet-in. -/
theorem packetIn_delivered (p s : PacketIn) (hm : ∀ x ∈ p.mtch.fields, x.Valid) :
    Delivers p.writeTo PacketIn.readFrom s p := by
  refine deliver (by rw [PacketIn.out_eq]; simp [Encodes]; omega)
    fun hl => decodesAll_from (packetIn_roundtrip p (match_valid hm ?_)).2 s
  rw [PacketIn.out_eq] at hl
  simp [Match.writeTo_eq] at hl ⊢
  omega

/-- C47.  Packet-out. -/
theorem packetOut_delivered (p s : PacketOut) (ha : ∀ x ∈ p.actions.flatMap Action.xms, x.Valid) :
    Delivers p.writeTo PacketOut.readFrom s p := by
  refine deliver (by rw [PacketOut.out_eq]; simp [Encodes]; omega)
    fun hl => decodesAll_from (packetOut_roundtrip p (fun a h => action_valid fun x hx =>
      ha x (List.mem_flatMap.2 ⟨a, h, hx⟩)) ?_).2 s
  rw [PacketOut.out_eq] at hl
  simp at hl
  show (Actions.bytes p.actions).length ≤ 65535
  omega

/-! ## Messages of which a part is lost on the way (see C29 - C35) -/

/-- C47.  Group modifications arrive without their buckets. -/
theorem groupMod_delivered_partial (g s : GroupMod)
    (hb : ∀ b ∈ g.buckets, ∀ x ∈ b.actions.flatMap Action.xms, x.Valid) :
    Delivers g.writeTo GroupMod.readFrom s { g with buckets := s.buckets } := by
  refine deliver (by rw [GroupMod.out_eq]; simp [Encodes]; omega)
    fun hl => groupMod_roundtrip_partial g s fun b h => ⟨fun a h' => action_valid fun x hx =>
      hb b h x (List.mem_flatMap.2 ⟨a, h', hx⟩), ?_⟩
  rw [GroupMod.out_eq] at hl
  simp [Buckets.bytes] at hl
  have := mem_length Bucket.bytes h
  simp at this
  show b.bytes.length ≤ 65535
  omega

/-- C47.  Meter modifications arrive without their bands. -/
theorem meterMod_delivered_partial (m s : MeterMod) :
    Delivers m.writeTo MeterMod.readFrom s { m with bands := s.bands } :=
  deliver (by rw [MeterMod.out_eq]; simp [Encodes]; omega) fun _ => meterMod_roundtrip_partial m s

/-- C47.  Queue configurations arrive without their queues. -/
theorem queueGetConfigReply_delivered_partial (q s : QueueGetConfigReply) :
    Delivers q.writeTo QueueGetConfigReply.readFrom s { q with queues := s.queues } := by
  refine deliver (queueGetConfigReply_layout q).1 fun hl =>
    queueGetConfigReply_roundtrip_partial q s fun p hp => ?_
  have := mem_length PacketQueue.bytes hp
  rw [QueueGetConfigReply.out_eq] at hl
  simp [PacketQueues.bytes] at hl this
  show p.bytes.length ≤ 65535
  omega

/-- C47.  Hello messages arrive without their elements. -/
theorem hello_delivered_partial (h s : Hello) : Delivers h.writeTo Hello.readFrom s s := by
  refine deliver (hello_layout h).1 fun hl => hello_roundtrip_partial h s fun e he => ?_
  have := mem_length HelloElem.bytes he
  rw [Hello.writeTo_eq] at hl
  simp only [HelloElems.bytes] at hl
  show e.bytes.length ≤ 65535
  omega

/-- C47.  Port modifications arrive if the receiver already has a six-byte address. -/
theorem portMod_delivered_partial (p s : PortMod) (hw : p.hwAddr.length = 6)
    (hs : s.hwAddr.length = 6) : Delivers p.writeTo PortMod.readFrom s p := by
  refine deliver (portMod_roundtrip_partial p s hw hs (.src (p.writeTo.out ++ []) [] .eof false) []
    rfl rfl).1 fun _ r hr hc => ?_
  obtain ⟨_, h1, h2, h3, h4⟩ := portMod_roundtrip_partial p s hw hs r [] hr (by simpa using hc)
  have h5 : p.writeTo.out.length = 32 := by rw [PortMod.out_eq]; simp [hw]
  exact ⟨h1, by rw [h3, h5], h2, h4⟩

/-- C47.  Port status messages; the name becomes a field of 16 bytes. -/
theorem portStatus_delivered (p s : PortStatus) (hw : p.port.hwAddr.length = 6) :
    ∃ port : Port, FieldText 16 p.port.name port.name ∧ port = { p.port with name := port.name } ∧
      Delivers p.writeTo PortStatus.readFrom s ⟨p.reason, port⟩ := by
  obtain ⟨he, port, h1, h2, h3⟩ := portStatus_roundtrip p hw
  exact ⟨port, h1, h2, deliver he fun _ => decodes_all h3 s⟩

/-- C47.  A table features entry, without experimenter "miss" properties and with match
properties that have no values (see C36 for why); the name becomes a field of 32 bytes. -/
theorem tableFeatures_delivered_partial (t s : TableFeatures)
    (hp : ∀ p ∈ t.properties, p.expMiss = false ∧
      ∀ x ∈ p.fields, x.value = [] ∧ x.mask = [] ∧ x.type.toNat < 128) :
    ∃ name : Bytes, FieldText 32 t.name name ∧
      Delivers t.writeTo TableFeatures.readFrom s { t with name := name } := by
  have he : Encodes t.writeTo := by
    rw [TableFeatures.out_eq]; simp [Encodes]; omega
  by_cases hl : t.writeTo.out.length ≤ 65535
  · obtain ⟨t', h1, h2, h3⟩ := tableFeatures_roundtrip_partial t hp hl
    exact ⟨t'.name, h2, by rw [← h3]; exact deliver he fun _ => decodes_all h1 s⟩
  · exact ⟨_, copyTo_fieldText 32 t.name, deliver he fun h => absurd h (by omega)⟩

/-- C47.  Switch descriptions; the texts become fields of fixed size. -/
theorem description_delivered (d s : Description) : ∃ d' : Description,
    FieldText 256 d.manufacturer d'.manufacturer ∧ FieldText 256 d.hardware d'.hardware ∧
    FieldText 256 d.software d'.software ∧ FieldText 32 d.serialNum d'.serialNum ∧
    FieldText 256 d.datapath d'.datapath ∧ Delivers d.writeTo Description.readFrom s d' := by
  obtain ⟨d', h1, h2, h3, h4, h5, h6⟩ := description_roundtrip d
  exact ⟨d', h2, h3, h4, h5, h6, deliver (description_layout d).1 fun _ => decodes_all h1 s⟩

/-! ## The converse -/

/-- A single request on a transport that never fails is sent. -/
theorem send_one (q : Request) (h : (ConnOp.send q).Serialises) : (sendBatch (.new []) [q]).1 = none := by
  obtain ⟨_, o2, _, o4⟩ := op_took (.send q) (.new [])
  obtain ⟨e1, e2⟩ := o4 rfl rfl
  simp only [ConnOp.Serialises] at h
  rcases hs : Conn.send (.new []) q with ⟨e, b', q'⟩
  simp only [ConnOp.run, hs] at h e1 e2
  subst h
  simp only [sendBatch, hs]
  obtain ⟨_, p2, _, p4⟩ := op_took .flush b'
  have hf : ConnOp.Serialises .flush := by
    simp [ConnOp.Serialises, ConnOp.run, Conn.flush, BW.flush, BW.new]
  have := p2 hf
  rw [(p4 e1 e2).1] at this
  exact this

/-- C47 is exactly the round trip of the body: a message is delivered iff its bytes decode
to it, provided that it fits. -/
theorem delivers_iff {σ : Type} {w : Wr} {dec : Step σ} {s x : σ} (he : Encodes w) :
    Delivers w dec s x ↔ (8 + w.out.length ≤ 65535 → DecodesAllFrom dec s w.out x) := by
  refine ⟨fun hd hl => ?_, deliver he⟩
  have hw : (requestFor .zero w).body.Yields w.out := by
    show w = _
    obtain ⟨e1, e2⟩ := he
    cases w; simp_all
  have hser : (ConnOp.send (requestFor .zero w)).Serialises := by
    obtain ⟨q', _, ⟨_, hw'⟩ | ⟨hl', _⟩⟩ := (requestFor .zero w).writeTo_yields Conn.write w.out (BW.new []) hw
    · generalize hm : Header.bytes { (requestFor .zero w).header with length := UInt16.ofNat (8 + w.out.length) } ++ w.out = msg at hw'
      have hne : msg ≠ [] := by
        intro hc; rw [hc] at hm; have := congrArg List.length hm; simp [Header.bytes_length] at this
      have hr : ConnOp.run (.new []) (.send (requestFor .zero w)) =
          (((BW.new []).write msg).2.1, ((BW.new []).write msg).2.2) := by
        simp only [ConnOp.run, Conn.send, hw', bufWriteTo_conn _ msg hne]
      have he := ((op_took (.send (requestFor .zero w)) (.new [])).2.2.2 rfl rfl).1
      rw [hr] at he
      rw [ConnOp.Serialises, hr]
      exact ((BW.new []).write_took msg).2.1.trans he
    · omega
  have hsend := send_one _ hser
  let r : Rd := .src (sendBatch (.new []) [requestFor .zero w]).2.tr.out [] .eof false
  obtain ⟨q, b, h1, _, _, _, _, h6, _, h8⟩ := hd [] .zero [] [] .eof r [] (by simp) hsend rfl
    (.inl rfl) (by simp [r, Rd.content])
  obtain ⟨hfit, hout⟩ := sent_stream [] [(requestFor .zero w, w.out)] (by simpa using hw) hsend
  have h9 := (stream_framing .eof [(requestFor .zero w, w.out)] hfit r [] rfl rfl (by
    rw [hout]; simp [r, Rd.content])).1
  simp only [List.length_nil, Nat.zero_add, Nat.add_zero] at h1
  simp only [List.length_cons, List.length_nil, Nat.zero_add] at h9
  rw [h9] at h1
  simp only [List.map_cons, List.map_nil, List.getElem?_cons_zero, Option.some.injEq, Prod.mk.injEq, and_true] at h1
  rw [← h1] at h6
  simp only [Body.buffer.injEq] at h6
  intro rb hrb hcb
  obtain ⟨d1, d2, d3, d4⟩ := h8 rb hrb (by rw [hcb, h6])
  exact ⟨d1, by rw [d3, h6], d2, d4⟩

/-! ## What is not delivered -/

/-- C47 fails for group modifications: none with buckets arrives as it was sent. -/
theorem groupMod_delivered_false (g : GroupMod) (hb : g.buckets ≠ []) (hl : 8 + g.writeTo.out.length ≤ 65535) :
    ¬ Delivers g.writeTo GroupMod.readFrom ⟨0, 0, 0, []⟩ g := fun h =>
  groupMod_roundtrip_false g hb ((delivers_iff (by rw [GroupMod.out_eq]; simp [Encodes]; omega)).1 h hl)

/-- C47 fails for meter modifications with bands. -/
theorem meterMod_delivered_false (m : MeterMod) (hb : m.bands ≠ []) (hl : 8 + m.writeTo.out.length ≤ 65535) :
    ¬ Delivers m.writeTo MeterMod.readFrom ⟨0, 0, 0, []⟩ m := fun h =>
  meterMod_roundtrip_false m hb ((delivers_iff (by rw [MeterMod.out_eq]; simp [Encodes]; omega)).1 h hl)

/-- C47 fails for queue configurations with queues. -/
theorem queueGetConfigReply_delivered_false (q : QueueGetConfigReply) (hq : q.queues ≠ [])
    (hl : 8 + q.writeTo.out.length ≤ 65535) :
    ¬ Delivers q.writeTo QueueGetConfigReply.readFrom ⟨0, []⟩ q := fun h =>
  queueGetConfigReply_roundtrip_false q hq ((delivers_iff (queueGetConfigReply_layout q).1).1 h hl)

/-- C47 fails for hello messages with elements. -/
theorem hello_delivered_false (h : Hello) (he : h.elements ≠ []) (hl : 8 + h.writeTo.out.length ≤ 65535) :
    ¬ Delivers h.writeTo Hello.readFrom ⟨[]⟩ h := fun hd =>
  hello_roundtrip_false h he ((delivers_iff (hello_layout h).1).1 hd hl)

/-- C47 fails for port modifications and the zero receiver. -/
theorem portMod_delivered_false (p : PortMod) (a b c d e f : UInt8) (hw : p.hwAddr = [a, b, c, d, e, f]) :
    ¬ Delivers p.writeTo PortMod.readFrom PortMod.zero p := by
  have hl : p.writeTo.out.length = 32 := by rw [PortMod.out_eq]; simp [hw]
  intro h
  have he : Encodes p.writeTo := by rw [PortMod.out_eq]; simp [Encodes, hw]
  have h1 := (delivers_iff he).1 h (by omega) (.src p.writeTo.out [] .eof false) rfl rfl
  have h2 := portMod_zero_fails p a b c d e f hw (.src p.writeTo.out [] .eof false) [] rfl
    (by simp [Rd.content])
  have h3 := h2.2.2.1
  rw [h1.1, hw] at h3
  exact absurd h3 (by simp)

/-- Non-vacuity: messages with something to lose that fit. -/
example : (∃ g : GroupMod, g.buckets ≠ [] ∧ 8 + g.writeTo.out.length ≤ 65535) ∧
    (∃ m : MeterMod, m.bands ≠ [] ∧ 8 + m.writeTo.out.length ≤ 65535) ∧
    (∃ q : QueueGetConfigReply, q.queues ≠ [] ∧ 8 + q.writeTo.out.length ≤ 65535) ∧
    (∃ h : Hello, h.elements ≠ [] ∧ 8 + h.writeTo.out.length ≤ 65535) :=
  ⟨⟨⟨0, 1, 2, [⟨1, 2, 3, [.output 4 0]⟩]⟩, by decide⟩, ⟨⟨0, 1, 2, [.drop 1 2]⟩, by decide⟩,
    ⟨⟨1, [⟨1, 2, [.minRate 1]⟩]⟩, by decide⟩, ⟨⟨[.versionBitmap [0x12]]⟩, by decide⟩⟩

/-- Non-vacuity of `Delivers`: a batch of three requests, of which the second is a flow
modification, is sent, and its nine fields come out of a reader that delivers three bytes,
then one, then the rest. -/
example :
    let f : FlowMod := ⟨1, 2, 3, 4, 5, 6, 7, 8, 9, 10, 11, ⟨1, [⟨0x8000, 1, [1, 2], [3, 4]⟩]⟩,
      [.applyActions [.setField ⟨0x8000, 2, [5], []⟩, .output 3 4], .gotoTable 5]⟩
    let batch := [newRequest 2 none] ++ requestFor ⟨4, 14, 0, 77⟩ f.writeTo :: [newRequest 20 none]
    (sendBatch (.new []) batch).1 = none ∧
    ((receiveN 3 (.src (sendBatch (.new []) batch).2.tr.out [2, 0] .eof false)).1.map fun p =>
      p.1.map fun q => (q.header.type, q.header.transaction, q.contentLength)) =
        [some (2, 0, 0), some (14, 77, 104), some (20, 0, 0)] := by decide +kernel

end Verif.Props
