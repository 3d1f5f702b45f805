import Verif.Ofp.Flow
import Verif.Ofp.Packet
import Verif.Ofp.Port
import Verif.Ofp.Group
import Verif.Ofp.Meter
import Verif.Ofp.Queue
import Verif.Ofp.Hello
import Verif.Ofp.Table
import Verif.Ofp.Raw
import Verif.Ofp.Fixed
import Verif.Header

/-!
# Writing messages to any `io.Writer`

Elsewhere the encoders write to a buffer, which takes everything.  Here the destination is any
`io.Writer`, which may take a part and fail.
-/

namespace Verif

/-- The end of a `WriteTo(w)` method that calls `encoding.WriteTo(w, ...)` once
(internal/encoding/encoding.go:66-88), where `r` is what the method does to a buffer: if a part
cannot be encoded nothing is written, otherwise all of it by one `Write`. -/
def Wr.toDst {ω : Type} (w : Dst ω) (r : Wr) (s : ω) : Nat × Option Err × ω :=
  match r.err with
  | some e => (r.n, some e, s)
  | none => bufWriteTo w r.out s

/-- Writes one after the other with the counts added, until one fails: `encoding.WriteSliceTo`,
internal/encoding/encoding.go:120-143, and the methods that write in several steps. -/
def seqDst {ω : Type} : List (ω → Nat × Option Err × ω) → ω → Nat × Option Err × ω
  | [], s => (0, none, s)
  | p :: t, s =>
    match p s with
    | (n, some e, s') => (n, some e, s')
    | (n, none, s') =>
      let r := seqDst t s'
      (n + r.1, r.2.1, r.2.2)

/-! ## Methods that call `encoding.WriteTo` once -/

/-- `(xm *XM) WriteTo`, ofp/match.go:389-401. -/
def XM.writeToDst {ω : Type} (w : Dst ω) (x : XM) : ω → Nat × Option Err × ω :=
  x.writeTo.toDst w

/-- `(m *Match) WriteTo`, ofp/match.go:497-513. -/
def Match.writeToDst {ω : Type} (w : Dst ω) (x : Match) : ω → Nat × Option Err × ω :=
  x.writeTo.toDst w

/-- The `WriteTo` methods of the actions, ofp/action.go:239-567 and 606-636. -/
def Action.writeToDst {ω : Type} (w : Dst ω) (x : Action) : ω → Nat × Option Err × ω :=
  x.writeTo.toDst w

/-- `(a *Actions) WriteTo`, ofp/action.go:186-193. -/
def Actions.writeToDst {ω : Type} (w : Dst ω) (x : List Action) : ω → Nat × Option Err × ω :=
  (Actions.writeTo x).toDst w

/-- The `WriteTo` methods of the instructions, ofp/instruction.go:157-335 and 205-220. -/
def Instruction.writeToDst {ω : Type} (w : Dst ω) (x : Instruction) : ω → Nat × Option Err × ω :=
  x.writeTo.toDst w

/-- `(i *Instructions) WriteTo`, ofp/instruction.go:108-119. -/
def Instructions.writeToDst {ω : Type} (w : Dst ω) (x : List Instruction) : ω → Nat × Option Err × ω :=
  (Instructions.writeTo x).toDst w

/-- `(f *FlowMod) WriteTo`, ofp/flow.go:225-231. -/
def FlowMod.writeToDst {ω : Type} (w : Dst ω) (x : FlowMod) : ω → Nat × Option Err × ω :=
  x.writeTo.toDst w

/-- `(f *FlowRemoved) WriteTo`, ofp/flow.go:321-326. -/
def FlowRemoved.writeToDst {ω : Type} (w : Dst ω) (x : FlowRemoved) : ω → Nat × Option Err × ω :=
  x.writeTo.toDst w

/-- `(f *FlowStatsRequest) WriteTo`, ofp/flow.go:393-397. -/
def FlowStatsRequest.writeToDst {ω : Type} (w : Dst ω) (x : FlowStatsRequest) : ω → Nat × Option Err × ω :=
  x.writeTo.toDst w

/-- `(a *AggregateStatsRequest) WriteTo`, ofp/aggregate.go:67-71. -/
def AggregateStatsRequest.writeToDst {ω : Type} (w : Dst ω) (x : AggregateStatsRequest) : ω → Nat × Option Err × ω :=
  x.writeTo.toDst w

/-- `(f *FlowStats) WriteTo`, ofp/flow.go:462-476. -/
def FlowStats.writeToDst {ω : Type} (w : Dst ω) (x : FlowStats) : ω → Nat × Option Err × ω :=
  x.writeTo.toDst w

/-- `(p *PacketIn) WriteTo`, ofp/packet.go:105-108. -/
def PacketIn.writeToDst {ω : Type} (w : Dst ω) (x : PacketIn) : ω → Nat × Option Err × ω :=
  x.writeTo.toDst w

/-- `(p *PacketOut) WriteTo`, ofp/packet.go:155-167. -/
def PacketOut.writeToDst {ω : Type} (w : Dst ω) (x : PacketOut) : ω → Nat × Option Err × ω :=
  x.writeTo.toDst w

/-- `(p *Port) WriteTo`, ofp/port.go:295-303. -/
def Port.writeToDst {ω : Type} (w : Dst ω) (x : Port) : ω → Nat × Option Err × ω :=
  x.writeTo.toDst w

/-- `(p *PortMod) WriteTo`, ofp/port.go:382-386. -/
def PortMod.writeToDst {ω : Type} (w : Dst ω) (x : PortMod) : ω → Nat × Option Err × ω :=
  x.writeTo.toDst w

/-- `(p *PortStatus) WriteTo`, ofp/port.go:423-425. -/
def PortStatus.writeToDst {ω : Type} (w : Dst ω) (x : PortStatus) : ω → Nat × Option Err × ω :=
  x.writeTo.toDst w

/-- `(b *Bucket) WriteTo`, ofp/group.go:148-160. -/
def Bucket.writeToDst {ω : Type} (w : Dst ω) (x : Bucket) : ω → Nat × Option Err × ω :=
  x.writeTo.toDst w

/-- `(g *GroupStats) WriteTo`, ofp/group.go:243-254. -/
def GroupStats.writeToDst {ω : Type} (w : Dst ω) (x : GroupStats) : ω → Nat × Option Err × ω :=
  x.writeTo.toDst w

/-- `(g *GroupDescStats) WriteTo`, ofp/group.go:320-333. -/
def GroupDescStats.writeToDst {ω : Type} (w : Dst ω) (x : GroupDescStats) : ω → Nat × Option Err × ω :=
  x.writeTo.toDst w

/-- The `WriteTo` methods of the bands, ofp/meter.go:158-230. -/
def MeterBand.writeToDst {ω : Type} (w : Dst ω) (x : MeterBand) : ω → Nat × Option Err × ω :=
  x.writeTo.toDst w

/-- `(m *MeterMod) WriteTo`, ofp/meter.go:277-279. -/
def MeterMod.writeToDst {ω : Type} (w : Dst ω) (x : MeterMod) : ω → Nat × Option Err × ω :=
  x.writeTo.toDst w

/-- `(m *MeterConfig) WriteTo`, ofp/meter.go:325-336. -/
def MeterConfig.writeToDst {ω : Type} (w : Dst ω) (x : MeterConfig) : ω → Nat × Option Err × ω :=
  x.writeTo.toDst w

/-- `(m *MeterStats) WriteTo`, ofp/meter.go:467-483. -/
def MeterStats.writeToDst {ω : Type} (w : Dst ω) (x : MeterStats) : ω → Nat × Option Err × ω :=
  x.writeTo.toDst w

/-- The `WriteTo` methods of the properties, ofp/queue.go:174-232. -/
def QueueProp.writeToDst {ω : Type} (w : Dst ω) (x : QueueProp) : ω → Nat × Option Err × ω :=
  x.writeTo.toDst w

/-- `(q QueueProps) WriteTo`, ofp/queue.go:57-68. -/
def QueueProps.writeToDst {ω : Type} (w : Dst ω) (x : List QueueProp) : ω → Nat × Option Err × ω :=
  (QueueProps.writeTo x).toDst w

/-- `(q *PacketQueue) WriteTo`, ofp/queue.go:113-122. -/
def PacketQueue.writeToDst {ω : Type} (w : Dst ω) (x : PacketQueue) : ω → Nat × Option Err × ω :=
  x.writeTo.toDst w

/-- `(q *QueueGetConfigReply) WriteTo`, ofp/queue.go:353-363. -/
def QueueGetConfigReply.writeToDst {ω : Type} (w : Dst ω) (x : QueueGetConfigReply) : ω → Nat × Option Err × ω :=
  x.writeTo.toDst w

/-- `(h *HelloElemVersionBitmap) WriteTo`, ofp/handshake.go:131-145. -/
def HelloElem.writeToDst {ω : Type} (w : Dst ω) (x : HelloElem) : ω → Nat × Option Err × ω :=
  x.writeTo.toDst w

/-- `(h HelloElems) WriteTo`, ofp/handshake.go:48-58. -/
def HelloElems.writeToDst {ω : Type} (w : Dst ω) (x : List HelloElem) : ω → Nat × Option Err × ω :=
  (HelloElems.writeTo x).toDst w

/-- `(h *Hello) WriteTo`, ofp/handshake.go:101-103. -/
def Hello.writeToDst {ω : Type} (w : Dst ω) (x : Hello) : ω → Nat × Option Err × ω :=
  x.writeTo.toDst w

/-- `(t *TableFeatures) WriteTo`, ofp/table.go:136-155. -/
def TableFeatures.writeToDst {ω : Type} (w : Dst ω) (x : TableFeatures) : ω → Nat × Option Err × ω :=
  x.writeTo.toDst w

/-- `(er *EchoRequest) WriteTo`, ofp/echo.go:25-27. -/
def EchoRequest.writeToDst {ω : Type} (w : Dst ω) (x : EchoRequest) : ω → Nat × Option Err × ω :=
  x.writeTo.toDst w

/-- `(er *EchoReply) WriteTo`, ofp/echo.go:63-65. -/
def EchoReply.writeToDst {ω : Type} (w : Dst ω) (x : EchoReply) : ω → Nat × Option Err × ω :=
  x.writeTo.toDst w

/-- `(e *Error) WriteTo`, ofp/error.go:743-745. -/
def OfpError.writeToDst {ω : Type} (w : Dst ω) (x : OfpError) : ω → Nat × Option Err × ω :=
  x.writeTo.toDst w

/-- `(e *ErrorExperimenter) WriteTo`, ofp/error.go:777-780. -/
def ErrorExperimenter.writeToDst {ω : Type} (w : Dst ω) (x : ErrorExperimenter) : ω → Nat × Option Err × ω :=
  x.writeTo.toDst w

/-- `(d *Description) WriteTo`, ofp/description.go:55-63. -/
def Description.writeToDst {ω : Type} (w : Dst ω) (x : Description) : ω → Nat × Option Err × ω :=
  x.writeTo.toDst w

/-- `(m *MultipartRequest) WriteTo`, ofp/multipart.go:239-242. -/
def MultipartRequest.writeToDst {ω : Type} (w : Dst ω) (x : MultipartRequest) : ω → Nat × Option Err × ω :=
  x.writeTo.toDst w

/-- `(AggregateStats) WriteTo`, ofp/aggregate.go:97-100. -/
def AggregateStats.writeToDst {ω : Type} (w : Dst ω) (x : AggregateStats) : ω → Nat × Option Err × ω :=
  x.writeTo.toDst w

/-- `(SwitchFeatures) WriteTo`, ofp/switch.go:99-103. -/
def SwitchFeatures.writeToDst {ω : Type} (w : Dst ω) (x : SwitchFeatures) : ω → Nat × Option Err × ω :=
  x.writeTo.toDst w

/-- `(SwitchConfig) WriteTo`, ofp/switch.go:131-133. -/
def SwitchConfig.writeToDst {ω : Type} (w : Dst ω) (x : SwitchConfig) : ω → Nat × Option Err × ω :=
  x.writeTo.toDst w

/-- `(MultipartReply) WriteTo`, ofp/multipart.go:272-274. -/
def MultipartReply.writeToDst {ω : Type} (w : Dst ω) (x : MultipartReply) : ω → Nat × Option Err × ω :=
  x.writeTo.toDst w

/-- `(ExperimenterMultipartHeader) WriteTo`, ofp/multipart.go:294-296. -/
def ExperimenterMultipartHeader.writeToDst {ω : Type} (w : Dst ω) (x : ExperimenterMultipartHeader) : ω → Nat × Option Err × ω :=
  x.writeTo.toDst w

/-- `(Experimenter) WriteTo`, ofp/handshake.go:183-185. -/
def Experimenter.writeToDst {ω : Type} (w : Dst ω) (x : Experimenter) : ω → Nat × Option Err × ω :=
  x.writeTo.toDst w

/-- `(RoleRequest) WriteTo`, ofp/handshake.go:242-244. -/
def RoleRequest.writeToDst {ω : Type} (w : Dst ω) (x : RoleRequest) : ω → Nat × Option Err × ω :=
  x.writeTo.toDst w

/-- `(AsyncConfig) WriteTo`, ofp/handshake.go:284-287. -/
def AsyncConfig.writeToDst {ω : Type} (w : Dst ω) (x : AsyncConfig) : ω → Nat × Option Err × ω :=
  x.writeTo.toDst w

/-- `(TableMod) WriteTo`, ofp/table.go:58-60. -/
def TableMod.writeToDst {ω : Type} (w : Dst ω) (x : TableMod) : ω → Nat × Option Err × ω :=
  x.writeTo.toDst w

/-- `(TableStats) WriteTo`, ofp/table.go:87-90. -/
def TableStats.writeToDst {ω : Type} (w : Dst ω) (x : TableStats) : ω → Nat × Option Err × ω :=
  x.writeTo.toDst w

/-- `(PortStatsRequest) WriteTo`, ofp/port.go:452-454. -/
def PortStatsRequest.writeToDst {ω : Type} (w : Dst ω) (x : PortStatsRequest) : ω → Nat × Option Err × ω :=
  x.writeTo.toDst w

/-- `(PortStats) WriteTo`, ofp/port.go:516-522. -/
def PortStats.writeToDst {ω : Type} (w : Dst ω) (x : PortStats) : ω → Nat × Option Err × ω :=
  x.writeTo.toDst w

/-- `(MeterConfigRequest) WriteTo`, ofp/meter.go:296-298. -/
def MeterConfigRequest.writeToDst {ω : Type} (w : Dst ω) (x : MeterConfigRequest) : ω → Nat × Option Err × ω :=
  x.writeTo.toDst w

/-- `(MeterFeatures) WriteTo`, ofp/meter.go:381-384. -/
def MeterFeatures.writeToDst {ω : Type} (w : Dst ω) (x : MeterFeatures) : ω → Nat × Option Err × ω :=
  x.writeTo.toDst w

/-- `(MeterBandStats) WriteTo`, ofp/meter.go:405-407. -/
def MeterBandStats.writeToDst {ω : Type} (w : Dst ω) (x : MeterBandStats) : ω → Nat × Option Err × ω :=
  x.writeTo.toDst w

/-- `(MeterStatsRequest) WriteTo`, ofp/meter.go:424-426. -/
def MeterStatsRequest.writeToDst {ω : Type} (w : Dst ω) (x : MeterStatsRequest) : ω → Nat × Option Err × ω :=
  x.writeTo.toDst w

/-- `(GroupStatsRequest) WriteTo`, ofp/group.go:200-202. -/
def GroupStatsRequest.writeToDst {ω : Type} (w : Dst ω) (x : GroupStatsRequest) : ω → Nat × Option Err × ω :=
  x.writeTo.toDst w

/-- `(BucketCounter) WriteTo`, ofp/group.go:287-289. -/
def BucketCounter.writeToDst {ω : Type} (w : Dst ω) (x : BucketCounter) : ω → Nat × Option Err × ω :=
  x.writeTo.toDst w

/-- `(GroupFeatures) WriteTo`, ofp/group.go:437-440. -/
def GroupFeatures.writeToDst {ω : Type} (w : Dst ω) (x : GroupFeatures) : ω → Nat × Option Err × ω :=
  x.writeTo.toDst w

/-- `(QueueStatsRequest) WriteTo`, ofp/queue.go:269-271. -/
def QueueStatsRequest.writeToDst {ω : Type} (w : Dst ω) (x : QueueStatsRequest) : ω → Nat × Option Err × ω :=
  x.writeTo.toDst w

/-- `(QueueStats) WriteTo`, ofp/queue.go:308-310. -/
def QueueStats.writeToDst {ω : Type} (w : Dst ω) (x : QueueStats) : ω → Nat × Option Err × ω :=
  x.writeTo.toDst w

/-- `(QueueGetConfigRequest) WriteTo`, ofp/queue.go:330-332. -/
def QueueGetConfigRequest.writeToDst {ω : Type} (w : Dst ω) (x : QueueGetConfigRequest) : ω → Nat × Option Err × ω :=
  x.writeTo.toDst w

/-! ## Methods that write in several steps -/

/-- `(m MeterBands) WriteTo`, ofp/meter.go:105-118. -/
def MeterBands.writeToDst {ω : Type} (w : Dst ω) (x : List MeterBand) :
    ω → Nat × Option Err × ω :=
  seqDst (x.map (fun b => b.writeToDst w))

/-- `(g *GroupMod) WriteTo`, ofp/group.go:96-104. -/
def GroupMod.writeToDst {ω : Type} (w : Dst ω) (g : GroupMod) : ω → Nat × Option Err × ω :=
  seqDst [
    Enc.writeToDst w [.bin (be g.command), .bin (be g.type), .bin (zeros 1), .bin (be g.group)],
    seqDst (g.buckets.map (fun b => b.writeToDst w))]

/-- `writeTablePropXM`, ofp/table.go:350-366. -/
def writeTablePropXMDst {ω : Type} (w : Dst ω) (t : UInt16) (xs : List XM) :
    ω → Nat × Option Err × ω :=
  let headerlen := 4 + 4 * xs.length
  seqDst [Enc.writeToDst w [tablePropHeader t headerlen],
    seqDst (xs.map (fun x => x.writeToDst w)),
    Enc.writeToDst w [.bin (zeros (padLen headerlen))]]

/-- The `WriteTo` methods of the properties, as in `TableProp.writeTo`: ofp/table.go:450-467,
524-530, 573-575, 609-611, 633-635, 657-659, 687-689, 723-725, 759-765. -/
def TableProp.writeToDst {ω : Type} (w : Dst ω) (p : TableProp) : ω → Nat × Option Err × ω :=
  match p with
  | .instructions _ is => seqDst [
      Enc.writeToDst w [tablePropHeader p.type (4 + 4 * is.length),
        .bin (is.flatMap (fun i => be i ++ be (4 : UInt16)))],
      Enc.writeToDst w [.bin (zeros (padLen (UInt16.ofNat (4 + 4 * is.length)).toNat))]]
  | .nextTables .. => p.writeTo.toDst w
  | .writeActions .. => p.writeTo.toDst w
  | .applyActions .. => p.writeTo.toDst w
  | .matches xs => writeTablePropXMDst w p.type xs
  | .wildcards xs => writeTablePropXMDst w p.type xs
  | .writeSetField _ xs => writeTablePropXMDst w p.type xs
  | .applySetField _ xs => writeTablePropXMDst w p.type xs
  | .experimenter .. => p.writeTo.toDst w

/-! ## What reaches the destination -/

/-- The contract of `io.Writer`, where `got` is what has reached the destination: `Write` takes
the first bytes of what it is given, says how many, and returns an error if it does not take all. -/
def Dst.Honest {ω : Type} (w : Dst ω) (got : ω → Bytes) : Prop :=
  ∀ s b, (w s b).1 ≤ b.length ∧ got (w s b).2.2 = got s ++ b.take (w s b).1 ∧
    ((w s b).1 < b.length → (w s b).2.1 ≠ none)

/-- A way of writing the encoding `enc` to destinations. -/
abbrev DstWrite := ∀ ⦃ω : Type⦄, Dst ω → ω → Nat × Option Err × ω

/-- Whatever the destination does, a beginning of the encoding reaches it, the count is its
length, success means that all of it did, and an error comes from the encoding or from the
destination.  If the destination takes everything, the result is that of writing to a buffer. -/
structure Reaches (enc : Wr) (p : DstWrite) : Prop where
  part : ∀ {ω : Type} (w : Dst ω) (got : ω → Bytes) (s : ω), w.Honest got →
    (p w s).1 ≤ enc.out.length ∧ got (p w s).2.2 = got s ++ enc.out.take (p w s).1
  success : ∀ {ω : Type} (w : Dst ω) (got : ω → Bytes) (s : ω), w.Honest got →
    (p w s).2.1 = none → enc.err = none ∧ (p w s).1 = enc.out.length
  failure : ∀ {ω : Type} (w : Dst ω) (got : ω → Bytes) (s : ω) (e : Err), w.Honest got →
    (p w s).2.1 = some e → enc.err = some e ∨ ∃ s' b, (w s' b).2.1 = some e
  buffer : ∀ {ω : Type} (w : Dst ω) (got : ω → Bytes) (s : ω), w.Honest got →
    (∀ s b, (w s b).2.1 = none) →
    (p w s).1 = enc.n ∧ (p w s).2.1 = enc.err ∧ got (p w s).2.2 = got s ++ enc.out

/-- There is at most one `Write`, of the whole encoding. -/
def OneWrite (enc : Wr) (p : DstWrite) : Prop :=
  ∀ {ω : Type} (w : Dst ω) (s : ω),
    (p w s).2.2 = s ∧ (enc.err ≠ none ∨ enc.out = []) ∨
      (p w s).2.2 = (w s enc.out).2.2 ∧ enc.err = none ∧ enc.out ≠ []

/-- A result of a method that writes nothing if it fails. -/
def Wr.Whole (r : Wr) : Prop :=
  (∀ e, r.err = some e → r.out = [] ∧ r.n = 0) ∧ (r.err = none → r.n = r.out.length)

theorem Enc.writeTo_whole (v : List WElem) : (Enc.writeTo v).Whole := by
  unfold Enc.writeTo
  split <;> simp [Wr.Whole]

theorem Wr.Whole.fail (e : Err) : Wr.Whole ⟨[], 0, some e⟩ := by simp [Wr.Whole]

theorem Enc.writeToDst_eq {ω : Type} (w : Dst ω) (v : List WElem) :
    Enc.writeToDst w v = (Enc.writeTo v).toDst w := by
  funext s
  unfold Enc.writeToDst Wr.toDst Enc.writeTo
  cases Enc.gather v with
  | mk o e => cases e <;> rfl

theorem bufWriteTo_honest {ω : Type} {w : Dst ω} {got : ω → Bytes} (h : w.Honest got) (b : Bytes)
    (s : ω) : (bufWriteTo w b s).1 ≤ b.length ∧
      got (bufWriteTo w b s).2.2 = got s ++ b.take (bufWriteTo w b s).1 ∧
      ((bufWriteTo w b s).2.1 = none → (bufWriteTo w b s).1 = b.length) ∧
      (∀ e, (bufWriteTo w b s).2.1 = some e → (w s b).2.1 = some e) := by
  unfold bufWriteTo
  split
  · next hb => subst hb; simp
  · obtain ⟨h1, h2, h3⟩ := h s b
    cases hw : w s b with
    | mk m r =>
      obtain ⟨e, s'⟩ := r
      rw [hw] at h1 h2 h3
      simp only at h1 h2 h3 ⊢
      rw [if_neg (by omega)]
      cases e with
      | some e => exact ⟨h1, h2, by simp, fun e' he => he⟩
      | none =>
        have hm : m = b.length := by
          rcases Nat.lt_or_ge m b.length with h | h
          · exact absurd rfl (h3 h)
          · omega
        rw [if_neg (by omega)]
        exact ⟨h1, h2, fun _ => hm, by simp⟩

theorem Wr.Whole.reaches {r : Wr} (hr : r.Whole) : Reaches r (fun _ w => r.toDst w) where
  part := by
    intro ω w got s h
    unfold Wr.toDst
    cases he : r.err with
    | some e => obtain ⟨h1, h2⟩ := hr.1 e he; simp [h1, h2]
    | none => exact ⟨(bufWriteTo_honest h r.out s).1, (bufWriteTo_honest h r.out s).2.1⟩
  success := by
    intro ω w got s h
    unfold Wr.toDst
    cases he : r.err with
    | some e => simp
    | none => exact fun hn => ⟨rfl, (bufWriteTo_honest h r.out s).2.2.1 hn⟩
  failure := by
    intro ω w got s e h
    unfold Wr.toDst
    cases he : r.err with
    | some e => exact fun hn => .inl hn
    | none => exact fun hn => .inr ⟨s, r.out, (bufWriteTo_honest h r.out s).2.2.2 e hn⟩
  buffer := by
    intro ω w got s h ha
    unfold Wr.toDst
    cases he : r.err with
    | some e => obtain ⟨h1, h2⟩ := hr.1 e he; simp [h1, h2]
    | none =>
      obtain ⟨h1, h2, h3, h4⟩ := bufWriteTo_honest h r.out s
      have hn : (bufWriteTo w r.out s).2.1 = none := by
        cases hb : (bufWriteTo w r.out s).2.1 with
        | none => rfl
        | some e => exact absurd (h4 e hb) (by rw [ha]; simp)
      refine ⟨?_, hn, ?_⟩
      · show (bufWriteTo w r.out s).1 = r.n
        rw [h3 hn, hr.2 he]
      · show got (bufWriteTo w r.out s).2.2 = got s ++ r.out
        rw [h2, h3 hn, List.take_length]

theorem Wr.toDst_oneWrite (r : Wr) : OneWrite r (fun _ w => r.toDst w) := by
  intro ω w s
  show (r.toDst w s).2.2 = s ∧ _ ∨ (r.toDst w s).2.2 = _ ∧ _
  unfold Wr.toDst
  cases he : r.err with
  | some e => exact .inl ⟨rfl, .inl (by simp)⟩
  | none =>
    by_cases ho : r.out = []
    · exact .inl ⟨by simp [bufWriteTo, ho], .inr ho⟩
    · refine .inr ⟨?_, rfl, ho⟩
      simp only [bufWriteTo, if_neg ho]
      cases hw : w s r.out with
      | mk m x =>
        obtain ⟨e, s'⟩ := x
        simp only
        split
        · rfl
        · cases e with
          | some e => rfl
          | none => simp only; split <;> rfl

theorem Reaches.seq {α : Type} (f : α → Wr) (p : α → DstWrite) :
    ∀ l : List α, (∀ a, a ∈ l → Reaches (f a) (p a)) →
      Reaches (Enc.writeSliceTo (l.map f)) (fun _ w => seqDst (l.map (fun a => p a w)))
  | [], _ =>
    { part := by intro ω w got s h; simp [seqDst, Enc.writeSliceTo]
      success := by intro ω w got s h; simp [seqDst, Enc.writeSliceTo]
      failure := by intro ω w got s e h; simp [seqDst]
      buffer := by intro ω w got s h; simp [seqDst, Enc.writeSliceTo] }
  | a :: l, hl => by
    have ha := hl a (List.mem_cons_self ..)
    have ih := Reaches.seq f p l (fun b hb => hl b (List.mem_cons_of_mem _ hb))
    refine ⟨?_, ?_, ?_, ?_⟩
    · intro ω w got s h
      have h1 := ha.part w got s h
      have h2 := ha.success w got s h
      have ih1 := fun s => ih.part w got s h
      simp only [List.map_cons, seqDst]
      cases hp : p a w s with
      | mk n x =>
        obtain ⟨e, s'⟩ := x
        rw [hp] at h1 h2
        cases e with
        | some e =>
          simp only [Enc.writeSliceTo]
          cases hf : (f a).err with
          | some _ => exact h1
          | none =>
            refine ⟨by simp only [List.length_append]; have := h1.1; simp only at this; omega, ?_⟩
            rw [List.take_append_of_le_length h1.1]; exact h1.2
        | none =>
          obtain ⟨h3, h4⟩ := h2 rfl
          have ih2 := ih1 s'
          simp only [Enc.writeSliceTo, h3]
          simp only at h1 h4
          refine ⟨by simp only [List.length_append]; have := ih2.1; omega, ?_⟩
          rw [ih2.2, h1.2, h4, List.take_length, List.take_length_add_append, List.append_assoc]
    · intro ω w got s h
      have h2 := ha.success w got s h
      have ih1 := fun s => ih.success w got s h
      simp only [List.map_cons, seqDst]
      cases hp : p a w s with
      | mk n x =>
        obtain ⟨e, s'⟩ := x
        rw [hp] at h2
        cases e with
        | some e => simp
        | none =>
          obtain ⟨h3, h4⟩ := h2 rfl
          intro hn
          obtain ⟨h5, h6⟩ := ih1 s' hn
          simp only at h4
          simp only [Enc.writeSliceTo, h3, List.length_append]
          exact ⟨h5, by rw [h6, h4]⟩
    · intro ω w got s e h
      have h1 := fun e => ha.failure w got s e h
      have h2 := ha.success w got s h
      have ih1 := fun s => ih.failure w got s e h
      simp only [List.map_cons, seqDst]
      cases hp : p a w s with
      | mk n x =>
        obtain ⟨e', s'⟩ := x
        rw [hp] at h1 h2
        cases e' with
        | some e' =>
          intro he
          cases he
          rcases h1 e rfl with h | h
          · left; simp [Enc.writeSliceTo, h]
          · exact .inr h
        | none =>
          intro he
          simp only [Enc.writeSliceTo, (h2 rfl).1]
          exact ih1 s' he
    · intro ω w got s h hw
      obtain ⟨h1, h2, h3⟩ := ha.buffer w got s h hw
      have ih1 := fun s => ih.buffer w got s h hw
      simp only [List.map_cons, seqDst]
      cases hp : p a w s with
      | mk n x =>
        obtain ⟨e', s'⟩ := x
        rw [hp] at h1 h2 h3
        simp only at h1 h2 h3
        cases e' with
        | some e' => simp only [Enc.writeSliceTo, ← h2]; exact ⟨h1, trivial, h3⟩
        | none =>
          obtain ⟨h4, h5, h6⟩ := ih1 s'
          simp only [Enc.writeSliceTo, ← h2]
          exact ⟨by rw [h1, h4], h5, by rw [h6, h3, List.append_assoc]⟩

/-- Two writes, one after the other. -/
theorem Reaches.pair {a b : Wr} {p q : DstWrite} (ha : Reaches a p) (hb : Reaches b q) :
    Reaches (Enc.writeSliceTo [a, b]) (fun _ w => seqDst [p w, q w]) := by
  have := Reaches.seq (fun i : Bool => if i then a else b) (fun i => if i then p else q) [true, false]
    (by intro i _; cases i <;> simpa)
  simpa using this

/-- Three writes. -/
theorem Reaches.triple {a b c : Wr} {p q r : DstWrite} (ha : Reaches a p) (hb : Reaches b q)
    (hc : Reaches c r) :
    Reaches (Enc.writeSliceTo [a, b, c]) (fun _ w => seqDst [p w, q w, r w]) := by
  have := Reaches.seq (fun i : Fin 3 => match i with | 0 => a | 1 => b | 2 => c)
    (fun i => match i with | 0 => p | 1 => q | 2 => r) [0, 1, 2]
    (by intro i _; match i with | 0 => exact ha | 1 => exact hb | 2 => exact hc)
  simpa using this

theorem Enc.writeToDst_reaches (v : List WElem) :
    Reaches (Enc.writeTo v) (fun _ w => Enc.writeToDst w v) := by
  have := (Enc.writeTo_whole v).reaches
  have e : (fun (ω : Type) (w : Dst ω) => Enc.writeToDst w v) =
      (fun (ω : Type) (w : Dst ω) => (Enc.writeTo v).toDst w) := by
    funext ω w; exact Enc.writeToDst_eq w v
  rw [e]; exact this

end Verif
