import Verif.Ofp.Action

/-!
# ofp/packet.go
-/

namespace Verif

/-! ## Model -/

/-- `PacketIn`, ofp/packet.go:68-90. -/
structure PacketIn where
  buffer : UInt32
  length : UInt16
  reason : UInt8
  table : UInt8
  cookie : UInt64
  mtch : Match
  data : Bytes
  deriving DecidableEq, Repr, Inhabited

/-- `(p *PacketIn) WriteTo`, ofp/packet.go:105-108. -/
def PacketIn.writeTo (p : PacketIn) : Wr :=
  Enc.writeTo [.bin (be p.buffer), .bin (be p.length), .bin (be p.reason), .bin (be p.table),
    .bin (be p.cookie), .writer p.mtch.writeTo, .bin (zeros 2), .bin p.data]

/-- `(p *PacketIn) ReadFrom`, ofp/packet.go:112-127. -/
def PacketIn.readFrom : Step PacketIn :=
  Enc.readFrom [
    Enc.num (fun v s => { s with buffer := v }), Enc.num (fun v s => { s with length := v }),
    Enc.num (fun v s => { s with reason := v }), Enc.num (fun v s => { s with table := v }),
    Enc.num (fun v s => { s with cookie := v }),
    Enc.sub (fun s => s.mtch) (fun v s => { s with mtch := v }) Match.readFrom, Enc.skip 2,
    Enc.rest (fun b s => { s with data := b })]

/-- `PacketOut`, ofp/packet.go:131-151. -/
structure PacketOut where
  buffer : UInt32
  inPort : UInt32
  actions : List Action
  data : Bytes
  deriving DecidableEq, Repr, Inhabited

/-- `(p *PacketOut) WriteTo`, ofp/packet.go:155-167: the length of the actions is
converted to `uint16`. -/
def PacketOut.writeTo (p : PacketOut) : Wr :=
  let buf := Actions.writeTo p.actions
  match buf.err with
  | some e => ⟨[], 0, some e⟩
  | none =>
    Enc.writeTo [.bin (be p.buffer), .bin (be p.inPort), .bin (be (UInt16.ofNat buf.out.length)),
      .bin (zeros 6), .bin buf.out, .bin p.data]

/-- `(p *PacketOut) ReadFrom`, ofp/packet.go:171-191. -/
def PacketOut.readFrom : Step PacketOut :=
  Enc.withLocal (0 : UInt16) <| Enc.readFrom [
    Enc.num (fun v s => ({ s.1 with buffer := v }, s.2)),
    Enc.num (fun v s => ({ s.1 with inPort := v }, s.2)),
    Enc.num (fun v s => (s.1, v)), Enc.skip 6,
    Enc.assign (fun s => ({ s.1 with actions := [] }, s.2)),
    Enc.dyn (fun s => Enc.limited s.2.toNat
      (Enc.sub (fun s => s.1.actions) (fun v s => ({ s.1 with actions := v }, s.2)) Actions.readFrom)),
    Enc.rest (fun b s => ({ s.1 with data := b }, s.2))]

/-! ## Helper lemmas -/

theorem PacketIn.out_eq (p : PacketIn) : p.writeTo =
    ⟨be p.buffer ++ (be p.length ++ (be p.reason ++ (be p.table ++ (be p.cookie ++ (p.mtch.bytes ++
      (zeros 2 ++ p.data)))))), 18 + p.mtch.bytes.length + p.data.length, none⟩ := by
  simp [PacketIn.writeTo, Enc.writeTo, Enc.gather, Match.writeTo_eq]; omega

theorem PacketIn.readsAll (p : PacketIn) (hm : p.mtch.Valid) (s : PacketIn) :
    ReadsAll PacketIn.readFrom s p.writeTo.out p := by
  rw [PacketIn.out_eq]
  unfold PacketIn.readFrom
  reads
  refine ReadsAll.cons (Reads.sub (p.mtch.reads hm _)) ?_
  reads
  exact ReadsAll.last (ReadsAll.rest _)

theorem PacketOut.out_eq (p : PacketOut) : p.writeTo =
    ⟨be p.buffer ++ (be p.inPort ++ (be (UInt16.ofNat (Actions.bytes p.actions).length) ++ (zeros 6 ++
      (Actions.bytes p.actions ++ p.data)))),
      16 + (Actions.bytes p.actions).length + p.data.length, none⟩ := by
  simp [PacketOut.writeTo, Enc.writeTo, Enc.gather, Actions.writeTo_eq]; omega

theorem PacketOut.readsAll (p : PacketOut) (hv : ∀ a ∈ p.actions, a.Valid)
    (hl : (Actions.bytes p.actions).length ≤ 65535) (s : PacketOut) :
    ReadsAll PacketOut.readFrom s p.writeTo.out p := by
  have hlen := u16_ofNat_toNat hl
  rw [PacketOut.out_eq]
  unfold PacketOut.readFrom
  refine ReadsAll.withLocal (l' := UInt16.ofNat (Actions.bytes p.actions).length) ?_
  reads
  refine ReadsAll.cons (Reads.dyn (Reads.limited (ReadsAll.sub (Actions.readsAll p.actions hv _)) hlen)) ?_
  exact ReadsAll.last (ReadsAll.rest _)

theorem PacketIn.readFrom_safe : Safe ShortErr PacketIn.readFrom := by
  have h1 : Safe ShortErr Match.readFrom := Match.readFrom_safe
  unfold PacketIn.readFrom; safe

theorem PacketOut.readFrom_safe : Safe ActErr PacketOut.readFrom := by
  have h1 := Actions.readFrom_safe
  unfold PacketOut.readFrom; safe

end Verif
