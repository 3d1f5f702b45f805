import Verif.Ofp.Packet

/-!
# Property C29: packet-in and packet-out
-/

namespace Verif.Props

open Verif

/-- C29.  Wire format of a packet-in (OpenFlow 1.3.5, section 7.4.1, without the header). -/
theorem packetIn_layout (p : PacketIn) :
    Layout p.writeTo.out [.num 4 p.buffer.toNat, .num 2 p.length.toNat, .num 1 p.reason.toNat,
      .num 1 p.table.toNat, .num 8 p.cookie.toNat, .raw p.mtch.writeTo.out, .pad 2,
      .raw p.data] := by
  rw [PacketIn.out_eq]; simp [Match.writeTo_eq]

/-- C29.  Round trip of a packet-in; the packet is returned verbatim. -/
theorem packetIn_roundtrip (p : PacketIn) (hm : p.mtch.Valid) :
    Encodes p.writeTo ∧ DecodesAll PacketIn.readFrom p.writeTo.out p := by
  refine ⟨?_, ReadsAll.decodes (p.readsAll hm)⟩
  rw [PacketIn.out_eq]; simp [Encodes]; omega

/-- C29.  Wire format of a packet-out: the third field is the size of the actions. -/
theorem packetOut_layout (p : PacketOut)
    (hl : (p.actions.flatMap (fun a => a.writeTo.out)).length ≤ 65535) :
    Layout p.writeTo.out [.num 4 p.buffer.toNat, .num 4 p.inPort.toNat,
      .num 2 (p.actions.flatMap (fun a => a.writeTo.out)).length, .pad 6,
      .raw (p.actions.flatMap (fun a => a.writeTo.out)), .raw p.data] := by
  have h : p.actions.flatMap (fun a => a.writeTo.out) = Actions.bytes p.actions := rfl
  rw [h] at hl ⊢
  have hu := u16_ofNat_toNat hl
  rw [PacketOut.out_eq]
  simp only [Layout.u32, Layout.u16, hu]
  simp

/-- C29.  Round trip of a packet-out.  The packet data is arbitrary, also bytes that look
like actions, and comes back verbatim. -/
theorem packetOut_roundtrip (p : PacketOut) (hv : ∀ a ∈ p.actions, a.Valid)
    (hl : (p.actions.flatMap (fun a => a.writeTo.out)).length ≤ 65535) :
    Encodes p.writeTo ∧ DecodesAll PacketOut.readFrom p.writeTo.out p := by
  refine ⟨?_, ReadsAll.decodes (p.readsAll hv hl)⟩
  rw [PacketOut.out_eq]; simp [Encodes]; omega

/-- Non-vacuity: the data looks like another action. -/
example : let p : PacketOut := ⟨0xffffffff, 1, [.output 2 0, .setField ⟨0x8000, 3, [1, 2, 3, 4, 5, 6], []⟩],
      [0, 11, 0, 8, 0, 0, 0, 0]⟩
    (∀ a ∈ p.actions, a.Valid) ∧ (p.actions.flatMap (fun a => a.writeTo.out)).length ≤ 65535 := by decide

/-- C29.  The bound is needed: the size of the actions is stored modulo 65536, so a
packet-out whose actions exceed 65535 bytes encodes without an error, with a wrong size
field.  (Sending it fails, C47: the message exceeds the limit of a message.) -/
theorem packetOut_wrap (p : PacketOut) :
    Encodes p.writeTo ∧ At p.writeTo.out 8 2
      ((p.actions.flatMap (fun a => a.writeTo.out)).length % 65536) := by
  have h : p.actions.flatMap (fun a => a.writeTo.out) = Actions.bytes p.actions := rfl
  rw [h, PacketOut.out_eq]
  refine ⟨by simp [Encodes]; omega, ?_⟩
  refine At.skip (b := be p.buffer) (off' := 4) rfl ?_
  refine At.skip (b := be p.inPort) (off' := 0) rfl ?_
  have := At.head (UInt16.ofNat (Actions.bytes p.actions).length)
    (zeros 6 ++ (Actions.bytes p.actions ++ p.data))
  simpa [Wire.toNat] using this

end Verif.Props
