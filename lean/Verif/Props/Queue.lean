import Verif.Ofp.Queue

/-!
# Property C33 and the queue part of C51
-/

namespace Verif.Props

open Verif

/-! ## Properties -/

/-- C33.  Wire format of the queue properties. -/
theorem queuePropMinRate_layout (x : UInt16) :
    Encodes (QueueProp.minRate x).writeTo ∧ Layout (QueueProp.minRate x).writeTo.out
      [.num 2 1, .num 2 16, .pad 4, .num 2 x.toNat, .pad 6] := by
  constructor
  · simp [Encodes, QueueProp.writeTo, Enc.writeTo, Enc.gather]
  · simp [QueueProp.writeTo, Enc.writeTo, Enc.gather, QueueProp.type]

theorem queuePropMaxRate_layout (x : UInt16) :
    Encodes (QueueProp.maxRate x).writeTo ∧ Layout (QueueProp.maxRate x).writeTo.out
      [.num 2 2, .num 2 16, .pad 4, .num 2 x.toNat, .pad 6] := by
  constructor
  · simp [Encodes, QueueProp.writeTo, Enc.writeTo, Enc.gather]
  · simp [QueueProp.writeTo, Enc.writeTo, Enc.gather, QueueProp.type]

theorem queuePropExperimenter_layout (e : UInt32) (d : Bytes) (hd : 16 + d.length ≤ 65535) :
    Encodes (QueueProp.experimenter e d).writeTo ∧ Layout (QueueProp.experimenter e d).writeTo.out
      [.num 2 0xffff, .num 2 (16 + d.length), .pad 4, .num 4 e.toNat, .pad 4, .raw d] := by
  constructor
  · simp [Encodes, QueueProp.writeTo, Enc.writeTo, Enc.gather]
  · have h : (16 + UInt16.ofNat d.length : UInt16).toNat = 16 + d.length := by
      have h1 : (UInt16.ofNat d.length).toNat = d.length := u16_ofNat_toNat (by omega)
      rw [UInt16.toNat_add, h1]
      exact Nat.mod_eq_of_lt (by change 16 + d.length < 65536; omega)
    simp [QueueProp.writeTo, Enc.writeTo, Enc.gather, QueueProp.type, -UInt16.toNat_add, h]

/-- C33.  Round trip of a single property into a receiver of the same Go type. -/
theorem queueProp_roundtrip (p s : QueueProp) (hs : s.type = p.type)
    (hl : p.writeTo.out.length ≤ 65535) :
    DecodesFrom QueueProp.readFrom s p.writeTo.out p := by
  refine Reads.decodesFrom (p.reads' s ?_ hs)
  rw [QueueProp.Valid, ← QueueProp.bytes_length]; exact hl

example : (QueueProp.experimenter 9 [1, 2, 3]).type = (QueueProp.experimenter 0 []).type ∧
    (QueueProp.experimenter 9 [1, 2, 3]).writeTo.out.length ≤ 65535 := by decide

/-- C33 fails.  Decoding a list of properties, on any input, leaves the caller's list as it
was. -/
theorem queueProps_lost (s : List QueueProp) (r : Rd) : (QueueProps.readFrom s r).val = s := rfl

/-- C33.  Missing: the list itself.  The bytes are read to the end without an error. -/
theorem queueProps_roundtrip_partial (ps s : List QueueProp)
    (hv : ∀ p ∈ ps, p.writeTo.out.length ≤ 65535) :
    Encodes (QueueProps.writeTo ps) ∧
    DecodesAllFrom QueueProps.readFrom s (QueueProps.writeTo ps).out s := by
  rw [QueueProps.writeTo_eq]
  refine ⟨⟨rfl, rfl⟩, ReadsAll.decodesAllFrom (QueueProps.readsAll ps s fun p hp => ?_)⟩
  rw [QueueProp.Valid, ← QueueProp.bytes_length]; exact hv p hp

theorem queueProps_roundtrip_false (ps s : List QueueProp) (h : ps ≠ s) :
    ¬ DecodesAllFrom QueueProps.readFrom s (QueueProps.writeTo ps).out ps :=
  Keeps.not_decodesAllFrom (f := id) (fun _ _ => rfl) h

example : ∃ ps s : List QueueProp, ps ≠ s ∧ ∀ p ∈ ps, p.writeTo.out.length ≤ 65535 :=
  ⟨[.minRate 1, .experimenter 2 [3]], [], by decide⟩

/-! ## Packet queues -/

/-- C33.  Wire format of a packet queue. -/
theorem packetQueue_layout (q : PacketQueue) (hs : q.writeTo.out.length ≤ 65535) :
    Encodes q.writeTo ∧
    Layout q.writeTo.out [.num 4 q.queue.toNat, .num 4 q.port.toNat, .num 2 q.writeTo.out.length,
      .pad 6, .raw (q.properties.flatMap (fun p => p.writeTo.out))] := by
  have h : q.properties.flatMap (fun p => p.writeTo.out) = QueueProps.bytes q.properties := rfl
  have hb : q.writeTo.out = q.bytes := rfl
  rw [h, hb]
  rw [hb] at hs
  have hl : q.bytes.length = (QueueProps.bytes q.properties).length + 16 := by
    rw [PacketQueue.bytes_length, PacketQueue.size, QueueProps.bytes_length]; omega
  rw [hl] at hs ⊢
  have := u16_ofNat_toNat hs
  refine ⟨by simp [Encodes, PacketQueue.writeTo_eq], ?_⟩
  rw [PacketQueue.bytes_eq]
  simp [-UInt16.toNat_ofNat', -UInt16.ofNat_add, this]

theorem packetQueue_valid {q : PacketQueue} (hs : q.writeTo.out.length ≤ 65535) : q.Valid := by
  have hb : q.writeTo.out = q.bytes := rfl
  rw [hb, PacketQueue.bytes_length] at hs
  refine ⟨fun p hp => ?_, hs⟩
  have : p.size ≤ (q.properties.map QueueProp.size).sum := le_sum_of_mem (List.mem_map_of_mem hp)
  unfold PacketQueue.size at hs
  unfold QueueProp.Valid
  omega

/-- C33.  Missing: the properties. -/
theorem packetQueue_roundtrip_partial (q s : PacketQueue) (hs : q.writeTo.out.length ≤ 65535) :
    DecodesFrom PacketQueue.readFrom s q.writeTo.out { q with properties := s.properties } :=
  Reads.decodesFrom (q.reads s (packetQueue_valid hs))

theorem packetQueue_loses_properties (s : PacketQueue) (r : Rd) :
    (PacketQueue.readFrom s r).val.properties = s.properties := PacketQueue.keeps s r

theorem packetQueue_roundtrip_false (q : PacketQueue) (h : q.properties ≠ []) :
    ¬ DecodesFrom PacketQueue.readFrom ⟨0, 0, []⟩ q.writeTo.out q :=
  PacketQueue.keeps.not_decodesFrom h

example : ∃ q : PacketQueue, q.properties ≠ [] ∧ q.writeTo.out.length ≤ 65535 :=
  ⟨⟨1, 2, [.minRate 1, .experimenter 2 [3]]⟩, by decide⟩

/-- C51 holds here: an incomplete header is reported. -/
theorem packetQueue_missing (s : PacketQueue) (r : Rd) (hr : r.Ok .eof) (hc : r.content.length < 16) :
    (PacketQueue.readFrom s r).err = some .eof ∨ (PacketQueue.readFrom s r).err = some .unexpectedEOF := by
  have hf : Flat (Enc.readFrom [
      Enc.num (fun v s => ({ s.1 with queue := v }, s.2)),
      Enc.num (fun v s => ({ s.1 with port := v }, s.2)),
      Enc.num (fun v s => (s.1, v)), Enc.skip 6] : Step (PacketQueue × UInt16)) 16 :=
    Flat.cons Flat.num <| Flat.cons Flat.num <| Flat.cons Flat.num <| Flat.cons Flat.skip Flat.nil
  unfold PacketQueue.readFrom
  simp only [Enc.withLocal]
  exact hf.prefix_err (s, 0) r hr hc

/-! ## Queue configuration reply -/

/-- C33.  Wire format of a queue configuration reply. -/
theorem queueGetConfigReply_layout (q : QueueGetConfigReply) :
    Encodes q.writeTo ∧
    Layout q.writeTo.out [.num 4 q.port.toNat, .pad 4,
      .raw (q.queues.flatMap (fun p => p.writeTo.out))] := by
  have h : q.queues.flatMap (fun p => p.writeTo.out) = PacketQueues.bytes q.queues := rfl
  rw [h, QueueGetConfigReply.out_eq]
  exact ⟨by simp [Encodes]; omega, by simp⟩

/-- C33.  Missing: the queues. -/
theorem queueGetConfigReply_roundtrip_partial (q s : QueueGetConfigReply)
    (hs : ∀ p ∈ q.queues, p.writeTo.out.length ≤ 65535) :
    DecodesAllFrom QueueGetConfigReply.readFrom s q.writeTo.out { q with queues := s.queues } :=
  ReadsAll.decodesAllFrom (q.readsAll s fun p hp => packetQueue_valid (hs p hp))

theorem queueGetConfigReply_loses_queues (s : QueueGetConfigReply) (r : Rd) :
    (QueueGetConfigReply.readFrom s r).val.queues = s.queues := QueueGetConfigReply.keeps s r

theorem queueGetConfigReply_roundtrip_false (q : QueueGetConfigReply) (h : q.queues ≠ []) :
    ¬ DecodesAllFrom QueueGetConfigReply.readFrom ⟨0, []⟩ q.writeTo.out q :=
  QueueGetConfigReply.keeps.not_decodesAllFrom h

example : ∃ q : QueueGetConfigReply, q.queues ≠ [] ∧ ∀ p ∈ q.queues, p.writeTo.out.length ≤ 65535 :=
  ⟨⟨1, [⟨1, 2, [.minRate 1, .experimenter 2 [3]]⟩, ⟨3, 4, []⟩]⟩, by decide⟩

end Verif.Props
