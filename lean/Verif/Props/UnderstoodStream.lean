import Verif.Props.Understood
import Verif.Props.EndToEnd

/-! C92 for streams: the messages that a peer puts one after another onto a stream by the
specification are received one by one, and their bodies are decoded as meant. -/

namespace Verif.Props

/-- What a received request says: the members of its header, and its body. -/
def heard (q : Request) : Option (Spec.Record × Bytes) :=
  match q.body with
  | .buffer b => some ([("version", .num q.header.version.toNat), ("type", .num q.header.type.toNat),
      ("length", .num q.header.length.toNat), ("xid", .num q.header.transaction.toNat)], b)
  | _ => none

/-- A stream that the specification takes apart is the serialisation of requests. -/
private theorem stream_inv {b : Bytes} {ms : List (Spec.Record × Bytes)} (h : Spec.list 2 1 message b = some ms) :
    ∃ qs : List (Request × Bytes), (∀ p ∈ qs, p.1.body.Yields p.2 ∧ 8 + p.2.length ≤ 65535) ∧
      qs.map (fun p => requestSaid p.1 p.2) = ms ∧ b = serialise (qs.map (·.1)) := by
  obtain ⟨qs, h1, h2, h3⟩ := Spec.list_inv (P := fun _ => True) (off := 2) (f := message)
    (V := fun p : Request × Bytes => p.1.body.Yields p.2 ∧ 8 + p.2.length ≤ 65535)
    (g := fun p => requestSaid p.1 p.2)
    (w := fun p => [.raw (Header.bytes { p.1.header with length := UInt16.ofNat (8 + p.2.length) } ++ p.2)])
    (fun c m hm _ hl => by
      obtain ⟨r, body⟩ := m
      unfold message Spec.header at hm
      obtain ⟨v0, _, _, rfl, g1, rfl⟩ := Spec.read_u8_inv hm
      obtain ⟨v1, _, _, rfl, g2, rfl⟩ := Spec.read_u8_inv g1
      obtain ⟨v2, _, _, rfl, g3, rfl⟩ := Spec.read_u16_inv g2
      obtain ⟨v3, t, _, rfl, g4, rfl⟩ := Spec.read_u32_inv g3
      obtain ⟨rfl, rfl⟩ := Spec.read_nil_inv g4
      rw [Spec.u16_skip (k := 1) (by simp) 1, Spec.u16_skip (k := 1) (by simp) 0, Spec.u16_zero] at hl
      have hlt := v2.toNat_lt
      simp at hl
      have hv : v2 = UInt16.ofNat (8 + t.length) := UInt16.toNat_inj.1 (by rw [u16_ofNat_toNat (by omega)]; omega)
      refine ⟨(⟨⟨v0, v1, 0, v3⟩, .buffer t, 1, 3, 0⟩, t), ⟨rfl, by simp; omega⟩, ?_, ?_⟩
      · simp only [requestSaid]
        rw [show v2.toNat = 8 + t.length by omega]
      · have := Loose.bytes (s := be v0 ++ (be v1 ++ (be v2 ++ (be v3 ++ t)))) Loose.nil
        rw [List.append_nil] at this
        simpa [Header.bytes, ← hv] using this) h (by simp)
  refine ⟨qs, h1, h2, ?_⟩
  rw [serialise, foldl_recorder qs h1, List.nil_append]
  clear h1 h2 h
  induction qs generalizing b with
  | nil => exact h3
  | cons p t ih =>
    rw [List.flatMap_cons] at h3
    obtain ⟨e1, e2, e3⟩ := h3
    have := ih e3
    rw [List.map_cons, List.flatten_cons, ← this]
    exact (List.take_append_drop _ b).symm.trans (congrArg (· ++ _) e2)

/-- A stream that the specification takes apart into messages, in any fragmentation and followed by
anything: as many calls of `Receive` return these messages, in order and without an error, and leave
what follows on the stream.  (The transport reports the end of the stream in a call of its own, or
something follows; see `stream_framing`.) -/
theorem stream_understood (b : Bytes) (ms : List (Spec.Record × Bytes)) (h : Spec.list 2 1 message b = some ms)
    (F : Err) (r : Rd) (tail : Bytes) (hr : r.Ok F) (hs : r.Sep ∨ tail ≠ []) (hc : r.content = b ++ tail) :
    ∃ qs : List Request, (receiveN ms.length r).1 = qs.map (fun q => (some q, none)) ∧
      qs.map heard = ms.map some ∧ (receiveN ms.length r).2.content = tail := by
  obtain ⟨ps, h1, rfl, rfl⟩ := stream_inv h
  have key : (receiveN ps.length r).1 = ps.map (fun p => (some ⟨
        { p.1.header with length := UInt16.ofNat (8 + p.2.length) }, .buffer p.2, 1,
        (p.1.header.version - 1).toNat, p.2.length⟩, none)) ∧ (receiveN ps.length r).2.content = tail := by
    rcases hs with hs | ht
    · have := stream_framing F ps h1 r tail hr hs hc
      exact ⟨this.1, this.2.1⟩
    · exact stream_framing_followed F ps h1 r tail hr ht hc
  refine ⟨ps.map fun p => ⟨{ p.1.header with length := UInt16.ofNat (8 + p.2.length) }, .buffer p.2, 1,
        (p.1.header.version - 1).toNat, p.2.length⟩, ?_, ?_, ?_⟩
  · rw [List.length_map, key.1, List.map_map]; rfl
  · rw [List.map_map, List.map_map]
    refine List.map_congr_left fun p hp => ?_
    simp only [Function.comp_apply, heard, requestSaid, u16_ofNat_toNat (h1 p hp).2]
  · rw [List.length_map]; exact key.2

/-- Two messages, the second with a body, and the beginning of a third. -/
example : Spec.list 2 1 message [4, 0, 0, 8, 0, 0, 0, 1, 4, 2, 0, 10, 0, 0, 0, 2, 7, 7] =
      some [([("version", .num 4), ("type", .num 0), ("length", .num 8), ("xid", .num 1)], []),
        ([("version", .num 4), ("type", .num 2), ("length", .num 10), ("xid", .num 2)], [7, 7])] ∧
    ∃ r : Rd, r.Ok (.io 1) ∧ r.Sep ∧
      r.content = [4, 0, 0, 8, 0, 0, 0, 1, 4, 2, 0, 10, 0, 0, 0, 2, 7, 7] ++ [4, 3] :=
  ⟨by decide +kernel, .buf [] none (.src ([4, 0, 0, 8, 0, 0, 0, 1, 4, 2, 0, 10, 0, 0, 0, 2, 7, 7] ++ [4, 3]) [3, 9] (.io 1) false),
    by simp [Rd.Ok], by simp [Rd.Sep], rfl⟩

/-- A message of such a stream whose body the library understands: `Receive` returns it at its place,
and decoding the body succeeds, takes all of it and gives a value that says what the peer meant. -/
theorem message_understood {σ ν : Type} {dec : Step σ} {said : σ → ν} (b : Bytes) (ms : List (Spec.Record × Bytes))
    (h : Spec.list 2 1 message b = some ms) (i : Nat) (hdr : Spec.Record) (body : Bytes)
    (hi : ms[i]? = some (hdr, body)) (v : ν) (hd : ∃ x, DecodesAll dec body x ∧ said x = v)
    (F : Err) (r : Rd) (tail : Bytes) (hr : r.Ok F) (hs : r.Sep ∨ tail ≠ []) (hc : r.content = b ++ tail) :
    ∃ q : Request, (receiveN ms.length r).1[i]? = some (some q, none) ∧ heard q = some (hdr, body) ∧
      ∀ (s : σ) (rb : Rd), rb.Ok .eof → rb.content = body →
        said (dec s rb).val = v ∧ (dec s rb).err = none ∧ (dec s rb).n = body.length ∧ (dec s rb).rd.content = [] := by
  obtain ⟨qs, h1, h2, _⟩ := stream_understood b ms h F r tail hr hs hc
  have hq : (qs.map heard)[i]? = some (some (hdr, body)) := by rw [h2]; simp [hi]
  rw [List.getElem?_map, Option.map_eq_some_iff] at hq
  obtain ⟨q, g1, g2⟩ := hq
  refine ⟨q, by rw [h1]; simp [g1], g2, fun s rb hrb hcb => ?_⟩
  obtain ⟨x, d, e⟩ := hd
  obtain ⟨d1, d2, d3, d4⟩ := d s rb hrb hcb
  exact ⟨by rw [d1]; exact e, d3, d2, d4⟩

/-- Flow modifications on a stream. -/
theorem flowMod_heard_partial (b : Bytes) (ms : List (Spec.Record × Bytes))
    (h : Spec.list 2 1 message b = some ms) (i : Nat) (hdr : Spec.Record) (body : Bytes)
    (hi : ms[i]? = some (hdr, body)) (v : Spec.Record × Spec.Match × List Spec.Instruction)
    (hv : Spec.withFlow Spec.flowModHead body = some v) (hm : NoEmptyMask v.2.1) (hk : ∀ i ∈ v.2.2, i.Known)
    (F : Err) (r : Rd) (tail : Bytes) (hr : r.Ok F) (hs : r.Sep ∨ tail ≠ []) (hc : r.content = b ++ tail) :
    ∃ q : Request, (receiveN ms.length r).1[i]? = some (some q, none) ∧ heard q = some (hdr, body) ∧
      ∀ (s : FlowMod) (rb : Rd), rb.Ok .eof → rb.content = body →
        flowModSaid (FlowMod.readFrom s rb).val = v ∧ (FlowMod.readFrom s rb).err = none ∧
        (FlowMod.readFrom s rb).n = body.length ∧ (FlowMod.readFrom s rb).rd.content = [] :=
  message_understood b ms h i hdr body hi v (flowMod_understood_partial body v hv hm hk) F r tail hr hs hc

/-- Packets on a stream. -/
theorem packetIn_heard_partial (b : Bytes) (ms : List (Spec.Record × Bytes))
    (h : Spec.list 2 1 message b = some ms) (i : Nat) (hdr : Spec.Record) (body : Bytes)
    (hi : ms[i]? = some (hdr, body)) (v : Spec.Record × Spec.Match × Bytes)
    (hv : Spec.packetIn body = some v) (hm : NoEmptyMask v.2.1)
    (F : Err) (r : Rd) (tail : Bytes) (hr : r.Ok F) (hs : r.Sep ∨ tail ≠ []) (hc : r.content = b ++ tail) :
    ∃ q : Request, (receiveN ms.length r).1[i]? = some (some q, none) ∧ heard q = some (hdr, body) ∧
      ∀ (s : PacketIn) (rb : Rd), rb.Ok .eof → rb.content = body →
        (fun p : PacketIn => ([("buffer_id", .num p.buffer.toNat), ("total_len", .num p.length.toNat),
          ("reason", .num p.reason.toNat), ("table_id", .num p.table.toNat), ("cookie", .num p.cookie.toNat)],
          p.mtch.said, p.data)) (PacketIn.readFrom s rb).val = v ∧ (PacketIn.readFrom s rb).err = none ∧
        (PacketIn.readFrom s rb).n = body.length ∧ (PacketIn.readFrom s rb).rd.content = [] :=
  message_understood (said := fun p : PacketIn => ([("buffer_id", .num p.buffer.toNat),
    ("total_len", .num p.length.toNat), ("reason", .num p.reason.toNat), ("table_id", .num p.table.toNat),
    ("cookie", .num p.cookie.toNat)], p.mtch.said, p.data)) b ms h i hdr body hi v
    (packetIn_understood_partial body v hv hm) F r tail hr hs hc

/-! ## C91 for what `Send` transmits -/

/-- What a successful `Send` has put on the wire, over any transport: a peer that takes the stream
apart by the specification finds the requests of the batch, in order and with their bodies. -/
theorem sent_conforms (plan : List (Option (Nat × Err))) (qs : List (Request × Bytes))
    (hy : ∀ p ∈ qs, p.1.body.Yields p.2) (h : (sendBatch (.new plan) (qs.map (·.1))).1 = none) :
    Spec.list 2 1 message (sendBatch (.new plan) (qs.map (·.1))).2.tr.out =
      some (qs.map fun p => requestSaid p.1 p.2) := by
  obtain ⟨h1, h2⟩ := sent_stream plan qs hy h
  rw [← h2]
  exact stream_conforms qs h1

example : ∃ (plan : List (Option (Nat × Err))) (qs : List (Request × Bytes)), qs.length = 2 ∧
    (∀ p ∈ qs, p.1.body.Yields p.2) ∧ (sendBatch (.new plan) (qs.map (·.1))).1 = none :=
  ⟨[], [(newRequest 2 (some fun _ => ⟨[9, 8], 2, none⟩), [9, 8]), (newRequest 3 none, [])], rfl,
   by intro p hp; simp only [List.mem_cons, List.not_mem_nil, or_false] at hp
      rcases hp with rfl | rfl <;> rfl,
   by decide +kernel⟩

end Verif.Props
