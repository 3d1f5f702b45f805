import Verif.Request
import Verif.Spec.Wire

/-!
# Properties C01 - C08: headers, requests, composite encoding
-/

namespace Verif.Props

open Verif

/-! ## C01 -/

/-- C01.  Wire format of the header (OpenFlow 1.3.5, section 7.1). -/
theorem header_layout (h : Header) :
    Layout h.writeTo.out [.num 1 h.version.toNat, .num 1 h.type.toNat, .num 2 h.length.toNat,
      .num 4 h.transaction.toNat] ∧ h.writeTo.out.length = 8 := by
  simp [Header.writeTo_eq, Header.bytes]

/-- C01.  Round trip of every header, on every stream, in every fragmentation. -/
theorem header_roundtrip (h : Header) :
    Encodes h.writeTo ∧ h.writeTo.n = 8 ∧ Decodes Header.readFrom h.writeTo.out h := by
  rw [Header.writeTo_eq]
  exact ⟨by simp [Encodes, Header.bytes_length], rfl, Reads.decodes (fun s => h.reads s)⟩

/-- C01.  Exactly 8 bytes are read; fewer are an error. -/
theorem header_fixed : FixedSize Header.readFrom 8 := Flat.fixed Header.flat

/-- C01.  The header goes to the destination in one write. -/
theorem header_single_write (h : Header) (s : List Bytes) :
    h.writeToDst recorder s = (8, none, s ++ [h.writeTo.out]) := by
  have hb : h.bytes ≠ [] := by intro hc; have := h.bytes_length; rw [hc] at this; simp at this
  have hg : Enc.gather h.elems = (h.bytes, none) := by simp [Header.elems, Enc.gather, Header.bytes]
  simp [Header.writeToDst, Enc.writeToDst, hg, bufWriteTo, hb, recorder, Header.bytes_length,
    Header.writeTo_eq]

/-- C01.  The same for a stream that ends with any other error (a reset connection, an
expired deadline): with 8 bytes available the header is decoded, with fewer that error is
returned. -/
theorem header_stream (F : Err) (hF : F ≠ .eof) (s : Header) (r : Rd) (hr : r.Ok F) :
    (∀ h tail, r.content = h.writeTo.out ++ tail →
      (Header.readFrom s r).val = h ∧ (Header.readFrom s r).err = none ∧
        (Header.readFrom s r).n = 8 ∧ (Header.readFrom s r).rd.content = tail) ∧
    (r.content.length < 8 → (Header.readFrom s r).err = some F) := by
  rcases Header.read_spec F s r hr with ⟨h1, r', h2, h3, h4⟩ | ⟨h1, h, r', h2, h3, h4⟩
  · refine ⟨fun h tail hc => ?_, fun h => by omega⟩
    rw [Header.writeTo_eq] at hc
    rw [h2, h3.content.2, hc]
    refine ⟨Header.ofBytes_bytes _ _, rfl, rfl, ?_⟩
    rw [List.drop_append_of_le_length (by simp [Header.bytes_length]),
      List.drop_eq_nil_of_le (by simp [Header.bytes_length])]
    simp
  · refine ⟨fun h tail hc => ?_, fun _ => ?_⟩
    · rw [hc, Header.writeTo_eq] at h1; simp [Header.bytes_length] at h1; omega
    · rw [h2]; simp [headerErr, hF]

/-- Non-vacuity: a header that arrives in pieces before the connection is reset. -/
example : (Header.readFrom .zero
    (.buf [] none (.src [4, 10, 0, 12, 0, 0, 0, 7, 1, 2] [0, 2, 1] (.io 5) true))).val =
      ⟨4, 10, 12, 7⟩ := by decide +kernel

/-! ## C02 -/

/-- C02.  A body that fits: the message is handed to the destination in a single write; it
is the header followed by the body, the length field is the size of the message, and that
size is returned. -/
theorem request_writeTo (q : Request) (b : Bytes) (h : q.body.Yields b)
    (hl : 8 + b.length ≤ 65535) (s : List Bytes) :
    ∃ msg, (q.writeTo recorder s).dst = s ++ [msg] ∧ (q.writeTo recorder s).err = none ∧
      (q.writeTo recorder s).n = msg.length ∧ msg.length = 8 + b.length ∧
      Layout msg [.num 1 q.header.version.toNat, .num 1 q.header.type.toNat, .num 2 msg.length,
        .num 4 q.header.transaction.toNat, .raw b] := by
  obtain ⟨q', _, ⟨_, hw⟩ | ⟨hc, _⟩⟩ := q.writeTo_yields recorder b s h
  · have hne : Header.bytes { q.header with length := UInt16.ofNat (8 + b.length) } ++ b ≠ [] := by
      intro hc; have := congrArg List.length hc; simp [Header.bytes_length] at this
    have hb : bufWriteTo recorder (Header.bytes { q.header with length := UInt16.ofNat (8 + b.length) } ++ b) s
        = (8 + b.length, none, s ++ [Header.bytes
            { q.header with length := UInt16.ofNat (8 + b.length) } ++ b]) := by
      simp only [bufWriteTo, hne, if_false, recorder]
      simp [Header.bytes_length]
    rw [hw, hb]
    refine ⟨_, rfl, rfl, by simp [Header.bytes_length], by simp [Header.bytes_length], ?_⟩
    have hu : (UInt16.ofNat (8 + b.length)).toNat = 8 + b.length := by
      simp only [UInt16.toNat_ofNat']; omega
    simp only [Header.bytes, List.append_assoc, Layout.u8, Layout.u16, Layout.u32, hu]
    simp
    omega
  · omega

/-- C02.  Whatever the destination does (short writes, errors), it gets that message in one
`Write` call; its error is returned, a short write is reported. -/
theorem request_writeTo_dst {ω : Type} (w : Dst ω) (q : Request) (b : Bytes)
    (h : q.body.Yields b) (hl : 8 + b.length ≤ 65535) (s : ω) :
    ∃ msg, Layout msg [.num 1 q.header.version.toNat, .num 1 q.header.type.toNat,
        .num 2 msg.length, .num 4 q.header.transaction.toNat, .raw b] ∧
      (q.writeTo w s).dst = (w s msg).2.2 ∧
      (∀ e, (w s msg).2.1 = some e → (w s msg).1 ≤ msg.length →
        (q.writeTo w s).err = some e ∧ (q.writeTo w s).n = (w s msg).1) ∧
      ((w s msg).2.1 = none → (w s msg).1 < msg.length →
        (q.writeTo w s).err = some .shortWrite ∧ (q.writeTo w s).n = (w s msg).1) ∧
      ((w s msg).2.1 = none → (w s msg).1 = msg.length →
        (q.writeTo w s).err = none ∧ (q.writeTo w s).n = msg.length) := by
  obtain ⟨q', _, ⟨_, hw⟩ | ⟨hc, _⟩⟩ := q.writeTo_yields w b s h
  · refine ⟨Header.bytes { q.header with length := UInt16.ofNat (8 + b.length) } ++ b, ?_, ?_⟩
    · have hu : (UInt16.ofNat (8 + b.length)).toNat = 8 + b.length := by
        simp only [UInt16.toNat_ofNat']; omega
      simp only [Header.bytes, List.append_assoc, Layout.u8, Layout.u16, Layout.u32, hu]
      simp
      omega
    · rw [hw]
      generalize hm : Header.bytes { q.header with length := UInt16.ofNat (8 + b.length) } ++ b = msg
      have hne : msg ≠ [] := by
        intro hc; rw [hc] at hm; have := congrArg List.length hm; simp [Header.bytes_length] at this
      simp only [bufWriteTo, hne, if_false]
      rcases w s msg with ⟨m, e, s'⟩
      refine ⟨?_, ?_, ?_, ?_⟩
      · by_cases hx : msg.length < m
        · simp [hx]
        · cases e with
          | some e => simp [hx]
          | none => by_cases hy : m = msg.length <;> simp [hx, hy]
      · intro e' he hle
        simp only at he hle
        subst he
        simp [Nat.not_lt.mpr hle]
      · intro he hlt
        simp only at he hlt
        subst he
        simp [Nat.not_lt.mpr (Nat.le_of_lt hlt), Nat.ne_of_lt hlt]
      · intro he heq
        simp only at he heq
        subst he heq
        simp
  · omega

/-- C02.  A body that does not fit is refused and the destination is not touched. -/
theorem request_writeTo_tooLong {ω : Type} (w : Dst ω) (q : Request) (b : Bytes)
    (h : q.body.Yields b) (hl : 65535 < 8 + b.length) (s : ω) :
    (q.writeTo w s).err = some .bodyTooLong ∧ (q.writeTo w s).n = 0 ∧ (q.writeTo w s).dst = s := by
  obtain ⟨q', _, ⟨hc, _⟩ | ⟨_, hw⟩⟩ := q.writeTo_yields w b s h
  · omega
  · rw [hw]; exact ⟨rfl, rfl, rfl⟩

/-- C02.  A serialiser that fails: its error is returned, the destination is not touched,
whatever was produced before the failure. -/
theorem request_writeTo_fails {ω : Type} (w : Dst ω) (q : Request) (c : CopyReader)
    (f : Nat → Wr) (e : Err) (hb : q.body = .copy c) (hf : c.wt = some f)
    (he : (f c.calls).err = some e) (s : ω) :
    (q.writeTo w s).err = some e ∧ (q.writeTo w s).dst = s := by
  obtain ⟨hd, body, pm, pn, cl⟩ := q
  simp only at hb; subst hb
  simp [Request.writeTo, Body.copyTo, CopyReader.writeTo, hf, he]

/-- C02.  The same for a body that is an arbitrary reader which fails. -/
theorem request_writeTo_reader_fails {ω : Type} (w : Dst ω) (q : Request) (r : Rd) (F : Err)
    (hb : q.body = .reader r) (hr : r.Ok F) (hF : F ≠ .eof) (s : ω) :
    (q.writeTo w s).err = some F ∧ (q.writeTo w s).dst = s := by
  obtain ⟨hd, body, pm, pn, cl⟩ := q
  simp only at hb; subst hb
  obtain ⟨r', h1, _⟩ := readAll_spec F r hr
  have hs : skipEOF F = some F := by simp [skipEOF]
  simp [Request.writeTo, Body.copyTo, h1, hs]

/-- C02, the boundary of the hypothesis "the serialiser reports what it wrote": the size
check uses the reported count, so a serialiser that under-reports gets a message onto the
wire whose length field is wrong. -/
theorem request_writeTo_undercount (t : UInt8) (b : Bytes) (hb : b.length = 65536) :
    ∃ msg, ((newRequest t (some fun _ => ⟨b, 0, none⟩)).writeTo recorder []).dst = [msg] ∧
      msg.length = 65544 ∧ At msg 2 2 8 := by
  have hl : UInt16.ofNat headerlen + UInt16.ofNat b.length = 8 := by rw [hb]; decide
  have hw : ((newRequest t (some fun _ => ⟨b, 0, none⟩)).writeTo recorder []).dst =
      [Header.bytes ⟨4, t, 8, 0⟩ ++ b] := by
    have hne : Header.bytes ⟨4, t, 8, 0⟩ ++ b ≠ [] := by
      intro hc; have := congrArg List.length hc; simp [Header.bytes_length] at this
    simp only [newRequest, Request.writeTo, Body.copyTo, CopyReader.writeTo, hl, Header.writeTo_eq]
    simp only [bufWriteTo]
    simp [headerlen, hne, recorder]
  refine ⟨_, hw, by simp [Header.bytes_length, hb], ?_⟩
  simp only [At, Header.bytes]
  refine ⟨by simp [hb], ?_⟩
  have e : (be (4 : UInt8) ++ (be t ++ (be (8 : UInt16) ++ be (0 : UInt32))) ++ b) =
      (be (4 : UInt8) ++ be t) ++ (be (8 : UInt16) ++ (be (0 : UInt32) ++ b)) := by simp
  rw [e, List.drop_append_of_le_length (by simp), List.drop_eq_nil_of_le (by simp), List.nil_append,
    List.take_append_of_le_length (by simp), List.take_of_length_le (by simp), getBE_be]
  rfl

/-- Non-vacuity: the four kinds of bodies. -/
example : (newRequest 2 (some fun _ => ⟨[1, 2, 3], 3, none⟩)).body.Yields [1, 2, 3] ∧
    (newRequest 2 none).body.Yields [] ∧ Request.zero.body.Yields [] ∧
    (Body.buffer [7, 8]).Yields [7, 8] ∧ (Body.reader (.src [5] [0] .eof true)).Yields [5] :=
  ⟨rfl, rfl, rfl, rfl, rfl, rfl⟩

/-! ## C03, C04, C05 -/

/-- Serialise requests one after another onto a stream. -/
def serialise (qs : List Request) : Bytes :=
  (qs.foldl (fun s q => (q.writeTo recorder s).dst) []).flatten

/-- Call `Receive` `n` times, whatever it returns. -/
def receiveN : Nat → Rd → List (Option Request × Option Err) × Rd
  | 0, r => ([], r)
  | n + 1, r =>
    match Conn.receive r with
    | (q, e, r') => let o := receiveN n r'; ((q, e) :: o.1, o.2)

theorem foldl_recorder (qs : List (Request × Bytes))
    (h : ∀ p ∈ qs, p.1.body.Yields p.2 ∧ 8 + p.2.length ≤ 65535) (s : List Bytes) :
    (qs.map (·.1)).foldl (fun s q => (q.writeTo recorder s).dst) s = s ++ qs.map (fun p =>
      Header.bytes { p.1.header with length := UInt16.ofNat (8 + p.2.length) } ++ p.2) := by
  induction qs generalizing s with
  | nil => simp
  | cons p t ih =>
    obtain ⟨h1, h2⟩ := h p (by simp)
    simp only [List.map_cons, List.foldl_cons]
    rw [ih (fun x hx => h x (by simp [hx]))]
    obtain ⟨q', _, ⟨_, hw⟩ | ⟨hc, _⟩⟩ := p.1.writeTo_yields recorder p.2 s h1
    · have hne : Header.bytes { p.1.header with length := UInt16.ofNat (8 + p.2.length) } ++ p.2 ≠ [] := by
        intro hc; have := congrArg List.length hc; simp [Header.bytes_length] at this
      rw [hw]
      simp only [bufWriteTo, hne, if_false, recorder]
      simp
    · omega

private theorem receive_stream (F : Err) (qs : List (Request × Bytes))
    (h : ∀ p ∈ qs, p.1.body.Yields p.2 ∧ 8 + p.2.length ≤ 65535) (r : Rd) (tail : Bytes)
    (hr : r.Ok F) (hl : (∀ p ∈ qs, r.Late p.2.length) ∨ tail ≠ [])
    (hc : r.content = (qs.map (fun p => Header.bytes
      { p.1.header with length := UInt16.ofNat (8 + p.2.length) } ++ p.2)).flatten ++ tail) :
    (receiveN qs.length r).1 = qs.map (fun p => (some ⟨
        { p.1.header with length := UInt16.ofNat (8 + p.2.length) }, .buffer p.2, 1,
        (p.1.header.version - 1).toNat, p.2.length⟩, none)) ∧
      (receiveN qs.length r).2.content = tail ∧ (receiveN qs.length r).2.Ok F := by
  induction qs generalizing r with
  | nil => exact ⟨rfl, by simpa [receiveN] using hc, hr⟩
  | cons p t ih =>
    obtain ⟨h1, h2⟩ := h p (by simp)
    have hu : (UInt16.ofNat (8 + p.2.length)).toNat = 8 + p.2.length := by
      simp only [UInt16.toNat_ofNat']; omega
    generalize hH : ({ p.1.header with length := UInt16.ofNat (8 + p.2.length) } : Header) = H at *
    have hHl : H.len = 8 + p.2.length := by rw [← hH]; exact hu
    have hHv : H.version = p.1.header.version := by rw [← hH]
    simp only [List.map_cons, List.flatten_cons, List.append_assoc, hH] at hc
    generalize hT : (t.map (fun p => Header.bytes
      { p.1.header with length := UInt16.ofNat (8 + p.2.length) } ++ p.2)).flatten ++ tail = T at *
    have ho : Header.ofBytes r.content = H := by rw [hc]; exact Header.ofBytes_bytes _ _
    have hcl : r.content.length = 8 + p.2.length + T.length := by
      rw [hc]; simp [Header.bytes_length]; omega
    have hb : (r.content.drop 8).take (H.len - 8) = p.2 := by
      rw [hc, List.drop_append_of_le_length (by simp [Header.bytes_length]),
        List.drop_eq_nil_of_le (by simp [Header.bytes_length]), List.nil_append, hHl]
      simp
    rcases Conn.receive_spec F r hr with ⟨g, _⟩ | ⟨_, g, _⟩ | ⟨_, g1, g2, r', g3, g4, g5, g6⟩ |
      ⟨g1, g2, r', g3, g4, g5⟩
    · omega
    · rw [ho, hHl] at g; omega
    · exfalso
      rw [ho, hHl] at g2 g6
      rcases hl with hl | hl
      · have := g6 (by simpa using hl p (by simp)); omega
      · have : T.length ≠ 0 := by
          rw [← hT]; simp only [List.length_append]
          have : tail.length ≠ 0 := by simpa using hl
          omega
        omega
    · rw [ho] at g3 g4
      have hT' : r'.content = T := by
        rw [g4.content.2, hc, hHl, ← List.append_assoc, List.drop_append_of_le_length
          (by simp [Header.bytes_length]), List.drop_eq_nil_of_le (by simp [Header.bytes_length]),
          List.nil_append]
      have hl' : (∀ p ∈ t, r'.Late p.2.length) ∨ tail ≠ [] := by
        rcases hl with hl | hl
        · exact .inl (fun x hx => (hl x (by simp [hx])).adv (Nat.le_refl _) g4)
        · exact .inr hl
      obtain ⟨i1, i2, i3⟩ := ih (fun x hx => h x (by simp [hx])) r' g5 hl' (by rw [hT', ← hT])
      simp only [List.length_cons, receiveN, g3]
      refine ⟨?_, i2, i3⟩
      rw [i1, hb, hHv, hHl, List.map_cons, ← hH, Nat.add_sub_cancel_left]

/-- C03.  Requests serialised onto a stream and received at the other end, for a transport
that reports the end of the stream (any error `F`) in a call of its own: the same headers
(with the length field filled in) and bodies in the same order, independent of the
fragmentation; what follows on the stream is left for the next call; when nothing follows,
the next `Receive` returns the stream's own error and no request. -/
theorem stream_framing (F : Err) (qs : List (Request × Bytes))
    (h : ∀ p ∈ qs, p.1.body.Yields p.2 ∧ 8 + p.2.length ≤ 65535) (r : Rd) (tail : Bytes)
    (hr : r.Ok F) (hs : r.Sep) (hc : r.content = serialise (qs.map (·.1)) ++ tail) :
    (receiveN qs.length r).1 = qs.map (fun p => (some ⟨
        { p.1.header with length := UInt16.ofNat (8 + p.2.length) }, .buffer p.2, 1,
        (p.1.header.version - 1).toNat, p.2.length⟩, none)) ∧
      (receiveN qs.length r).2.content = tail ∧
      (tail = [] → ∃ r', Conn.receive (receiveN qs.length r).2 = (none, some F, r')) := by
  rw [serialise, foldl_recorder qs h] at hc
  obtain ⟨h1, h2, h3⟩ := receive_stream F qs h r tail hr (.inl fun p _ => .inl hs) hc
  refine ⟨h1, h2, fun ht => ?_⟩
  subst ht
  rcases Conn.receive_spec F _ h3 with ⟨_, r', g, _⟩ | ⟨g, _⟩ | ⟨g, _⟩ | ⟨g1, g2, _⟩
  · refine ⟨r', ?_⟩; rw [g, h2]; simp [headerErr]
  · rw [h2] at g; simp at g
  · rw [h2] at g; simp at g
  · rw [h2] at g1 g2; simp at g2; omega

/-- C03, C05.  For *any* transport, also one that reports its error together with the last
bytes: every message that is followed by at least one more byte is delivered. -/
theorem stream_framing_followed (F : Err) (qs : List (Request × Bytes))
    (h : ∀ p ∈ qs, p.1.body.Yields p.2 ∧ 8 + p.2.length ≤ 65535) (r : Rd) (tail : Bytes)
    (hr : r.Ok F) (ht : tail ≠ []) (hc : r.content = serialise (qs.map (·.1)) ++ tail) :
    (receiveN qs.length r).1 = qs.map (fun p => (some ⟨
        { p.1.header with length := UInt16.ofNat (8 + p.2.length) }, .buffer p.2, 1,
        (p.1.header.version - 1).toNat, p.2.length⟩, none)) ∧
      (receiveN qs.length r).2.content = tail := by
  rw [serialise, foldl_recorder qs h] at hc
  obtain ⟨h1, h2, h3⟩ := receive_stream F qs h r tail hr (.inr ht) hc
  exact ⟨h1, h2⟩

/-- Non-vacuity: two messages, split in the middle of the second header. -/
example : (receiveN 3 (.buf [] none (.src (serialise [newRequest 2 (some fun _ => ⟨[9], 1, none⟩),
    newRequest 3 none]) [10, 1] (.io 1) false))).1.map (fun p => (p.1.isSome, p.2)) =
      [(true, none), (true, none), (false, some (.io 1))] := by decide +kernel

/-- C04.  A request is delivered only if all of its declared bytes were there: what was
consumed is a header that declares exactly the size of what was consumed, followed by the
delivered body. -/
theorem receive_delivered (F : Err) (r r' : Rd) (q : Request) (e : Option Err) (hr : r.Ok F)
    (h : Conn.receive r = (some q, e, r')) :
    e = none ∧ ∃ msg b, r.content = msg ++ r'.content ∧ q.body = .buffer b ∧
      Layout msg [.num 1 q.header.version.toNat, .num 1 q.header.type.toNat, .num 2 msg.length,
        .num 4 q.header.transaction.toNat, .raw b] ∧
      q.header.length.toNat = msg.length ∧ q.contentLength = b.length := by
  rcases Conn.receive_spec F r hr with ⟨_, _, g, _⟩ | ⟨_, _, _, g, _⟩ | ⟨_, _, _, _, g, _⟩ |
    ⟨g1, g2, r2, g3, g4, g5⟩
  · rw [g] at h; simp at h
  · rw [g] at h; simp at h
  · rw [g] at h; simp at h
  · rw [g3] at h
    simp only [Prod.mk.injEq, Option.some.injEq] at h
    obtain ⟨hq, he, hr'⟩ := h
    subst hr'
    refine ⟨he.symm, ?_⟩
    generalize hH : Header.ofBytes r.content = H at *
    have hl8 : 8 ≤ r.content.length := by omega
    have hb8 : H.bytes = r.content.take 8 := by rw [← hH]; exact Header.bytes_ofBytes hl8
    have hml : (H.bytes ++ (r.content.drop 8).take (H.len - 8)).length = H.len := by
      simp [Header.bytes_length]; omega
    refine ⟨H.bytes ++ (r.content.drop 8).take (H.len - 8), (r.content.drop 8).take (H.len - 8),
      ?_, by rw [← hq], ?_, ?_, ?_⟩
    · rw [g4.content.2, hb8]
      have e1 : H.len = 8 + (H.len - 8) := by omega
      conv => rhs; rhs; rw [e1, ← List.drop_drop]
      rw [List.append_assoc, List.take_append_drop, List.take_append_drop]
    · rw [← hq, hml]
      simp only [Header.bytes, List.append_assoc, Layout.u8, Layout.u16, Layout.u32, Header.len]
      simp
    · rw [hml, ← hq]; rfl
    · rw [← hq]; simp; omega

/-- Non-vacuity: a message in three pieces, followed by a byte of the next. -/
example : ((Conn.receive (.buf [] none (.src [4, 2, 0, 10, 0, 0, 0, 1, 7, 7, 4] [3, 5] .eof true))).1.map
    (fun q => (q.header, q.contentLength))) = some (⟨4, 2, 10, 1⟩, 2) := by decide +kernel

/-- C04.  A request is never delivered together with an error, and some error is reported
when none is delivered. -/
theorem receive_exclusive (r : Rd) :
    (Conn.receive r).1.isSome = true ↔ (Conn.receive r).2.1 = none := by
  simp only [Conn.receive]
  rcases Request.readFrom .zero r with ⟨q, n, e, r'⟩
  cases e <;> simp

/-- C04.  A declared length below 8 is a corrupted header. -/
theorem receive_corrupted (F : Err) (r : Rd) (h : Header) (tail : Bytes) (hr : r.Ok F)
    (hc : r.content = h.writeTo.out ++ tail) (hl : h.length.toNat < 8) :
    ∃ r', Conn.receive r = (none, some .corruptedHeader, r') := by
  rw [Header.writeTo_eq] at hc
  have ho : Header.ofBytes r.content = h := by rw [hc]; exact Header.ofBytes_bytes _ _
  have hcl : r.content.length = 8 + tail.length := by rw [hc]; simp [Header.bytes_length]
  rcases Conn.receive_spec F r hr with ⟨g, _⟩ | ⟨_, _, r', g, _⟩ | ⟨_, g1, _⟩ | ⟨g1, _⟩
  · omega
  · exact ⟨r', g⟩
  · rw [ho] at g1; simp only [Header.len] at g1; omega
  · rw [ho] at g1; simp only [Header.len] at g1; omega

/-- C04.  A stream that ends before the declared length: no request, and the transport's
error (inside the header an `io.EOF` may be reported as `io.ErrUnexpectedEOF`). -/
theorem receive_truncated (F : Err) (r : Rd) (hr : r.Ok F)
    (ht : r.content.length < 8 ∨
      ∃ h tail, r.content = Header.bytes h ++ tail ∧ 8 ≤ h.length.toNat ∧
        8 + tail.length < h.length.toNat) :
    (Conn.receive r).1 = none ∧ ((Conn.receive r).2.1 = some F ∨
      (F = .eof ∧ r.content.length < 8 ∧ (Conn.receive r).2.1 = some .unexpectedEOF)) := by
  rcases ht with ht | ⟨h, tail, hc, h8, hl⟩
  · rcases Conn.receive_spec F r hr with ⟨_, r', g, _⟩ | ⟨g, _⟩ | ⟨g, _⟩ | ⟨g1, g2, _⟩
    · rw [g]
      refine ⟨rfl, ?_⟩
      simp only [headerErr]
      split
      · rename_i h; exact .inr ⟨h.2, ht, rfl⟩
      · exact .inl rfl
    · omega
    · omega
    · omega
  · have ho : Header.ofBytes r.content = h := by rw [hc]; exact Header.ofBytes_bytes _ _
    have hcl : r.content.length = 8 + tail.length := by rw [hc]; simp [Header.bytes_length]
    rcases Conn.receive_spec F r hr with ⟨g, _⟩ | ⟨_, g, _⟩ | ⟨_, _, _, r', g, _⟩ | ⟨_, g, _⟩
    · omega
    · rw [ho] at g; simp only [Header.len] at g; omega
    · rw [g]; exact ⟨rfl, .inl rfl⟩
    · rw [ho] at g; simp only [Header.len] at g; omega

/-- Non-vacuity: 12 bytes declared, 10 there. -/
example : ([4, 2, 0, 12, 0, 0, 0, 1, 7, 7] : Bytes) = Header.bytes ⟨4, 2, 12, 1⟩ ++ [7, 7] ∧
    8 ≤ (12 : UInt16).toNat ∧ 8 + [7, 7].length < (12 : UInt16).toNat := by decide

/-- C04, a truncation that looks like a regular end of the stream: when the stream ends
inside a header, after 1, 2 or 4 of its bytes, `Receive` returns plain `io.EOF`. -/
theorem receive_truncated_clean_eof (r : Rd) (hr : r.Ok .eof)
    (h : r.content.length = 1 ∨ r.content.length = 2 ∨ r.content.length = 4) :
    (Conn.receive r).2.1 = some .eof := by
  rcases Conn.receive_spec .eof r hr with ⟨_, r', g, _⟩ | ⟨g, _⟩ | ⟨g, _⟩ | ⟨g1, g2, _⟩
  · rw [g]; rcases h with h | h | h <;> simp [headerErr, h]
  · omega
  · omega
  · omega

/-- C05, the part that holds: on a connection (a 4096-byte `bufio.Reader` over any
transport, also one that returns its error together with the last bytes), a complete
message is delivered if its body has fewer than 4096 bytes.  Missing: longer bodies. -/
theorem receive_with_eof_partial (F : Err) (b : Bytes) (e : Option Err) (t : Rd) (h : Header)
    (body tail : Bytes) (hr : (Rd.buf b e t).Ok F)
    (hc : (Rd.buf b e t).content = Header.bytes h ++ (body ++ tail))
    (hl : h.length.toNat = 8 + body.length) (hb : body.length < 4096) :
    ∃ q r', Conn.receive (.buf b e t) = (some q, none, r') ∧ q.header = h ∧
      q.body = .buffer body ∧ r'.content = tail := by
  generalize hR : Rd.buf b e t = r at *
  have ho : Header.ofBytes r.content = h := by rw [hc]; exact Header.ofBytes_bytes _ _
  have hcl : r.content.length = 8 + body.length + tail.length := by
    rw [hc]; simp [Header.bytes_length]; omega
  have hlate : r.Late (h.len - 8) := .inr ⟨by simp [Header.len, bufSize]; omega, b, e, t, hR.symm⟩
  rcases Conn.receive_spec F r hr with ⟨g, _⟩ | ⟨_, g, _⟩ | ⟨_, _, _, r', _, _, _, g⟩ |
    ⟨g1, g2, r', g3, g4, _⟩
  · omega
  · rw [ho] at g; simp only [Header.len] at g; omega
  · rw [ho] at g; have := g hlate; simp only [Header.len] at this; omega
  · rw [ho] at g3 g4
    refine ⟨_, r', g3, rfl, ?_, ?_⟩
    · simp only [Body.buffer.injEq]
      rw [hc, List.drop_append_of_le_length (by simp [Header.bytes_length]),
        List.drop_eq_nil_of_le (by simp [Header.bytes_length]), List.nil_append]
      simp [Header.len, hl]
    · rw [g4.content.2, hc]
      simp only [Header.len, hl, ← List.append_assoc]
      rw [List.drop_append_of_le_length (by simp [Header.bytes_length]),
        List.drop_eq_nil_of_le (by simp [Header.bytes_length])]
      simp

/-- Non-vacuity. -/
example : (Conn.receive (.buf [] none (.src [4, 2, 0, 10, 0, 0, 0, 1, 7, 7] [7] .eof true))).2.1 = none := by
  decide +kernel

/-- C05 is false in general: every message with a body of at least 4096 bytes is lost when
the header arrives first and the transport then returns the body together with `io.EOF`,
although every byte has arrived. -/
theorem receive_with_eof_false (h : Header) (body : Bytes) (hl : h.length.toNat = 8 + body.length)
    (hb : 4096 ≤ body.length) (F : Err) :
    (Conn.receive (.buf [] none (.src (h.bytes ++ body) [7] F true))).1 = none ∧
      (Conn.receive (.buf [] none (.src (h.bytes ++ body) [7] F true))).2.1 = some F := by
  have hbn : body ≠ [] := by intro hc; rw [hc] at hb; simp at hb
  obtain ⟨x0, x1, x2, x3, x4, x5, x6, x7, e0⟩ : ∃ x0 x1 x2 x3 x4 x5 x6 x7,
      h.bytes = [x0, x1, x2, x3, x4, x5, x6, x7] := by
    simp only [Header.bytes, be, putBE, Wire.size, List.cons_append, List.nil_append]
    exact ⟨_, _, _, _, _, _, _, _, rfl⟩
  have hrd : (Header.readFrom .zero (.buf [] none (.src (h.bytes ++ body) [7] F true))).rd =
      .buf [] none (.src body [] F true) := by
    rw [e0]
    simp [Header.readFrom, Enc.readFrom, Enc.num, Enc.bin, readFull, readLoop, Rd.read, bufSize, hbn]
  have hok : (Rd.buf [] none (.src (h.bytes ++ body) [7] F true)).Ok F := by simp [Rd.Ok]
  rcases Header.read_spec F .zero _ hok with ⟨_, r', g, _⟩ | ⟨g, _⟩
  · rw [g] at hrd
    simp only at hrd
    have ho : Header.ofBytes (Rd.buf [] none (.src (h.bytes ++ body) [7] F true)).content = h := by
      simp [Rd.content, Header.ofBytes_bytes]
    have hb2 : bodyLoop (body.length + 1) body.length (.buf [] none (.src body [] F true)) =
        (body, some F, .buf [] none (.src [] [] F true)) := by
      have h0 : body.length ≠ 0 := by omega
      simp [bodyLoop, Rd.read, bufSize, hbn, hb]
    have hh : h.len = 8 + body.length := hl
    have hn : ¬ 8 + body.length < 8 := by omega
    simp [Conn.receive, Request.readFrom, Request.zero, g, ho, hrd, hh, headerlen, hb2, hn]
  · simp [Rd.content, Header.bytes_length] at g; omega

/-! ## C06 -/

/-- Call `WriteTo` `k` times on one request. -/
def resend : Nat → Request → List Bytes → List Bytes
  | 0, _, s => s
  | k + 1, q, s => resend k (q.writeTo recorder s).req (q.writeTo recorder s).dst

/-- The body is absent, a nil message, or a message whose serialiser always produces the
same output (also if that is an error). -/
def SameBody : Body → Prop
  | .nil => True
  | .copy c => c.wt = none ∨ ∃ w, c.wt = some (fun _ => w)
  | _ => False

private theorem sameBody_writeTo (q : Request) (h : SameBody q.body) :
    ∃ out : List Bytes, (∀ s (q' : Request), (q'.body = .nil ↔ q.body = .nil) →
        (∀ c, q.body = .copy c → ∃ c', q'.body = .copy c' ∧ c'.wt = c.wt) →
        q'.header.version = q.header.version → q'.header.type = q.header.type →
        q'.header.transaction = q.header.transaction →
        (q'.writeTo recorder s).dst = s ++ out) := by
  obtain ⟨hd, body, pm, pn, cl⟩ := q
  cases body with
  | nil =>
    refine ⟨[Header.bytes { hd with length := 8 }], ?_⟩
    rintro s ⟨⟨v, t, l, x⟩, body', pm', pn', cl'⟩ hb - h1 h2 h3
    simp only [iff_true] at hb h1 h2 h3
    subst hb h1 h2 h3
    have hw := header_single_write { hd with length := 8 } s
    simp [Header.writeTo_eq] at hw
    simp [Request.writeTo, headerlen, hw]
  | copy c =>
    have key : ∀ (H : Header) (b : Bytes) (s : List Bytes), (bufWriteTo recorder (H.bytes ++ b) s).2.2 =
        s ++ [H.bytes ++ b] := by
      intro H b s
      have hne : H.bytes ++ b ≠ [] := by
        intro hc; have := congrArg List.length hc; simp [Header.bytes_length] at this
      simp only [bufWriteTo, hne, if_false, recorder]
      simp
    simp only [SameBody] at h
    rcases h with h | ⟨w, h⟩
    · refine ⟨[Header.bytes { hd with length := 8 } ++ []], ?_⟩
      rintro s ⟨⟨v, t, l, x⟩, body', pm', pn', cl'⟩ - hb h1 h2 h3
      obtain ⟨c', hb, hw⟩ := hb c rfl
      simp only at hb h1 h2 h3
      subst hb h1 h2 h3
      simp only [Request.writeTo, Body.copyTo, CopyReader.writeTo, hw, h, Header.writeTo_eq, key]
      simp [headerlen]
    · by_cases he : w.err = none
      · by_cases hl : 65535 < w.n + 8
        · refine ⟨[], ?_⟩
          rintro s ⟨⟨v, t, l, x⟩, body', pm', pn', cl'⟩ - hb h1 h2 h3
          obtain ⟨c', hb, hw⟩ := hb c rfl
          simp only at hb h1 h2 h3
          subst hb h1 h2 h3
          simp [Request.writeTo, Body.copyTo, CopyReader.writeTo, hw, h, he, headerlen, hl]
        · refine ⟨[Header.bytes { hd with length := UInt16.ofNat headerlen + UInt16.ofNat w.out.length }
            ++ w.out], ?_⟩
          rintro s ⟨⟨v, t, l, x⟩, body', pm', pn', cl'⟩ - hb h1 h2 h3
          obtain ⟨c', hb, hw⟩ := hb c rfl
          simp only at hb h1 h2 h3
          subst hb h1 h2 h3
          have hl' : ¬ 65535 < w.n + headerlen := hl
          simp only [Request.writeTo, Body.copyTo, CopyReader.writeTo, hw, h, he, Header.writeTo_eq,
            hl', if_false, key]
      · obtain ⟨e, he⟩ := Option.ne_none_iff_exists'.mp he
        refine ⟨[], ?_⟩
        rintro s ⟨⟨v, t, l, x⟩, body', pm', pn', cl'⟩ - hb h1 h2 h3
        obtain ⟨c', hb, hw⟩ := hb c rfl
        simp only at hb h1 h2 h3
        subst hb h1 h2 h3
        simp [Request.writeTo, Body.copyTo, CopyReader.writeTo, hw, h, he]
  | buffer b => exact absurd h (by simp [SameBody])
  | reader r => exact absurd h (by simp [SameBody])

private theorem writeTo_req {ω : Type} (w : Dst ω) (q : Request) (s : ω) :
    (q.writeTo w s).req.header.version = q.header.version ∧
    (q.writeTo w s).req.header.type = q.header.type ∧
    (q.writeTo w s).req.header.transaction = q.header.transaction ∧
    (q.body = .nil → (q.writeTo w s).req.body = .nil) ∧
    (∀ c, q.body = .copy c → ∃ c', (q.writeTo w s).req.body = .copy c' ∧ c'.wt = c.wt) := by
  obtain ⟨hd, body, pm, pn, cl⟩ := q
  cases body with
  | nil => simp [Request.writeTo]
  | copy c =>
    have hc : ∃ wr c', c.writeTo = (wr, c') ∧ c'.wt = c.wt := by
      cases hw : c.wt with
      | none => exact ⟨⟨[], 0, none⟩, c, by simp only [CopyReader.writeTo, hw], hw⟩
      | some f => exact ⟨f c.calls, { c with calls := c.calls + 1 },
          by simp only [CopyReader.writeTo, hw], hw⟩
    obtain ⟨⟨o, n, e⟩, c', h1, h2⟩ := hc
    cases e with
    | some e => simp [Request.writeTo, Body.copyTo, h1, h2]
    | none =>
      by_cases hl : 65535 < n + headerlen
      · simp [Request.writeTo, Body.copyTo, h1, h2, hl]
      · simp [Request.writeTo, Body.copyTo, h1, h2, hl, Header.writeTo_eq]
  | buffer b =>
    by_cases hl : 65535 < b.length + headerlen <;>
      simp [Request.writeTo, Body.copyTo, hl, Header.writeTo_eq]
  | reader r =>
    rcases hr : readAll r with ⟨o, e, r'⟩
    cases e with
    | some e => simp [Request.writeTo, Body.copyTo, hr]
    | none =>
      by_cases hl : 65535 < o.length + headerlen <;>
        simp [Request.writeTo, Body.copyTo, hr, hl, Header.writeTo_eq]

/-- C06, the part that holds: sending a request without a body, or made by `NewRequest`
from a message whose serialiser is deterministic, `k` times puts `k` identical messages on
the wire (none at all when serialisation fails).  The user may have changed every header
field.  Missing: received requests and other readers as bodies. -/
theorem resend_partial (q : Request) (h : SameBody q.body) (k : Nat) (s : List Bytes) :
    resend k q s = s ++ (List.replicate k (resend 1 q [])).flatten := by
  obtain ⟨out, hout⟩ := sameBody_writeTo q h
  suffices hs : ∀ k s (q' : Request), (q'.body = .nil ↔ q.body = .nil) →
      (∀ c, q.body = .copy c → ∃ c', q'.body = .copy c' ∧ c'.wt = c.wt) →
      q'.header.version = q.header.version → q'.header.type = q.header.type →
      q'.header.transaction = q.header.transaction →
      resend k q' s = s ++ (List.replicate k out).flatten by
    have h0 : ∀ c, q.body = .copy c → ∃ c', q.body = .copy c' ∧ c'.wt = c.wt :=
      fun c hc => ⟨c, hc, rfl⟩
    rw [hs k s q Iff.rfl h0 rfl rfl rfl, hs 1 [] q Iff.rfl h0 rfl rfl rfl]
    simp
  intro k
  induction k with
  | zero => intro s q' _ _ _ _ _; simp [resend]
  | succ k ih =>
    intro s q' g1 g2 g3 g4 g5
    obtain ⟨k1, k2, k3, k4, k5⟩ := writeTo_req recorder q' s
    have hd := hout s q' g1 g2 g3 g4 g5
    rw [resend, hd, ih]
    · simp [List.replicate_succ]
    · constructor
      · intro hn
        cases hb : q.body with
        | nil => rfl
        | copy c =>
          obtain ⟨c', hc', _⟩ := g2 c hb
          obtain ⟨c'', hc'', _⟩ := k5 c' hc'
          rw [hn] at hc''; simp at hc''
        | buffer b => rw [hb] at h; exact absurd h (by simp [SameBody])
        | reader b => rw [hb] at h; exact absurd h (by simp [SameBody])
      · intro hn; exact k4 (g1.mpr hn)
    · intro c hc
      obtain ⟨c', hc', hw'⟩ := g2 c hc
      obtain ⟨c'', hc'', hw''⟩ := k5 c' hc'
      exact ⟨c'', hc'', hw''.trans hw'⟩
    · rw [k1, g3]
    · rw [k2, g4]
    · rw [k3, g5]

/-- Non-vacuity. -/
example : SameBody (newRequest 13 (some fun _ => ⟨[1, 2], 2, none⟩)).body ∧
    resend 2 (newRequest 13 (some fun _ => ⟨[1, 2], 2, none⟩)) [] =
      [[4, 13, 0, 10, 0, 0, 0, 0, 1, 2], [4, 13, 0, 10, 0, 0, 0, 0, 1, 2]] :=
  ⟨.inr ⟨_, rfl⟩, by decide +kernel⟩

/-- C06 is false for received requests (a proxy or an echo that sends what it received
twice): the body is drained by the first send, and the second message is a bare header. -/
theorem resend_received_false (F : Err) (r r' : Rd) (q : Request) (hr : r.Ok F)
    (h : Conn.receive r = (some q, none, r')) (hb : 0 < q.contentLength) :
    ∃ m1 m2, resend 2 q [] = [m1, m2] ∧ m1.length = 8 + q.contentLength ∧ m2.length = 8 ∧
      m1 ≠ m2 := by
  obtain ⟨_, msg, b, _, h2, h3, h4, h5⟩ := receive_delivered F r r' q none hr h
  obtain ⟨hd, body, pm, pn, cl⟩ := q
  simp only at h2 h4 h5 hb h3
  subst h2 h5
  have hlt := hd.length.toNat_lt
  have hl : msg.length = 8 + b.length := by
    obtain ⟨h1, _, h3⟩ := h3
    obtain ⟨h1, _, h3⟩ := h3
    obtain ⟨h1, _, h3⟩ := h3
    obtain ⟨h1, _, h3⟩ := h3
    obtain ⟨h1, _, h3⟩ := h3
    simp only [Layout] at h3
    have := congrArg List.length h3
    simp at this h1
    omega
  have hle : ¬ 65535 < b.length + headerlen := by simp [headerlen]; omega
  have key : ∀ (H : Header) (b : Bytes) (s : List Bytes), bufWriteTo recorder (H.bytes ++ b) s =
      (8 + b.length, none, s ++ [H.bytes ++ b]) := by
    intro H b s
    have hne : H.bytes ++ b ≠ [] := by
      intro hc; have := congrArg List.length hc; simp [Header.bytes_length] at this
    simp only [bufWriteTo, hne, if_false, recorder]
    simp [Header.bytes_length]
  have hz : ¬ 65535 < ([] : Bytes).length + headerlen := by simp [headerlen]
  refine ⟨Header.bytes { hd with length := UInt16.ofNat headerlen + UInt16.ofNat b.length } ++ b,
    Header.bytes { hd with length := UInt16.ofNat headerlen + UInt16.ofNat 0 } ++ [], ?_, ?_, ?_, ?_⟩
  · simp only [resend, Request.writeTo, Body.copyTo, Header.writeTo_eq, hle, hz, if_false, key]
    simp
  · simp [Header.bytes_length]
  · simp [Header.bytes_length]
  · intro hc; have := congrArg List.length hc; simp [Header.bytes_length] at this
    rw [this] at hb; simp at hb

/-- Non-vacuity: a received echo request. -/
example : (Conn.receive (.buf [] none (.src [4, 2, 0, 10, 0, 0, 0, 1, 7, 7] [] .eof false))).1.map
    (fun q => resend 2 q []) = some [[4, 2, 0, 10, 0, 0, 0, 1, 7, 7], [4, 2, 0, 8, 0, 0, 0, 1]] := by
  decide +kernel

/-! ## C07 -/

/-- The results of reading from a `copyReader` with buffers of the given sizes. -/
def readSizes : List Nat → CopyReader → List (Bytes × Option Err)
  | [], _ => []
  | k :: t, c => match c.read k with
    | (o, e, c') => (o, e) :: readSizes t c'

/-- C07, the part that holds: if the serialiser produced some bytes before it failed, then
the first read returns a beginning of them (without an error) and every later read returns
the error; the end of the data is never reported.  Missing: failures before any output. -/
theorem body_read_error_partial (f : Nat → Wr) (e : Err) (he : (f 0).err = some e)
    (ho : (f 0).out ≠ []) (k : Nat) (ks : List Nat) :
    readSizes (k :: ks) ⟨some f, 0, [], none, false⟩ =
      ((f 0).out.take k, none) :: ks.map (fun _ => ([], some e)) := by
  have h1 : CopyReader.read k ⟨some f, 0, [], none, false⟩ =
      ((f 0).out.take k, none, ⟨some f, 1, (f 0).out.drop k, some e, true⟩) := by
    simp [CopyReader.read, CopyReader.init, CopyReader.writeTo, bufRead, ho, he]
  have h2 : ∀ (ks : List Nat) (c : CopyReader), c.rerr = some e →
      readSizes ks c = ks.map (fun _ => ([], some e)) := by
    intro ks
    induction ks with
    | nil => intro c _; rfl
    | cons k t ih =>
      intro c hc
      simp only [readSizes, CopyReader.read, hc, List.map_cons]
      rw [ih c hc]
  simp only [readSizes, h1]
  rw [h2 ks _ rfl]

/-- Non-vacuity. -/
example : readSizes [1, 5] ⟨some fun _ => ⟨[1, 2], 2, some (.io 3)⟩, 0, [], none, false⟩ =
    [([1], none), ([], some (.io 3))] := by decide

/-- C07 is false for a serialiser that fails before it has written anything, which is what
every encoder built on `encoding.WriteTo` does: the first read with a non-empty buffer
reports a clean end of the data, so `io.Copy`, `ioutil.ReadAll`, ... see an empty body (only
a read after the reported end would return the error). -/
theorem body_read_error_false (f : Nat → Wr) (e : Err) (he : (f 0).err = some e)
    (ho : (f 0).out = []) (k k' : Nat) (hk : 0 < k) :
    readSizes [k, k'] ⟨some f, 0, [], none, false⟩ = [([], some .eof), ([], some e)] := by
  have : k ≠ 0 := by omega
  simp [readSizes, CopyReader.read, CopyReader.init, CopyReader.writeTo, bufRead, ho, he, this]

/-- Such a serialiser: any composite encoding with a part that cannot be encoded. -/
example : ((fun _ => Enc.writeTo [.bin [1, 2], .bad] : Nat → Wr) 0).err = some .invalidType ∧
    ((fun _ => Enc.writeTo [.bin [1, 2], .bad] : Nat → Wr) 0).out = [] := by decide

/-! ## C08 -/

/-- What an argument of `encoding.WriteTo` contributes: bytes, or an error. -/
def WElem.result : WElem → Except Err Bytes
  | .nil => .ok []
  | .bin b => .ok b
  | .bad => .error .invalidType
  | .writer w => match w.err with
    | none => .ok w.out
    | some e => .error e

private theorem gather_ok (v : List WElem) (bs : List Bytes)
    (h : v.map WElem.result = bs.map .ok) : Enc.gather v = (bs.flatten, none) := by
  induction v generalizing bs with
  | nil => cases bs <;> simp at h; simp [Enc.gather]
  | cons x t ih =>
    cases bs with
    | nil => simp at h
    | cons b bs =>
      simp only [List.map_cons, List.cons.injEq] at h
      have ht := ih bs h.2
      cases x with
      | nil => simp [WElem.result] at h; simp [Enc.gather, ht, ← h.1]
      | bin c => simp [WElem.result] at h; simp [Enc.gather, ht, ← h.1]
      | bad => simp [WElem.result] at h
      | writer w =>
        cases hw : w.err with
        | none => simp [WElem.result, hw] at h; simp [Enc.gather, hw, ht, ← h.1]
        | some e => simp [WElem.result, hw] at h

private theorem gather_err (v t : List WElem) (bs : List Bytes) (x : WElem) (e : Err)
    (h : v.map WElem.result = bs.map .ok) (hx : WElem.result x = .error e) :
    (Enc.gather (v ++ x :: t)).2 = some e := by
  induction v generalizing bs with
  | nil =>
    cases x with
    | nil => simp [WElem.result] at hx
    | bin c => simp [WElem.result] at hx
    | bad => simp [WElem.result] at hx; simp [Enc.gather, hx]
    | writer w =>
      cases hw : w.err with
      | none => simp [WElem.result, hw] at hx
      | some e' => simp [WElem.result, hw] at hx; simp [Enc.gather, hw, hx]
  | cons y v ih =>
    cases bs with
    | nil => simp at h
    | cons b bs =>
      simp only [List.map_cons, List.cons.injEq] at h
      have ht := ih bs h.2
      cases y with
      | nil => simpa [Enc.gather] using ht
      | bin c => simpa [Enc.gather] using ht
      | bad => simp [WElem.result] at h
      | writer w =>
        cases hw : w.err with
        | none => simpa [Enc.gather, hw] using ht
        | some e => simp [WElem.result, hw] at h

/-- C08.  All parts can be encoded: their bytes reach the destination in order, in one
write (none if there is nothing to write), and the count is the sum of the sizes. -/
theorem writeTo_all (v : List WElem) (bs : List Bytes) (h : v.map WElem.result = bs.map .ok)
    (s : List Bytes) :
    Enc.writeToDst recorder v s =
      ((bs.map List.length).sum, none, if bs.flatten = [] then s else s ++ [bs.flatten]) := by
  simp only [Enc.writeToDst, gather_ok v bs h, bufWriteTo]
  by_cases hb : bs.flatten = []
  · have : (bs.map List.length).sum = 0 := by rw [← List.length_flatten, hb]; rfl
    simp only [hb, if_true, this]
  · simp only [hb, if_false, recorder]
    simp [List.length_flatten]

/-- C08.  Some part cannot be encoded: the first such part's error is returned with count
0 and the destination, whatever it is, is not touched. -/
theorem writeTo_nothing {ω : Type} (w : Dst ω) (v t : List WElem) (bs : List Bytes) (x : WElem)
    (e : Err) (h : v.map WElem.result = bs.map .ok) (hx : WElem.result x = .error e) (s : ω) :
    Enc.writeToDst w (v ++ x :: t) s = (0, some e, s) := by
  have := gather_err v t bs x e h hx
  rcases hg : Enc.gather (v ++ x :: t) with ⟨o, e'⟩
  rw [hg] at this
  simp only at this; subst this
  simp [Enc.writeToDst, hg]

/-- C08.  A destination that fails or writes less than asked for: the error (or
`io.ErrShortWrite`) is returned with the destination's own count; never success. -/
theorem writeTo_dst {ω : Type} (w : Dst ω) (v : List WElem) (bs : List Bytes) (s s' : ω) (m : Nat)
    (e : Option Err) (h : v.map WElem.result = bs.map .ok) (hne : bs.flatten ≠ [])
    (hw : w s bs.flatten = (m, e, s')) (hm : m ≤ bs.flatten.length)
    (hf : e ≠ none ∨ m < bs.flatten.length) :
    ∃ e', Enc.writeToDst w v s = (m, some e', s') ∧ (∀ x, e = some x → e' = x) ∧
      (e = none → e' = .shortWrite) := by
  simp only [Enc.writeToDst, gather_ok v bs h, bufWriteTo, hne, if_false, hw,
    if_neg (Nat.not_lt.mpr hm)]
  cases e with
  | some e => exact ⟨e, rfl, by simp, by simp⟩
  | none =>
    have : m < bs.flatten.length := by simpa using hf
    refine ⟨.shortWrite, ?_, by simp, by simp⟩
    simp only [ne_eq, ite_not]
    rw [if_neg (by omega)]

/-- C08.  The message encoders see the same: `Enc.writeTo` (used by every model of a
message) is `writeToDst` into a buffer. -/
theorem writeTo_buffer (v : List WElem) :
    (Enc.writeToDst recorder v []).1 = (Enc.writeTo v).n ∧
    (Enc.writeToDst recorder v []).2.1 = (Enc.writeTo v).err ∧
    (Enc.writeToDst recorder v []).2.2.flatten = (Enc.writeTo v).out := by
  rcases hg : Enc.gather v with ⟨o, e⟩
  cases e with
  | some e => simp [Enc.writeToDst, Enc.writeTo, hg]
  | none =>
    by_cases ho : o = []
    · simp [Enc.writeToDst, Enc.writeTo, hg, bufWriteTo, ho]
    · simp [Enc.writeToDst, Enc.writeTo, hg, bufWriteTo, ho, recorder]

/-- C08 does not extend to slices: `WriteSliceTo` of elements of which the second fails
has already written the first. -/
theorem writeSliceTo_not_atomic (b : Bytes) (e : Err) (t : List Wr) :
    Enc.writeSliceTo (⟨b, b.length, none⟩ :: ⟨[], 0, some e⟩ :: t) = ⟨b, b.length, some e⟩ := by
  simp [Enc.writeSliceTo]

/-- Non-vacuity: number, nil, sub-message; and a failing sub-message in the middle. -/
example : ([.bin [0, 1], .nil, .writer ⟨[2, 3, 4], 3, none⟩] : List WElem).map WElem.result =
    [[0, 1], [], [2, 3, 4]].map .ok ∧
    WElem.result (.writer ⟨[1], 1, some (.io 2)⟩) = .error (.io 2) := ⟨rfl, rfl⟩

end Verif.Props
