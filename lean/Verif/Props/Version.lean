import Verif.Props.Request

/-!
# Protocol versions of requests (C56)
-/

namespace Verif.Props
open Verif

/-- C56.  Every request created by `NewRequest` is announced on the wire with version 4,
the number of OpenFlow 1.3, and with the given type, whatever its body. -/
theorem newRequest_version (t : UInt8) (body : Option (Nat → Wr)) (msg : Bytes)
    (h : ((newRequest t body).writeTo recorder []).dst = [msg]) :
    At msg 0 1 4 ∧ At msg 1 1 t.toNat := by
  have key : ∀ (l : UInt16) (x : Bytes), At (Header.bytes ⟨4, t, l, 0⟩ ++ x) 0 1 4 ∧
      At (Header.bytes ⟨4, t, l, 0⟩ ++ x) 1 1 t.toNat := by
    intro l x
    constructor
    · simp [At, Header.bytes, be, Wire.size, putBE, getBE, Wire.toNat]
    · simp only [At, Header.bytes, List.append_assoc]
      refine ⟨by simp; omega, ?_⟩
      rw [List.drop_append_of_le_length (by simp), List.drop_eq_nil_of_le (by simp), List.nil_append,
        List.take_append_of_le_length (by simp), List.take_of_length_le (by simp), getBE_be]
      rfl
  simp only [newRequest, Request.writeTo] at h
  split at h
  · simp at h
  · rename_i buf _ _ _
    split at h
    · simp at h
    · have hne : ∀ l : UInt16, Header.bytes ⟨4, t, l, 0⟩ ++ buf ≠ [] := by
        intro l hc; have := congrArg List.length hc; simp [Header.bytes_length] at this
      have h4 : UInt8.ofNat (1 + 3) = 4 := rfl
      simp only [Header.writeTo_eq, bufWriteTo, h4, hne, recorder, if_false, Nat.lt_irrefl] at h
      simp at h
      rw [← h]
      exact key _ _

/-- C56.  A request created by `NewRequest` is at least version `major.minor` iff this is at
most 1.3 in the order of versions. -/
theorem newRequest_protoAtLeast (t : UInt8) (body : Option (Nat → Wr)) (major minor : Nat) :
    (newRequest t body).protoAtLeast major minor = true ↔
      major < 1 ∨ (major = 1 ∧ minor ≤ 3) := by
  simp [newRequest, Request.protoAtLeast]; omega

/-- C56.  `ProtoAtLeast` is the lexicographic order of versions: a request satisfies a
version exactly when its own version does not lie strictly below it. -/
theorem protoAtLeast_iff (q : Request) (major minor : Nat) :
    q.protoAtLeast major minor = true ↔
      ¬ (q.protoMajor < major ∨ (q.protoMajor = major ∧ q.protoMinor < minor)) := by
  simp [Request.protoAtLeast]; omega

/-- C56.  The version of a received request is the one of its header: wire version `v ≥ 1`
is reported as 1.(v-1), so that `ProtoAtLeast(1, m)` holds iff the wire version is above
`m`. -/
theorem receive_version (F : Err) (r r' : Rd) (q : Request) (e : Option Err) (hr : r.Ok F)
    (h : Conn.receive r = (some q, e, r')) (hv : q.header.version ≠ 0) :
    At r.content 0 1 (q.protoMinor + 1) ∧ q.protoMajor = 1 ∧
    ∀ m, q.protoAtLeast 1 m = true ↔ m < q.header.version.toNat := by
  obtain ⟨_, msg, b, hc, _, hl, hlen, _⟩ := receive_delivered F r r' q e hr h
  have hv' : q.header.version.toNat ≠ 0 := by
    intro hz; exact hv (UInt8.toNat.inj (by simpa using hz))
  have hp : q.protoMajor = 1 ∧ q.protoMinor = (q.header.version - 1).toNat := by
    rcases Conn.receive_spec F r hr with ⟨_, _, g, _⟩ | ⟨_, _, _, g, _⟩ | ⟨_, _, _, _, g, _⟩ |
      ⟨g1, g2, r2, g3, g4, g5⟩
    · rw [g] at h; simp at h
    · rw [g] at h; simp at h
    · rw [g] at h; simp at h
    · rw [g3] at h
      simp only [Prod.mk.injEq, Option.some.injEq] at h
      rw [← h.1]; simp
  have hm : q.protoMinor + 1 = q.header.version.toNat := by
    rw [hp.2, UInt8.toNat_sub]
    have := q.header.version.toNat_lt
    simp; omega
  refine ⟨?_, hp.1, fun m => ?_⟩
  · rw [hm, hc]
    simp only [Layout] at hl
    refine ⟨by rw [List.length_append]; omega, ?_⟩
    rw [List.drop_zero, List.take_append_of_le_length hl.1]
    exact hl.2.1
  · rw [protoAtLeast_iff, hp.1]; omega

/-- C56, the boundary: wire version 0 is reported as version 1.255, which is at least every
version a program asks for. -/
theorem receive_version_zero (F : Err) (r r' : Rd) (q : Request) (e : Option Err) (hr : r.Ok F)
    (h : Conn.receive r = (some q, e, r')) (hv : q.header.version = 0) :
    q.protoMinor = 255 ∧ ∀ m, m ≤ 255 → q.protoAtLeast 1 m = true := by
  have hp : q.protoMajor = 1 ∧ q.protoMinor = (q.header.version - 1).toNat := by
    rcases Conn.receive_spec F r hr with ⟨_, _, g, _⟩ | ⟨_, _, _, g, _⟩ | ⟨_, _, _, _, g, _⟩ |
      ⟨g1, g2, r2, g3, g4, g5⟩
    · rw [g] at h; simp at h
    · rw [g] at h; simp at h
    · rw [g] at h; simp at h
    · rw [g3] at h
      simp only [Prod.mk.injEq, Option.some.injEq] at h
      rw [← h.1]; simp
  have h255 : q.protoMinor = 255 := by rw [hp.2, hv]; decide
  refine ⟨h255, fun m hm => ?_⟩
  rw [protoAtLeast_iff, hp.1, h255]; omega

/-- Non-vacuity: version 4 over a fragmented stream, and version 0. -/
example : (Conn.receive (.buf [] none (.src [4, 2, 0, 8, 0, 0, 0, 1] [3, 5] .eof true))).1.map
      (fun q => (q.protoMinor, q.protoAtLeast 1 3, q.protoAtLeast 1 4)) = some (3, true, false) ∧
    (Conn.receive (.buf [] none (.src [0, 2, 0, 8, 0, 0, 0, 1] [3, 5] .eof true))).1.map
      (fun q => (q.protoMinor, q.protoAtLeast 1 3)) = some (255, true) := by decide +kernel

/-- C01.  A copied header has the same fields, so it is written as the same bytes. -/
theorem header_copy (h : Header) :
    h.copy = h ∧ h.copy.writeTo = h.writeTo ∧ Decodes Header.readFrom h.copy.writeTo.out h :=
  ⟨rfl, rfl, (header_roundtrip h).2.2⟩

/-! ## C65: `ContentLength` -/

/-- What a reader of the body gets: calls of `Read` with the given buffer sizes. -/
def readBody : List Nat → Bytes → Bytes × Option Err
  | [], _ => ([], none)
  | k :: ks, b =>
    match bufRead k b with
    | (o, some e, _) => (o, some e)
    | (o, none, b') => let x := readBody ks b'; (o ++ x.1, x.2)

/-- C65, the part that holds.  The `ContentLength` of a received request is the number of
bytes that can be read from its `Body`, and the length of the header is 8 more: however the
body is read, at most that many bytes come, and `io.EOF` only after all of them. -/
theorem contentLength_partial (F : Err) (r r' : Rd) (q : Request) (e : Option Err) (hr : r.Ok F)
    (h : Conn.receive r = (some q, e, r')) :
    q.header.length.toNat = 8 + q.contentLength ∧
    ∃ b, q.body = .buffer b ∧ ∀ ks, (∀ k ∈ ks, 0 < k) →
      (readBody ks b).1.length ≤ q.contentLength ∧ (readBody ks b).1 <+: b ∧
      ((readBody ks b).2 ≠ none → (readBody ks b).1.length = q.contentLength) := by
  obtain ⟨_, msg, b, hc, hb, hl, hlen, hcl⟩ := receive_delivered F r r' q e hr h
  have hm : msg.length = 8 + b.length := by
    simp only [Layout] at hl
    obtain ⟨h1, _, h2, _, h3, _, h4, _, h5, _, h6⟩ := hl
    have := congrArg List.length h6
    simp only [List.length_drop, List.length_nil] at h1 h2 h3 h4 h5 this
    omega
  refine ⟨by omega, b, hb, ?_⟩
  intro ks hk
  rw [hcl]
  clear hcl hb hc hl hm hlen h
  induction ks generalizing b with
  | nil => simp [readBody]
  | cons k ks ih =>
    have hk0 : k ≠ 0 := by have := hk k (by simp); omega
    simp only [readBody, bufRead]
    by_cases hb : b = []
    · simp [hb, hk0]
    · simp only [hb, if_false]
      obtain ⟨i1, i2, i3⟩ := ih (b.drop k) (fun k hk' => hk k (by simp [hk']))
      simp only [List.length_append, List.length_take]
      rw [List.length_drop] at i1 i3
      refine ⟨by omega, ?_, fun h => by have := i3 h; omega⟩
      obtain ⟨t, ht⟩ := i2
      exact ⟨t, by rw [List.append_assoc, ht, List.take_append_drop]⟩

/-- Non-vacuity: two bytes, read one at a time. -/
example : (Conn.receive (.buf [] none (.src [4, 2, 0, 10, 0, 0, 0, 1, 7, 8, 4] [3, 5] .eof true))).1.map
      (fun q => (q.contentLength, q.body matches .buffer [7, 8])) = some (2, true) ∧
    readBody [1, 1, 1] [7, 8] = ([7, 8], some .eof) := by decide +kernel

/-- C65 is violated.  `NewRequest` never sets `ContentLength`: it is the number of bytes of
the body only if there are none (request.go:94-97, 105-116). -/
theorem newRequest_contentLength_false (t : UInt8) (body : Option (Nat → Wr)) (b : Bytes)
    (h : (newRequest t body).body.Yields b) : (newRequest t body).contentLength = b.length ↔ b = [] := by
  have : (newRequest t body).contentLength = 0 := rfl
  rw [this]
  constructor
  · intro h; exact List.eq_nil_of_length_eq_zero h.symm
  · rintro rfl; rfl

/-- Non-vacuity: an echo request with three bytes. -/
example : (newRequest 2 (some fun _ => ⟨[1, 2, 3], 3, none⟩)).body.Yields [1, 2, 3] ∧
    (newRequest 2 (some fun _ => ⟨[1, 2, 3], 3, none⟩)).contentLength ≠ 3 := by
  refine ⟨?_, by decide⟩
  simp [newRequest, Body.Yields]

end Verif.Props
