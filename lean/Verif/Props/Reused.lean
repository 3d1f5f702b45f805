import Verif.Reused
import Verif.Props.Request
import Verif.Props.Overwrite

/-!
# Property C113: a request can be read into again
-/

namespace Verif.Props

open Verif

/-- C113, the part that holds.  On every stream, with every fragmentation and fault, a program
that reads all messages into one request sees the same requests, the same error and the same
rest of the stream as one that calls `Conn.Receive`, whatever it does to the request between
two reads and whatever the request held before.  Missing: what the request holds when a read
fails (`reused_failed_false`). -/
theorem reused_partial (use : Nat → Request → Request) (n : Nat) (q : Request) (r : Rd) :
    (readReused use n q r).1 = (receiveEach n r).1 ∧
    (readReused use n q r).2.1 = (receiveEach n r).2.1 ∧
    (readReused use n q r).2.2.2 = (receiveEach n r).2.2 := by
  induction n generalizing q r with
  | zero => exact ⟨rfl, rfl, rfl⟩
  | succ n ih =>
    obtain ⟨-, h2, h3, h4⟩ := request_receiver q .zero r
    unfold readReused receiveEach Conn.receive
    rcases ha : Request.readFrom q r with ⟨a, na, ea, ra⟩
    rcases hb : Request.readFrom .zero r with ⟨b, nb, eb, rb⟩
    rw [ha, hb] at h2 h3 h4
    simp only at h2 h3 h4
    subst h2 h3
    cases ea with
    | some e => exact ⟨rfl, rfl, rfl⟩
    | none =>
      have := h4 rfl; subst this
      obtain ⟨i1, i2, i3⟩ := ih (use n a) ra
      exact ⟨by simp only [i1], i2, i3⟩

/-- C113.  A read that fails, in whatever way, leaves the old body and the old ContentLength. -/
theorem reused_failed (q : Request) (r : Rd) (e : Err) (h : (Request.readFrom q r).err = some e) :
    (Request.readFrom q r).val.body = q.body ∧
    (Request.readFrom q r).val.contentLength = q.contentLength := by
  unfold Request.readFrom at h ⊢
  rcases ha : Header.readFrom q.header r with ⟨a, na, ea, ra⟩
  rw [ha] at h
  cases ea with
  | some e => exact ⟨rfl, rfl⟩
  | none =>
    by_cases hl : a.len < headerlen
    · simp [hl]
    · rcases hbl : bodyLoop (a.len - headerlen + 1) (a.len - headerlen) ra with ⟨o, e, r''⟩
      cases e <;> simp [hl, hbl] at h ⊢

/-- C113 is violated when a read fails: the header is already the new one.  Whenever a stream
ends inside the body of a message with header `h`, the request has the header `h` and the body
of the message before; sent on, it is a message that nobody sent.  For all headers, all bodies
before, all beginnings of bodies, all fragmentations. -/
theorem reused_failed_false (q : Request) (b : Bytes) (hb : q.body = .buffer b)
    (hl : 8 + b.length ≤ 65535) (h : Header) (cut : Bytes)
    (hc : 8 + cut.length < h.length.toNat) (r : Rd) (hr : r.Ok .eof)
    (hs : r.content = h.bytes ++ cut) :
    (Request.readFrom q r).err = some .eof ∧
    (Request.readFrom q r).val.header = h ∧ (Request.readFrom q r).val.body = .buffer b ∧
    ∃ msg, ((Request.readFrom q r).val.writeTo recorder []).err = none ∧
      ((Request.readFrom q r).val.writeTo recorder []).dst = [msg] ∧
      Layout msg [.num 1 h.version.toNat, .num 1 h.type.toNat, .num 2 (8 + b.length),
        .num 4 h.transaction.toNat, .raw b] := by
  have key : (Request.readFrom q r).err = some .eof ∧ (Request.readFrom q r).val.header = h := by
    have hd : Decodes Header.readFrom h.bytes h := Reads.decodes (fun s => h.reads s)
    obtain ⟨g1, g2, g3, g4⟩ := hd q.header r cut hr hs
    have gok := (Header.flat q.header r hr).1
    unfold Request.readFrom
    rcases ha : Header.readFrom q.header r with ⟨a, na, ea, ra⟩
    rw [ha] at g1 g2 g3 g4 gok
    simp only at g1 g2 g3 g4 gok
    subst g1 g3
    have hlen : ¬ a.len < headerlen := by simp only [Header.len, headerlen]; omega
    obtain ⟨o, e, r', k1, -, -, k4, k5, k6, k7⟩ := bodyLoop_spec .eof (a.len - headerlen + 1)
      (a.len - headerlen) ra (by omega) gok
    cases e with
    | none =>
      have := k6 rfl
      have hx := congrArg List.length k4
      rw [g4] at hx
      simp only [List.length_append, Header.len, headerlen] at hx this
      omega
    | some e =>
      have := (k7 e rfl).1; subst this
      simp [hlen, k1]
  obtain ⟨k1, k2⟩ := key
  have k3 := (reused_failed q r _ k1).1
  rw [hb] at k3
  refine ⟨k1, k2, k3, ?_⟩
  obtain ⟨msg, j1, j2, -, j4, j5⟩ := request_writeTo (Request.readFrom q r).val b (by rw [k3]; rfl) hl []
  rw [k2, j4] at j5
  exact ⟨msg, j2, by simpa using j1, j5⟩

/-- Non-vacuity of `reused_partial`: two messages read with one request, the first one emptied
in between. -/
example : (readReused (fun _ q => { q with body := .nil, contentLength := 7 }) 3 .zero
      (.src [4, 2, 0, 9, 0, 0, 0, 1, 0xAA, 4, 3, 0, 8, 0, 0, 0, 2] [3] .eof false)).1.map
        (fun q => (q.header.type, q.contentLength)) = [(2, 1), (3, 0)] ∧
    (readReused (fun _ q => { q with body := .nil, contentLength := 7 }) 3 .zero
      (.src [4, 2, 0, 9, 0, 0, 0, 1, 0xAA, 4, 3, 0, 8, 0, 0, 0, 2] [3] .eof false)).2.1 =
        some .eof := by decide +kernel

/-- Non-vacuity of `reused_failed_false`: a flow modification that is cut off after an echo
request with the data `[1, 2]`. -/
example : (Header.mk 4 14 56 9).length.toNat = 56 ∧
    (Rd.src ((Header.mk 4 14 56 9).bytes ++ [0, 0, 0]) [1, 0] .eof false).Ok .eof ∧
    (Request.mk ⟨4, 2, 10, 1⟩ (.buffer [1, 2]) 1 3 2).body = .buffer [1, 2] := ⟨rfl, rfl, rfl⟩

end Verif.Props
