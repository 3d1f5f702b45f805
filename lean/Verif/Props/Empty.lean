import Verif.Empty
import Verif.Props.Request

/-!
# C87: reads that return nothing
-/

namespace Verif.Props
open Verif

/-- Call `Receive` `n` times on a connection with empty reads, see `receiveN`. -/
def receiveN0 : Nat → Rd0 → List (Option Request × Option Err) × Rd0
  | 0, r => ([], r)
  | n + 1, r =>
    match Conn.receive0 r with
    | (q, e, r') => let o := receiveN0 n r'; ((q, e) :: o.1, o.2)

theorem receiveN0_erase (n : Nat) (r : Rd0) :
    receiveN n r.erase = ((receiveN0 n r).1, (receiveN0 n r).2.erase) := by
  induction n generalizing r with
  | zero => rfl
  | succ n ih =>
    have h := Conn.receive0_erase r
    rcases hx : Conn.receive0 r with ⟨q, e, r'⟩
    rw [hx] at h
    simp [receiveN, receiveN0, h, hx, ih]

/-- C87.  A connection on which some reads return no bytes and no error: one such read more or less,
anywhere, changes no request, no error and no byte left for later, for any number of `Receive` calls. -/
theorem receive_insert (n : Nat) (data : Bytes) (a b : List (Option Nat)) (F : Err) (tog : Bool) :
    (receiveN0 n (.buf [] none (.src data (a ++ none :: b) F tog))).1 =
      (receiveN0 n (.buf [] none (.src data (a ++ b) F tog))).1 ∧
    (receiveN0 n (.buf [] none (.src data (a ++ none :: b) F tog))).2.erase =
      (receiveN0 n (.buf [] none (.src data (a ++ b) F tog))).2.erase := by
  have h1 := receiveN0_erase n (.buf [] none (.src data (a ++ none :: b) F tog))
  have h2 := receiveN0_erase n (.buf [] none (.src data (a ++ b) F tog))
  have he : (Rd0.buf [] none (.src data (a ++ none :: b) F tog)).erase =
      (Rd0.buf [] none (.src data (a ++ b) F tog)).erase := by
    simp [Rd0.erase, List.filterMap_append]
  rw [he, h2] at h1
  simp only [Prod.mk.injEq] at h1
  exact ⟨h1.1.symm, h1.2.symm⟩

/-- C87, C03.  Requests serialised onto a stream and received from a transport with any schedule of
reads, empty ones among them: the same headers and bodies in the same order, then the transport's own
error. -/
theorem stream_framing_empty (F : Err) (qs : List (Request × Bytes))
    (h : ∀ p ∈ qs, p.1.body.Yields p.2 ∧ 8 + p.2.length ≤ 65535) (sched : List (Option Nat)) :
    (receiveN0 (qs.length + 1) (.buf [] none (.src (serialise (qs.map (·.1))) sched F false))).1 =
      qs.map (fun p => (some ⟨
        { p.1.header with length := UInt16.ofNat (8 + p.2.length) }, .buffer p.2, 1,
        (p.1.header.version - 1).toNat, p.2.length⟩, none)) ++ [(none, some F)] := by
  have happ : ∀ (n : Nat) (r : Rd), (receiveN (n + 1) r).1 = (receiveN n r).1 ++
      [((Conn.receive (receiveN n r).2).1, (Conn.receive (receiveN n r).2).2.1)] := by
    intro n
    induction n with
    | zero => intro r; rfl
    | succ n ih =>
      intro r
      have hl : receiveN (n + 1 + 1) r = (((Conn.receive r).1, (Conn.receive r).2.1) ::
        (receiveN (n + 1) (Conn.receive r).2.2).1, (receiveN (n + 1) (Conn.receive r).2.2).2) := rfl
      have hr : receiveN (n + 1) r = (((Conn.receive r).1, (Conn.receive r).2.1) ::
        (receiveN n (Conn.receive r).2.2).1, (receiveN n (Conn.receive r).2.2).2) := rfl
      rw [hl, hr]
      simp [ih]
  have hr := receiveN0_erase (qs.length + 1) (.buf [] none (.src (serialise (qs.map (·.1))) sched F false))
  obtain ⟨h1, h2, h3⟩ := stream_framing F qs h
    (Rd0.buf [] none (.src (serialise (qs.map (·.1))) sched F false)).erase []
    (by simp [Rd0.erase, Rd.Ok]) (by simp [Rd0.erase, Rd.Sep]) (by simp [Rd0.erase, Rd.content])
  obtain ⟨r', h3⟩ := h3 rfl
  have := happ qs.length (Rd0.buf [] none (.src (serialise (qs.map (·.1))) sched F false)).erase
  rw [hr, h1, h3] at this
  exact this

/-- Non-vacuity: two messages, with empty reads in the middle of a header, in the middle of a body and
before the end of the stream. -/
example : (receiveN0 3 (.buf [] none (.src (serialise [newRequest 2 (some fun _ => ⟨[9, 8], 2, none⟩),
    newRequest 3 none]) [none, some 2, none, none, some 5, none, some 20, none] (.io 1) false))).1.map
      (fun p => (p.1.map (fun q => (q.header, q.contentLength)), p.2)) =
      [(some (⟨4, 2, 10, 0⟩, 2), none), (some (⟨4, 3, 8, 0⟩, 0), none), (none, some (.io 1))] := by
  decide +kernel

/-- C87.  `io.ReadFull`, which reads the fields of every message: the same bytes, the same error. -/
theorem readFull_insert (k : Nat) (data : Bytes) (a b : List (Option Nat)) (F : Err) (tog : Bool) :
    (readFull0 k (.src data (a ++ none :: b) F tog)).1 = (readFull0 k (.src data (a ++ b) F tog)).1 ∧
    (readFull0 k (.src data (a ++ none :: b) F tog)).2.1 = (readFull0 k (.src data (a ++ b) F tog)).2.1 := by
  have h1 := readFull0_erase k (.src data (a ++ none :: b) F tog)
  have h2 := readFull0_erase k (.src data (a ++ b) F tog)
  have he : (Rd0.src data (a ++ none :: b) F tog).erase = (Rd0.src data (a ++ b) F tog).erase := by
    simp [Rd0.erase, List.filterMap_append]
  rw [he, h2] at h1
  simp only [Prod.mk.injEq] at h1
  exact ⟨h1.1.symm, h1.2.1.symm⟩

example : readFull0 3 (.src [1, 2, 3, 4] [none, some 0, none, none, some 0] .eof false) =
    ([1, 2, 3], none, .src [4] [] .eof false) := by decide +kernel

/-- C87.  `ioutil.ReadAll`, which reads what follows the last field: everything up to the end of the
stream, whatever the schedule. -/
theorem readAll_empty (data : Bytes) (sched : List (Option Nat)) (F : Err) (tog : Bool) :
    (readAll0 (.src data sched F tog)).1 = data ∧
    (readAll0 (.src data sched F tog)).2.1 = if F = .eof then none else some F := by
  have h := readAll0_erase (.src data sched F tog)
  obtain ⟨r', g1, _⟩ := readAll_spec F (Rd0.src data sched F tog).erase (by simp [Rd0.erase, Rd.Ok])
  rw [g1] at h
  simp only [Prod.mk.injEq] at h
  refine ⟨by rw [← h.1]; rfl, ?_⟩
  rw [← h.2.1]
  by_cases hF : F = .eof <;> simp [skipEOF, hF]

/-- C87.  There is no limit: after `n` calls that returned nothing, the loop has neither returned nor
failed, it makes the next call.  (The second component `noProgress` is the model's mark for a loop
that is still running; the first `n` calls are used up.) -/
theorem readFull_spins (n need : Nat) (hn : need ≠ 0) (data : Bytes) (s : List (Option Nat)) (F : Err) (tog : Bool) :
    readLoop0 n need (.src data (List.replicate n none ++ s) F tog) =
      ([], some .noProgress, .src data s F tog) ∧
    ∀ fuel, readLoop0 (n + fuel) need (.src data (List.replicate n none ++ s) F tog) =
      readLoop0 fuel need (.src data s F tog) := by
  induction n with
  | zero => exact ⟨rfl, fun fuel => by simp⟩
  | succ n ih =>
    refine ⟨?_, fun fuel => ?_⟩
    · simp [readLoop0, hn, Rd0.read, List.replicate_succ, ih.1]
    · rw [show n + 1 + fuel = (n + fuel) + 1 by omega]
      simpa [readLoop0, hn, Rd0.read, List.replicate_succ] using ih.2 fuel

/-- C87.  The look-ahead of the list decoders (`bufio.Reader.Peek(2)`), on a reader without 100 empty
reads in a row: what it returns is what the reader without its empty reads gives. -/
theorem peek_calm (data : Bytes) (sched : List (Option Nat)) (F : Err) (tog : Bool)
    (h : ∀ a b, sched ≠ a ++ List.replicate 100 none ++ b) :
    (Rd0.buf [] none (.src data sched F tog)).peek2.1 = data.take 2 ∧
    (Rd0.buf [] none (.src data sched F tog)).peek2.2.1 = if 2 ≤ data.length then none else some F := by
  have hp := (peek20_erase (.buf [] none (.src data sched F tog)) h).1
  generalize (Rd0.buf [] none (.src data sched F tog)).peek2 = p at hp ⊢
  have hok : (Rd.buf [] none (.src data (sched.filterMap id) F tog)).Ok F := by simp [Rd.Ok]
  obtain ⟨b', e', r', _, _, ⟨h1, h2⟩ | ⟨h1, h2⟩⟩ := peek2_spec F _ _ _ hok
  · rw [Rd0.erase, Rd0.erase, h2] at hp
    simp only [Prod.mk.injEq, Rd.content, List.nil_append] at hp h1
    rw [← hp.1, ← hp.2.1, if_pos h1]; exact ⟨rfl, rfl⟩
  · rw [Rd0.erase, Rd0.erase, h2] at hp
    simp only [Prod.mk.injEq, Rd.content, List.nil_append] at hp h1
    rw [← hp.1, ← hp.2.1, if_neg (by omega), List.take_of_length_le (by omega)]; exact ⟨rfl, rfl⟩

/-- Non-vacuity: 99 empty reads, twice, with one byte between them. -/
example : (Rd0.buf [] none (.src [7, 8, 9] (List.replicate 99 none ++ some 0 :: List.replicate 99 none)
    .eof false)).peek2.1 = [7, 8] := by decide +kernel

/-- C87.  And on a reader that starts with 100 of them the list decoder gives up, with
`io.ErrNoProgress`, though the data would follow. -/
theorem peek_gives_up (data : Bytes) (s : List (Option Nat)) (F : Err) (tog : Bool) :
    (Rd0.buf [] none (.src data (List.replicate 100 none ++ s) F tog)).peek2 =
      ([], some .noProgress, .buf [] none (.src data s F tog)) := by
  have hf : ∀ n, fill0 n [] (.src data (List.replicate n none ++ s) F tog) =
      ([], some .noProgress, .src data s F tog) := by
    intro n
    induction n with
    | zero => rfl
    | succ n ih => simpa [fill0, Rd0.read, List.replicate_succ, bufSize] using ih
  have hf := hf 100
  generalize Rd0.src data (List.replicate 100 none ++ s) F tog = r at hf ⊢
  simp [Rd0.peek2, peekFill0, maxEmptyReads, hf]

end Verif.Props
