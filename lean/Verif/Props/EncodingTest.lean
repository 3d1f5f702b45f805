import Verif.EncodingTest
import Verif.Props.Group
import Verif.Props.Meter
import Verif.Props.Queue
import Verif.Props.Hello

/-!
# C111: what a passed table test says
-/

namespace Verif.Props

open Verif

/-- What is wanted of an entry: the value is encoded as the bytes, and the bytes are decoded as the
value, by a receiver that is new. -/
def CodecOK {σ : Type} (write : σ → Wr) (read : Step σ) (zero x : σ) (bs : Bytes) : Prop :=
  write x = ⟨bs, bs.length, none⟩ ∧
    (read zero (.src bs [] .eof false)).val = x ∧ (read zero (.src bs [] .eof false)).n = bs.length ∧
    (read zero (.src bs [] .eof false)).err = none

/-- C111: exactly what the test checks, for every table: of each entry the bytes, the counts, and that
decoding *into the value itself* gives something that `gob` cannot tell from it. -/
theorem runMU_iff {σ : Type} (write : σ → Wr) (read : Step σ) (gob : σ → Except Err Bytes) (ts : List (σ × Bytes)) :
    runMU write read gob ts = none ↔ ∀ p ∈ ts, write p.1 = ⟨p.2, p.2.length, none⟩ ∧
      (read p.1 (.src p.2 [] .eof false)).err = none ∧ (read p.1 (.src p.2 [] .eof false)).n = p.2.length ∧
      ∃ g, gob p.1 = .ok g ∧ gob (read p.1 (.src p.2 [] .eof false)).val = .ok g := by
  induction ts with
  | nil => simp [runMU]
  | cons p t ih =>
    obtain ⟨x, bs⟩ := p
    have hM : runM1 (write x) bs = none ↔ write x = ⟨bs, bs.length, none⟩ := by
      rcases hw : write x with ⟨out, n, err⟩
      cases err with
      | some e => simp [runM1]
      | none =>
        simp only [runM1]
        constructor
        · intro h
          split at h
          · cases h
          · split at h
            · cases h
            · rename_i h1 h2
              simp only [ne_eq, Decidable.not_not] at h1 h2
              rw [h1, h2]
        · intro h
          cases h
          simp
    have hU : (runU1 read gob x bs).1 = none ↔ (read x (.src bs [] .eof false)).err = none ∧
        (read x (.src bs [] .eof false)).n = bs.length ∧
        ∃ g, gob x = .ok g ∧ gob (read x (.src bs [] .eof false)).val = .ok g := by
      unfold runU1
      cases hg : gob x with
      | error e => simp
      | ok g =>
        dsimp only
        cases he : (read x (.src bs [] .eof false)).err with
        | some e => simp
        | none =>
          dsimp only
          by_cases hn : (read x (.src bs [] .eof false)).n = bs.length
          · cases hv : gob (read x (.src bs [] .eof false)).val with
            | error e => simp [hn]
            | ok g' =>
              by_cases hgg : g = g'
              · simp [hn, hgg]
              · simp [hn, hgg]
                exact fun h => hgg h.symm
          · simp [hn]
    have hh : runMU write read gob ((x, bs) :: t) = none ↔
        runM1 (write x) bs = none ∧ (runU1 read gob x bs).1 = none ∧ runMU write read gob t = none := by
      simp only [runMU]
      cases runM1 (write x) bs with
      | some f => simp
      | none =>
        rcases hu : runU1 read gob x bs with ⟨f, y⟩
        cases f <;> simp
    rw [hh, hM, hU, ih]
    simp only [List.mem_cons, forall_eq_or_imp]
    constructor
    · rintro ⟨h1, ⟨h2, h3, h4⟩, h5⟩; exact ⟨⟨h1, h2, h3, h4⟩, h5⟩
    · rintro ⟨⟨h1, h2, h3, h4⟩, h5⟩; exact ⟨h1, ⟨h2, h3, h4⟩, h5⟩

/-- C111, the part that holds: if what is decoded does not depend on the receiver (C42) and `gob` tells
values apart, a table that passes says what it is meant to say, for every entry and every receiver.
Missing: decoders that leave something of the receiver as it was, see `runMU_blind_false`. -/
theorem runMU_sound_partial {σ : Type} (write : σ → Wr) (read : Step σ) (gob : σ → Except Err Bytes)
    (hr : ∀ s s' r, read s r = read s' r) (hg : ∀ x y b, gob x = .ok b → gob y = .ok b → x = y)
    (ts : List (σ × Bytes)) (h : runMU write read gob ts = none) :
    ∀ p ∈ ts, ∀ zero, CodecOK write read zero p.1 p.2 := by
  intro p hp zero
  obtain ⟨h1, h2, h3, g, h4, h5⟩ := (runMU_iff write read gob ts).1 h p hp
  have := hg _ _ g h4 h5
  refine ⟨h1, ?_, ?_, ?_⟩ <;> rw [hr zero p.1]
  · exact this.symm
  · exact h3
  · exact h2

/-- A decoder that stores nothing: it takes the whole input and leaves the receiver as it was. -/
def forgetful {σ : Type} : Step σ := fun s r => ⟨s, r.content.length, none, .src [] [] .eof false⟩

/-- C111 is false: a decoder that stores nothing passes every table that is right about the encoder. -/
theorem runMU_blind_false {σ : Type} (write : σ → Wr) (gob : σ → Except Err Bytes) (ts : List (σ × Bytes))
    (hw : ∀ p ∈ ts, write p.1 = ⟨p.2, p.2.length, none⟩) (hg : ∀ p ∈ ts, ∃ g, gob p.1 = .ok g) :
    runMU write forgetful gob ts = none ∧
      ∀ p ∈ ts, ∀ zero, p.1 ≠ zero → ¬ CodecOK write forgetful zero p.1 p.2 := by
  refine ⟨(runMU_iff write forgetful gob ts).2 fun p hp => ⟨hw p hp, rfl, rfl, ?_⟩, ?_⟩
  · obtain ⟨g, h⟩ := hg p hp
    exact ⟨g, h, h⟩
  · intro p _ zero hz h
    exact hz h.2.1.symm

/-- Every table of right entries passes, whatever `gob` does with the values, though the entries with
`lossy` values are decoded as something else by a new receiver. -/
def PassesAnyway {σ : Type} (write : σ → Wr) (read : Step σ) (zero : σ) (valid lossy : σ → Prop) : Prop :=
  (∀ (gob : σ → Except Err Bytes) (xs : List σ), (∀ x ∈ xs, valid x ∧ ∃ g, gob x = .ok g) →
    runMU write read gob (xs.map fun x => (x, (write x).out)) = none) ∧
  ∀ x, lossy x → ¬ CodecOK write read zero x (write x).out

private theorem passes_of {σ : Type} {write : σ → Wr} {read : Step σ} {zero : σ} {valid lossy : σ → Prop}
    (he : ∀ x, valid x → Encodes (write x))
    (hd : ∀ x, valid x → DecodesAllFrom read x (write x).out x)
    (hl : ∀ x, lossy x → (read zero (.src (write x).out [] .eof false)).val ≠ x) :
    PassesAnyway write read zero valid lossy := by
  refine ⟨fun gob xs h => ?_, fun x hx h => hl x hx h.2.1⟩
  rw [runMU_iff]
  intro p hp
  obtain ⟨x, hx, rfl⟩ := List.mem_map.1 hp
  obtain ⟨hv, g, hg⟩ := h x hx
  obtain ⟨d1, d2, d3, _⟩ := hd x hv (.src (write x).out [] .eof false) rfl rfl
  obtain ⟨e1, e2⟩ := he x hv
  refine ⟨?_, d3, d2, g, hg, by rw [d1]; exact hg⟩
  rcases hw : write x with ⟨out, n, err⟩
  simp only [hw] at e1 e2
  simp_all

private theorem all_of_from {σ : Type} {read : Step σ} {s x : σ} {bs : Bytes} (h : DecodesFrom read s bs x) :
    DecodesAllFrom read s bs x := fun r hr hc => h r [] hr (by simpa using hc)

/-- C111 is false for nine messages of the package: their tests pass for all values, and no value with
something in its list is decoded. -/
theorem runMU_messages_false :
    PassesAnyway GroupMod.writeTo GroupMod.readFrom ⟨0, 0, 0, []⟩
      (fun g => ∀ b ∈ g.buckets, (∀ a ∈ b.actions, a.Valid) ∧ b.writeTo.out.length ≤ 65535) (·.buckets ≠ []) ∧
    PassesAnyway GroupStats.writeTo GroupStats.readFrom ⟨0, 0, 0, 0, 0, 0, []⟩
      (fun g => 40 + 16 * g.bucketStats.length ≤ 65535) (·.bucketStats ≠ []) ∧
    PassesAnyway GroupDescStats.writeTo GroupDescStats.readFrom ⟨0, 0, []⟩
      (fun g => (∀ b ∈ g.buckets, ∀ a ∈ b.actions, a.Valid) ∧ g.writeTo.out.length ≤ 65535) (·.buckets ≠ []) ∧
    PassesAnyway MeterMod.writeTo MeterMod.readFrom ⟨0, 0, 0, []⟩ (fun _ => True) (·.bands ≠ []) ∧
    PassesAnyway MeterConfig.writeTo MeterConfig.readFrom ⟨0, 0, []⟩
      (fun m => 8 + 16 * m.bands.length ≤ 65535) (·.bands ≠ []) ∧
    PassesAnyway MeterStats.writeTo MeterStats.readFrom ⟨0, 0, 0, 0, 0, 0, []⟩
      (fun m => 40 + 16 * m.bandStats.length ≤ 65535) (·.bandStats ≠ []) ∧
    PassesAnyway PacketQueue.writeTo PacketQueue.readFrom ⟨0, 0, []⟩
      (fun q => q.writeTo.out.length ≤ 65535) (·.properties ≠ []) ∧
    PassesAnyway QueueGetConfigReply.writeTo QueueGetConfigReply.readFrom ⟨0, []⟩
      (fun q => ∀ p ∈ q.queues, p.writeTo.out.length ≤ 65535) (·.queues ≠ []) ∧
    PassesAnyway Hello.writeTo Hello.readFrom ⟨[]⟩
      (fun h => ∀ e ∈ h.elements, e.writeTo.out.length ≤ 65535) (·.elements ≠ []) := by
  refine ⟨passes_of (fun g _ => (groupMod_layout g).1) (fun g h => groupMod_roundtrip_partial g g h) ?_,
    passes_of (fun g _ => by rw [Encodes, GroupStats.out_eq]; simp <;> omega) (fun g h => all_of_from (groupStats_roundtrip_partial g g h)) ?_,
    passes_of (fun g _ => by rw [Encodes, GroupDescStats.out_eq]; simp <;> omega)
      (fun g h => all_of_from (groupDescStats_roundtrip_partial g g h.1 h.2)) ?_,
    passes_of (fun g _ => (meterMod_layout g).1) (fun g _ => meterMod_roundtrip_partial g g) ?_,
    passes_of (fun g _ => by rw [Encodes, MeterConfig.out_eq]; simp <;> omega) (fun g h => all_of_from (meterConfig_roundtrip_partial g g h)) ?_,
    passes_of (fun g _ => by rw [Encodes, MeterStats.out_eq]; simp <;> omega) (fun g h => all_of_from (meterStats_roundtrip_partial g g h)) ?_,
    passes_of (fun g h => (packetQueue_layout g h).1) (fun g h => all_of_from (packetQueue_roundtrip_partial g g h)) ?_,
    passes_of (fun g _ => (queueGetConfigReply_layout g).1) (fun g h => queueGetConfigReply_roundtrip_partial g g h) ?_,
    passes_of (fun g _ => (hello_layout g).1) (fun g h => hello_roundtrip_partial g g h) ?_⟩
  · intro x hx h; exact hx (by rw [← h]; exact GroupMod.keeps _ _)
  · intro x hx h; exact hx (by rw [← h]; exact GroupStats.keeps _ _)
  · intro x hx h; exact hx (by rw [← h]; exact GroupDescStats.keeps _ _)
  · intro x hx h; exact hx (by rw [← h]; exact MeterMod.keeps _ _)
  · intro x hx h; exact hx (by rw [← h]; exact MeterConfig.keeps _ _)
  · intro x hx h; exact hx (by rw [← h]; exact MeterStats.keeps _ _)
  · intro x hx h; exact hx (by rw [← h]; exact PacketQueue.keeps _ _)
  · intro x hx h; exact hx (by rw [← h]; exact QueueGetConfigReply.keeps _ _)
  · intro x hx h; exact hx (by rw [← h]; exact Hello.keeps _ _)

/-- A table with two entries, of which the second is wrong: the test fails, and says so. -/
example : runMU MeterMod.writeTo MeterMod.readFrom (fun _ => .ok [])
    [(⟨0, 1, 7, [.drop 5 6]⟩, (MeterMod.writeTo ⟨0, 1, 7, [.drop 5 6]⟩).out), (⟨0, 1, 7, []⟩, [0, 0, 0, 1, 0, 0, 0, 8])] =
    some .marshalBytes := by decide +kernel

/-- A decoder to which `runMU_sound_partial` applies, and a table that passes. -/
example : let read : Step UInt16 := fun s r => Enc.num (fun v _ => v) s r
    runMU (fun x : UInt16 => Enc.writeTo [.bin (be x)]) read (fun x => .ok (be x)) [(7, [0, 7]), (256, [1, 0])] = none := by
  decide +kernel

end Verif.Props
