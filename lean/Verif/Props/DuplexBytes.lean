import Verif.Props.Duplex
import Verif.Props.Request

/-!
# C107: the bytes between the two programs

`Verif/Duplex.lean` has the bytes on their way as marks, the last byte of a message carrying the
message.  Here the bytes themselves are followed, and the messages are what `Receive` makes of
them.
-/

namespace Verif.Props

open Verif

variable {α : Type}

private theorem set_at (s : Bool → Side α) (x : Bool) (p : Side α) : Side.set s x p x = p := by simp [Side.set]

private theorem set_not (s : Bool → Side α) (x : Bool) (p : Side α) : Side.set s x p (!x) = s (!x) := by
  cases x <;> simp [Side.set]

/-- The byte that a step of a program puts on the connection, if any: the next one of the message
it is writing. -/
def added (enc : α → Bytes) (p p' : Side α) : Bytes :=
  if p.out.length < p'.out.length then
    match p.wr with
    | some (m, k, _) => ((enc m).drop ((enc m).length - 1 - k)).take 1
    | none => []
  else []

/-- How many bytes a step takes off the connection. -/
def removed (p p' : Side α) : Nat := if p'.out.length < p.out.length then 1 else 0

/-- Executions of the two programs with what they have put on the connection, and how many bytes
of it the other has read. -/
inductive Wire (cap : Bool → Nat) (lim : Bool → Option Nat) (ans : Bool → α → List α) (enc : α → Bytes)
    (own : Bool → List α) : (Bool → Side α) → (Bool → Bytes) → (Bool → Nat) → Prop where
  | init : Wire cap lim ans enc own (.init own) (fun _ => []) (fun _ => 0)
  | step {s s' w n} (h : Wire cap lim ans enc own s w n) (st : Side.Step cap lim ans (fun m => (enc m).length) s s') :
    Wire cap lim ans enc own s' (fun x => w x ++ added enc (s x) (s' x)) (fun x => n x + removed (s x) (s' x))

/-- Every execution has its bytes. -/
theorem wire_exists (cap : Bool → Nat) (lim : Bool → Option Nat) (ans : Bool → α → List α) (enc : α → Bytes)
    (own : Bool → List α) (s : Bool → Side α) (h : Side.Steps cap lim ans (fun m => (enc m).length) (.init own) s) :
    ∃ w n, Wire cap lim ans enc own s w n := by
  induction h with
  | refl => exact ⟨_, _, .init⟩
  | tail _ st ih => obtain ⟨w, n, h⟩ := ih; exact ⟨_, _, .step h st⟩

/-- The part of the message being written that is on the connection. -/
private def part (enc : α → Bytes) : Option (α × Nat × Option (List α)) → Bytes
  | none => []
  | some (m, k, _) => (enc m).take ((enc m).length - 1 - k)

private def wrOk (enc : α → Bytes) (w : Option (α × Nat × Option (List α))) : Prop :=
  ∀ m k h, w = some (m, k, h) → k < (enc m).length

/-- The messages end where they should: `n` bytes were read, `l` of them belong to messages that
are complete. -/
private def Bd (enc : α → Bytes) : Nat → Nat → List (Option α) → Prop
  | _, _, [] => True
  | n, l, none :: t => Bd enc (n + 1) l t
  | n, l, some m :: t => n + 1 = l + (enc m).length ∧ Bd enc (n + 1) (l + (enc m).length) t

private theorem bd_append {enc : α → Bytes} (o : List (Option α)) (n l : Nat) (b : Option α) (h : Bd enc n l o)
    (hb : Bd enc (n + o.length) (l + ((o.filterMap id).flatMap enc).length) [b]) : Bd enc n l (o ++ [b]) := by
  induction o generalizing n l with
  | nil => simpa using hb
  | cons c t ih =>
    cases c with
    | none =>
      simp only [List.cons_append, Bd] at h ⊢
      refine ih _ _ h ?_
      simpa [Nat.add_assoc, Nat.add_comm, Nat.add_left_comm] using hb
    | some m =>
      simp only [List.cons_append, Bd] at h ⊢
      refine ⟨h.1, ih _ _ h.2 ?_⟩
      simpa [Nat.add_assoc, Nat.add_comm, Nat.add_left_comm] using hb

private theorem bd_first {enc : α → Bytes} (o : List (Option α)) (n l : Nat) (m : α) (t : List α) (h : Bd enc n l o)
    (ho : o.filterMap id = m :: t) : n < l + (enc m).length := by
  induction o generalizing n with
  | nil => simp at ho
  | cons c u ih =>
    cases c with
    | none =>
      have := ih (n + 1) h (by simpa using ho)
      omega
    | some m' =>
      simp at ho
      obtain ⟨rfl, _⟩ := ho
      have := h.1
      omega

/-- The messages of `x` that the receiver of the other has put together. -/
private def have' (s : Bool → Side α) (x : Bool) : List α := (s (!x)).got ++ (s (!x)).slot.toList

private theorem bytes_step {cap : Bool → Nat} {lim : Bool → Option Nat} {ans : Bool → α → List α} {enc : α → Bytes}
    (henc : ∀ m, enc m ≠ []) {s s' : Bool → Side α} (st : Side.Step cap lim ans (fun m => (enc m).length) s s') (y : Bool)
    (hok : wrOk enc (s y).wr) :
    wrOk enc (s' y).wr ∧
    (((s' y).out = (s y).out ∧ have' s' y = have' s y ∧ part enc (s' y).wr = part enc (s y).wr) ∨
     ((s' y).out = (s y).out ++ [none] ∧ have' s' y = have' s y ∧
        part enc (s' y).wr = part enc (s y).wr ++ added enc (s y) (s' y) ∧ (added enc (s y) (s' y)).length = 1) ∨
     (∃ m, (s' y).out = (s y).out ++ [some m] ∧ have' s' y = have' s y ∧ (s' y).wr = none ∧
        enc m = part enc (s y).wr ++ added enc (s y) (s' y) ∧ (added enc (s y) (s' y)).length = 1) ∨
     (∃ b, (s y).out = b :: (s' y).out ∧ have' s' y = have' s y ++ b.toList ∧ (s' y).wr = (s y).wr)) := by
  have two : ∀ x, y = x ∨ y = !x := fun x => by cases x <;> cases y <;> simp
  have pos : ∀ m, 0 < (enc m).length := fun m => List.length_pos_iff.2 (henc m)
  have zero : ∀ m, (enc m).length - 1 - ((enc m).length - 1) = 0 := fun m => by omega
  cases st with
  | send x m t ho hw =>
    rcases two x with rfl | rfl
    · refine ⟨?_, .inl ?_⟩
      · intro m' k h e
        simp [set_at] at e
        obtain ⟨rfl, rfl, _⟩ := e
        have := pos m
        omega
      · simp [have', set_at, set_not, part, hw, zero]
    · exact ⟨by simpa [set_not] using hok, .inl (by simp [have', set_at, set_not])⟩
  | answer x a r t b ht hw =>
    rcases two x with rfl | rfl
    · refine ⟨?_, .inl ?_⟩
      · intro m' k h e
        simp [set_at] at e
        obtain ⟨rfl, rfl, _⟩ := e
        have := pos r
        omega
      · simp [have', set_at, set_not, part, hw, zero]
    · exact ⟨by simpa [set_not] using hok, .inl (by simp [have', set_at, set_not])⟩
  | write x m k h hw hc =>
    rcases two x with rfl | rfl
    · have hk := hok _ _ _ hw
      refine ⟨?_, .inr (.inl ?_)⟩
      · intro m' k' h' e
        simp [set_at] at e
        obtain ⟨rfl, rfl, _⟩ := e
        omega
      · have e : (enc m).length - 1 - k = (enc m).length - 1 - (k + 1) + 1 := by omega
        refine ⟨by simp [set_at], by simp [have', set_not], ?_, ?_⟩
        · simp only [set_at, added, List.length_append, List.length_singleton, Nat.lt_succ_self, if_true, hw, part]
          rw [e, List.take_add]
        · simp only [set_at, added, List.length_append, List.length_singleton, Nat.lt_succ_self, if_true, hw]
          simp
          omega
    · exact ⟨by simpa [set_not] using hok, .inl (by simp [have', set_at, set_not])⟩
  | wrote x m h hw hc =>
    rcases two x with rfl | rfl
    · have hk := pos m
      refine ⟨by intro m' k' h' e; simp [set_at] at e, .inr (.inr (.inl ⟨m, by simp [set_at], by simp [have', set_not], by simp [set_at], ?_, ?_⟩))⟩
      · simp only [set_at, added, List.length_append, List.length_singleton, Nat.lt_succ_self, if_true, hw, part]
        rw [← List.take_add, List.take_of_length_le (by omega)]
      · simp only [set_at, added, List.length_append, List.length_singleton, Nat.lt_succ_self, if_true, hw]
        simp
        omega
    · exact ⟨by simpa [set_not] using hok, .inl (by simp [have', set_at, set_not])⟩
  | read x b t hs ho =>
    rcases two x with rfl | rfl
    · exact ⟨by simpa [set_at, set_not] using hok, .inl (by simp [have', set_at, set_not])⟩
    · refine ⟨by simpa [set_at, set_not] using hok, .inr (.inr (.inr ⟨b, ?_⟩))⟩
      simp [have', set_at, set_not, ho, hs]
  | deliver x m hs hg =>
    rcases two x with rfl | rfl
    · exact ⟨by simpa [set_at] using hok, .inl (by simp [have', set_at, set_not])⟩
    · exact ⟨by simpa [set_not] using hok, .inl (by simp [have', set_at, set_not, hs])⟩

private theorem wire_inv {cap : Bool → Nat} {lim : Bool → Option Nat} {ans : Bool → α → List α} {enc : α → Bytes}
    (henc : ∀ m, enc m ≠ []) {own : Bool → List α} {s : Bool → Side α} {w : Bool → Bytes} {n : Bool → Nat}
    (h : Wire cap lim ans enc own s w n) (y : Bool) :
    wrOk enc (s y).wr ∧
    w y = (have' s y ++ (s y).out.filterMap id).flatMap enc ++ part enc (s y).wr ∧
    (w y).length = n y + (s y).out.length ∧
    ((have' s y).flatMap enc).length ≤ n y ∧
    Bd enc (n y) ((have' s y).flatMap enc).length (s y).out := by
  induction h with
  | init => simp [Side.init, wrOk, have', part, Bd]
  | @step s s' w n _ st ih =>
    obtain ⟨hok, hA, hB, hC, hD⟩ := ih
    obtain ⟨hok', hs⟩ := bytes_step henc st y hok
    refine ⟨hok', ?_⟩
    rcases hs with ⟨h1, h2, h3⟩ | ⟨h1, h2, h3, hl⟩ | ⟨m, h1, h2, h3, h4, h5⟩ | ⟨b, h1, h2, h3⟩
    · have ha : added enc (s y) (s' y) = [] := by simp [added, h1]
      have hr : removed (s y) (s' y) = 0 := by simp [removed, h1]
      simp only [ha, hr, h1, h2, h3, List.append_nil, Nat.add_zero]
      exact ⟨hA, hB, hC, hD⟩
    · have hr : removed (s y) (s' y) = 0 := by simp [removed, h1]
      simp only [hr, h1, h2, h3, Nat.add_zero]
      refine ⟨?_, ?_, hC, ?_⟩
      · rw [hA]; simp
      · simp [hB, hl]; omega
      · exact bd_append _ _ _ _ hD (by simp [Bd])
    · have hr : removed (s y) (s' y) = 0 := by simp [removed, h1]
      simp only [hr, h1, h2, h3, Nat.add_zero]
      refine ⟨?_, ?_, hC, ?_⟩
      · rw [hA]; simp [part, h4]
      · simp [hB, h5]; omega
      · refine bd_append _ _ _ _ hD ?_
        simp only [Bd, and_true]
        have e1 := congrArg List.length hA
        have e2 := congrArg List.length h4
        rw [hB, List.flatMap_append] at e1
        simp only [List.length_append] at e1 e2
        omega
    · have ha : added enc (s y) (s' y) = [] := by simp [added, h1]; omega
      have hr : removed (s y) (s' y) = 1 := by simp [removed, h1]
      simp only [ha, hr, h2, h3, List.append_nil]
      rw [h1] at hA hB hD
      refine ⟨?_, ?_, ?_, ?_⟩
      · rw [hA]; cases b <;> simp
      · rw [hB]; simp; omega
      · cases b with
        | none => simp at hC ⊢; omega
        | some m => have := hD.1; simp at this ⊢; omega
      · cases b with
        | none => simpa [Bd] using hD
        | some m => simpa [Bd] using hD.2

/-- What was read is whole messages, and the beginning of one. -/
private theorem read_bytes {cap : Bool → Nat} {lim : Bool → Option Nat} {ans : Bool → α → List α} {enc : α → Bytes}
    (henc : ∀ m, enc m ≠ []) {own : Bool → List α} {s : Bool → Side α} {w : Bool → Bytes} {n : Bool → Nat}
    (h : Wire cap lim ans enc own s w n) (y : Bool) :
    ∃ t, (w y).take (n y) = (have' s y).flatMap enc ++ t ∧ (t = [] ∨ ∃ m, t <+: enc m ∧ t.length < (enc m).length) := by
  obtain ⟨hok, hA, hB, hC, hD⟩ := wire_inv henc h y
  have hw : w y = (have' s y).flatMap enc ++ (((s y).out.filterMap id).flatMap enc ++ part enc (s y).wr) := by
    rw [hA]; simp
  refine ⟨(((s y).out.filterMap id).flatMap enc ++ part enc (s y).wr).take (n y - ((have' s y).flatMap enc).length), ?_, ?_⟩
  · rw [hw, List.take_append, List.take_of_length_le hC]
  · cases ho : (s y).out.filterMap id with
    | nil =>
      cases hwr : (s y).wr with
      | none => left; simp [part]
      | some p =>
        obtain ⟨m, k, o⟩ := p
        have hk := hok _ _ _ hwr
        right
        refine ⟨m, ?_, ?_⟩
        · simp only [List.flatMap_nil, List.nil_append, part]
          exact (List.take_prefix _ _).trans (List.take_prefix _ _)
        · simp only [List.flatMap_nil, List.nil_append, part, List.length_take]
          omega
    | cons m t =>
      have hf := bd_first _ _ _ _ _ hD ho
      right
      refine ⟨m, ?_, ?_⟩
      · rw [List.flatMap_cons, List.append_assoc, List.take_append_of_le_length (by omega)]
        exact List.take_prefix _ _
      · rw [List.flatMap_cons, List.append_assoc, List.take_append_of_le_length (by omega), List.length_take]
        omega

private theorem receiveN_ok (F : Err) (k : Nat) (r : Rd) (h : r.Ok F) : (receiveN k r).2.Ok F := by
  induction k generalizing r with
  | zero => exact h
  | succ k ih =>
    rcases Conn.receive_spec F r h with ⟨_, r', g, g'⟩ | ⟨_, _, r', g, _, g'⟩ | ⟨_, _, _, r', g, g', _⟩ | ⟨_, _, r', g, _, g'⟩ <;>
    · simp only [receiveN, g]
      exact ih r' g'

/-- The bytes of a request on the connection. -/
private theorem serialise_one (p : Request × Bytes) (h : p.1.body.Yields p.2 ∧ 8 + p.2.length ≤ 65535) :
    serialise [p.1] = Header.bytes { p.1.header with length := UInt16.ofNat (8 + p.2.length) } ++ p.2 := by
  have := foldl_recorder [p] (by simpa using h) []
  simp only [List.map_cons, List.map_nil] at this
  simp [serialise, this]

private theorem serialise_all (f : α → Request × Bytes) (h : ∀ m, (f m).1.body.Yields (f m).2 ∧ 8 + (f m).2.length ≤ 65535)
    (l : List α) : l.flatMap (fun m => serialise [(f m).1]) = serialise ((l.map f).map (·.1)) := by
  rw [serialise, foldl_recorder (l.map f) (by intro p hp; obtain ⟨m, _, rfl⟩ := List.mem_map.1 hp; exact h m)]
  induction l with
  | nil => simp
  | cons m t ih =>
    rw [List.flatMap_cons, ih, serialise_one _ (h m)]
    simp

/-- C107.  The messages are requests, written with `WriteTo` byte by byte.  Whatever the two have
done so far: `Receive`, applied to the bytes that were read, returns exactly the messages that the
model says were received (those the handlers were given and the one the receiver holds), in that
order, with their types, transaction numbers and bodies; and no other. -/
theorem duplex_frames (cap : Bool → Nat) (lim : Bool → Option Nat) (ans : Bool → α → List α) (f : α → Request × Bytes)
    (hf : ∀ m, (f m).1.body.Yields (f m).2 ∧ 8 + (f m).2.length ≤ 65535) (own : Bool → List α) (s : Bool → Side α)
    (w : Bool → Bytes) (n : Bool → Nat) (h : Wire cap lim ans (fun m => serialise [(f m).1]) own s w n) (x : Bool)
    (F : Err) (r : Rd) (hr : r.Ok F) (hs : r.Sep) (hc : r.content = (w x).take (n x)) :
    let l := (s (!x)).got ++ (s (!x)).slot.toList
    (receiveN l.length r).1 = l.map (fun m => (some ⟨
        { (f m).1.header with length := UInt16.ofNat (8 + (f m).2.length) }, .buffer (f m).2, 1,
        ((f m).1.header.version - 1).toNat, (f m).2.length⟩, none)) ∧
      (Conn.receive (receiveN l.length r).2).1 = none := by
  intro l
  have henc : ∀ m, serialise [(f m).1] ≠ [] := by
    intro m hm
    rw [serialise_one _ (hf m)] at hm
    have := congrArg List.length hm
    simp [Header.bytes_length] at this
  obtain ⟨t, ht, hp⟩ := read_bytes henc h x
  rw [ht, show have' s x = l from rfl, serialise_all f hf] at hc
  have hall : ∀ p ∈ l.map f, p.1.body.Yields p.2 ∧ 8 + p.2.length ≤ 65535 := by
    intro p hp; obtain ⟨m, _, rfl⟩ := List.mem_map.1 hp; exact hf m
  obtain ⟨h1, h2, _⟩ := stream_framing F (l.map f) hall r t hr hs hc
  simp only [List.length_map] at h1 h2
  refine ⟨by rw [h1]; simp, ?_⟩
  have hok := receiveN_ok F l.length r hr
  refine (receive_truncated F _ hok ?_).1
  rw [h2]
  rcases hp with rfl | ⟨m, ⟨u, hu⟩, hl⟩
  · left; simp
  · rw [serialise_one _ (hf m)] at hu hl
    by_cases h8 : t.length < 8
    · exact .inl h8
    · right
      have hd : t = Header.bytes { (f m).1.header with length := UInt16.ofNat (8 + (f m).2.length) } ++ t.drop 8 := by
        have e := congrArg (List.take 8) hu
        rw [List.take_append_of_le_length (by omega), List.take_append_of_le_length (by simp [Header.bytes_length]),
          List.take_of_length_le (l := Header.bytes _) (by simp [Header.bytes_length])] at e
        rw [← e, List.take_append_drop]
      refine ⟨_, _, hd, ?_, ?_⟩
      · simp only [UInt16.toNat_ofNat']
        have := (hf m).2
        omega
      · have := (hf m).2
        simp [Header.bytes_length] at hl
        simp only [UInt16.toNat_ofNat', List.length_drop]
        omega

/-- Non-vacuity: messages that are requests with a payload of any size that fits. -/
example : ∃ f : Nat → Request × Bytes, ∀ m, (f m).1.body.Yields (f m).2 ∧ 8 + (f m).2.length ≤ 65535 :=
  ⟨fun m => (newRequest 2 (some fun _ => ⟨List.replicate (m % 60000) 7, m % 60000, none⟩), List.replicate (m % 60000) 7),
    fun m => by simp [newRequest, Body.Yields]; omega⟩

end Verif.Props
