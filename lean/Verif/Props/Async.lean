import Verif.Async
import Verif.Props.Fixed
import Verif.Props.Ofputil
import Verif.Loose

/-!
# Property C115: a controller is told of the events it asked for
-/

namespace Verif.Props

open Verif

/-- What the controller asked for, in its own words: no bytes and no bits. -/
structure Wanted where
  slave : Bool
  gen : Option Nat
  reasons : AsyncKind → Bool → List UInt8

/-- The reasons given to the bitmap functions, by kind and by role. -/
def wantedOf (a a' b b' c c' : List UInt8) : AsyncKind → Bool → List UInt8
  | .packetIn, false => a
  | .packetIn, true => a'
  | .portStatus, false => b
  | .portStatus, true => b'
  | .flowRemoved, false => c
  | .flowRemoved, true => c'

/-- What the program means by a call. -/
def Wanted.after (w : Wanted) : AsyncCall → Wanted
  | .set a a' b b' c c' => { w with reasons := wantedOf a a' b b' c c' }
  | .role r =>
    if r.role = 1 then { w with slave := false }
    else if r.role = 2 ∧ staleGen w.gen r.generationID.toNat = false then
      { w with slave := false, gen := some r.generationID.toNat }
    else if r.role = 3 ∧ staleGen w.gen r.generationID.toNat = false then
      { w with slave := true, gen := some r.generationID.toNat }
    else w

/-- The events that the controller should be told of. -/
def Wanted.told (w : Wanted) : List AsyncStep → List (AsyncKind × Nat)
  | [] => []
  | .call c :: l => (w.after c).told l
  | .event k r :: l =>
    if r ∈ (w.reasons k w.slave).map UInt8.toNat then (k, r) :: w.told l else w.told l

/-- The switch has understood: role, generation, and for each kind and role the reasons. -/
private structure Agrees (w : Wanted) (s : SwAsync) : Prop where
  slave : s.role = 3 ↔ w.slave = true
  gen : s.gen = w.gen
  mask : ∀ k (sl : Bool) i, i < 32 →
    ((s.mask k (if sl then 1 else 0)).testBit i = true ↔ i ∈ (w.reasons k sl).map UInt8.toNat)

private theorem set_reads (a a' b b' c c' : List UInt8) :
    ∃ msg, ((AsyncCall.set a a' b b' c c').request.writeTo recorder []).dst = [msg] ∧
      numAt msg 1 1 = 28 ∧
      numAt msg 8 4 = (packetInReasonBitmap a).toNat ∧ numAt msg 12 4 = (packetInReasonBitmap a').toNat ∧
      numAt msg 16 4 = (portReasonBitmap b).toNat ∧ numAt msg 20 4 = (portReasonBitmap b').toNat ∧
      numAt msg 24 4 = (flowReasonBitmap c).toNat ∧ numAt msg 28 4 = (flowReasonBitmap c').toNat := by
  let x : AsyncConfig := ⟨bitmap64 (packetInReasonBitmap a) (packetInReasonBitmap a'),
       bitmap64 (portReasonBitmap b) (portReasonBitmap b'),
       bitmap64 (flowReasonBitmap c) (flowReasonBitmap c')⟩
  have hlay : Layout x.writeTo.out _ := bitmap64_wire _ _ _ _ _ _
  have hlen := hlay.length
  simp only [width_cons, width_nil, Fld.width] at hlen
  have hw : x.writeTo = ⟨x.writeTo.out, x.writeTo.out.length, none⟩ := by
    simp [AsyncConfig.writeTo, Enc.writeTo, Enc.gather]
  obtain ⟨msg, h1, -, -, -, h5⟩ := request_writeTo (requestOf 28 x.writeTo) x.writeTo.out hw
    (by omega) []
  refine ⟨msg, h1, ?_⟩
  simp only [Layout, List.drop_drop, Nat.reduceAdd] at h5 hlay
  obtain ⟨-, -, -, ty, -, -, -, -, -, c7, c8⟩ := h5
  have hd : msg.drop 8 = x.writeTo.out := by
    have := List.take_append_drop x.writeTo.out.length (msg.drop 8)
    rw [c7, List.drop_drop, c8, List.append_nil] at this
    exact this.symm
  have hn : ∀ off k, numAt msg (8 + off) k = getBE ((x.writeTo.out.drop off).take k) := by
    intro off k; rw [numAt, ← List.drop_drop, hd]
  obtain ⟨-, l1, -, l2, -, l3, -, l4, -, l5, -, l6, -⟩ := hlay
  exact ⟨ty, by rw [hn 0 4]; exact l1, by rw [hn 4 4]; exact l2, by rw [hn 8 4]; exact l3,
    by rw [hn 12 4]; exact l4, by rw [hn 16 4]; exact l5, by rw [hn 20 4]; exact l6⟩

private theorem role_reads (r : RoleRequest) :
    ∃ msg, ((AsyncCall.role r).request.writeTo recorder []).dst = [msg] ∧
      numAt msg 1 1 = 24 ∧ numAt msg 8 4 = r.role.toNat ∧ numAt msg 16 8 = r.generationID.toNat := by
  have hlay := roleRequest_layout r
  have hlen := hlay.length
  simp only [width_cons, width_nil, Fld.width] at hlen
  have hw : r.writeTo = ⟨r.writeTo.out, r.writeTo.out.length, none⟩ := by
    simp [RoleRequest.writeTo, Enc.writeTo, Enc.gather]
  obtain ⟨msg, h1, -, -, -, h5⟩ := request_writeTo (requestOf 24 r.writeTo) r.writeTo.out hw
    (by omega) []
  refine ⟨msg, h1, ?_⟩
  simp only [Layout, List.drop_drop, Nat.reduceAdd] at h5 hlay
  obtain ⟨-, -, -, ty, -, -, -, -, -, c7, c8⟩ := h5
  have hd : msg.drop 8 = r.writeTo.out := by
    have := List.take_append_drop r.writeTo.out.length (msg.drop 8)
    rw [c7, List.drop_drop, c8, List.append_nil] at this
    exact this.symm
  have hn : ∀ off k, numAt msg (8 + off) k = getBE ((r.writeTo.out.drop off).take k) := by
    intro off k; rw [numAt, ← List.drop_drop, hd]
  obtain ⟨-, l1, -, -, -, l2, -⟩ := hlay
  exact ⟨ty, by rw [hn 0 4]; exact l1, by rw [hn 8 8]; exact l2⟩

private theorem bits_mem {n : UInt32} {l : List UInt8} {i : Nat} (hi : i < 32)
    (h : n.toNat.testBit i = true ↔ i < 32 ∧ ∃ v ∈ l, v.toNat = i) :
    n.toNat.testBit i = true ↔ i ∈ l.map UInt8.toNat := by
  rw [h, List.mem_map]; simp [hi]

private theorem set_agrees (w : Wanted) (s : SwAsync) (h1 : s.role = 3 ↔ w.slave = true)
    (h2 : s.gen = w.gen) (a a' b b' c c' : List UInt8) :
    Agrees (w.after (.set a a' b b' c c'))
      (((AsyncCall.set a a' b b' c c').request.writeTo recorder []).dst.foldl SwAsync.recv s) := by
  obtain ⟨msg, hm, ty, e1, e2, e3, e4, e5, e6⟩ := set_reads a a' b b' c c'
  rw [hm]
  simp only [List.foldl_cons, List.foldl_nil, SwAsync.recv, ty, if_true]
  refine ⟨h1, h2, fun k sl i hi => ?_⟩
  cases k <;> cases sl <;>
    simp only [AsyncKind.off, Wanted.after, wantedOf, Bool.false_eq_true, if_false, if_true,
      Nat.mul_zero, Nat.add_zero, Nat.mul_one, Nat.reduceAdd, e1, e2, e3, e4, e5, e6]
  · exact bits_mem hi (packetInReasonBitmap_bits _ _)
  · exact bits_mem hi (packetInReasonBitmap_bits _ _)
  · exact bits_mem hi (portReasonBitmap_bits _ _)
  · exact bits_mem hi (portReasonBitmap_bits _ _)
  · exact bits_mem hi (flowReasonBitmap_bits _ _)
  · exact bits_mem hi (flowReasonBitmap_bits _ _)

private theorem role_agrees (w : Wanted) (s : SwAsync) (h : Agrees w s) (r : RoleRequest) :
    Agrees (w.after (.role r))
      (((AsyncCall.role r).request.writeTo recorder []).dst.foldl SwAsync.recv s) := by
  obtain ⟨msg, hm, ty, e1, e2⟩ := role_reads r
  have t1 : r.role.toNat = 1 ↔ r.role = 1 := by rw [← UInt32.toNat_inj]; rfl
  have t2 : r.role.toNat = 2 ↔ r.role = 2 := by rw [← UInt32.toNat_inj]; rfl
  have t3 : r.role.toNat = 3 ↔ r.role = 3 := by rw [← UInt32.toNat_inj]; rfl
  obtain ⟨g1, g2, g3⟩ := h
  rw [hm]
  simp only [List.foldl_cons, List.foldl_nil, SwAsync.recv, ty, e1, e2, t1, t2, t3, g2, Wanted.after]
  by_cases c1 : r.role = 1
  · simp [c1]
    exact ⟨by simp, rfl, g3⟩
  · by_cases c2 : r.role = 2
    · cases c4 : staleGen w.gen r.generationID.toNat
      · simp [c2]
        exact ⟨by simp, rfl, g3⟩
      · simp [c2]
        exact ⟨g1, g2, g3⟩
    · by_cases c3 : r.role = 3
      · cases c4 : staleGen w.gen r.generationID.toNat
        · simp [c3]
          exact ⟨by simp, rfl, g3⟩
        · simp [c3]
          exact ⟨g1, g2, g3⟩
      · simp [c1, c2, c3]
        exact ⟨g1, g2, g3⟩

private theorem told_of_agrees : ∀ (l : List AsyncStep) (w : Wanted) (s : SwAsync), Agrees w s →
    (∀ k r, AsyncStep.event k r ∈ l → r < 32) → asyncRun s l = w.told l
  | [], _, _, _, _ => rfl
  | .call (.set a a' b b' c c') :: l, w, s, h, hr => by
    rw [asyncRun, Wanted.told]
    exact told_of_agrees l _ _ (set_agrees w s h.slave h.gen a a' b b' c c')
      fun k r hm => hr k r (List.mem_cons_of_mem _ hm)
  | .call (.role x) :: l, w, s, h, hr => by
    rw [asyncRun, Wanted.told]
    exact told_of_agrees l _ _ (role_agrees w s h x)
      fun k r hm => hr k r (List.mem_cons_of_mem _ hm)
  | .event k r :: l, w, s, h, hr => by
    rw [asyncRun, Wanted.told, told_of_agrees l w s h
      fun k' r' hm => hr k' r' (List.mem_cons_of_mem _ hm)]
    have key : s.tells k r = true ↔ r ∈ (w.reasons k w.slave).map UInt8.toNat := by
      rw [← h.mask k w.slave r (hr k r List.mem_cons_self), SwAsync.tells]
      cases hs : w.slave
      · have : s.role ≠ 3 := fun h3 => by have := h.slave.1 h3; simp [hs] at this
        simp [this]
      · simp [h.slave.2 hs]
    by_cases hk : s.tells k r = true
    · rw [if_pos hk, if_pos (key.1 hk)]
    · rw [if_neg hk, if_neg fun h' => hk (key.2 h')]

/-- C115.  Whatever the switch had kept before: from the first asynchronous configuration on, and
whatever configurations and role requests follow it in whatever order with the events, the
controller is told of exactly the events whose reasons were among those last given to the bitmap
functions for that kind and for the role that the controller has then. -/
theorem async_told (s : SwAsync) (a a' b b' c c' : List UInt8) (l : List AsyncStep)
    (hr : ∀ k r, AsyncStep.event k r ∈ l → r < 32) :
    asyncRun s (.call (.set a a' b b' c c') :: l) =
      Wanted.told ⟨s.role == 3, s.gen, wantedOf a a' b b' c c'⟩ l := by
  rw [asyncRun]
  exact told_of_agrees l _ _ (set_agrees ⟨s.role == 3, s.gen, fun _ _ => []⟩ s (by simp) rfl
    a a' b b' c c') hr

/-- C115.  A controller that is not slave and sends no role request: of a run of events it is told
of those it named, in their order, all of them and no others. -/
theorem async_filter (s : SwAsync) (hs : s.role ≠ 3) (a a' b b' c c' : List UInt8)
    (ev : List (AsyncKind × Nat)) (hr : ∀ e ∈ ev, e.2 < 32) :
    asyncRun s (.call (.set a a' b b' c c') :: ev.map fun e => .event e.1 e.2) =
      ev.filter fun e => match e.1 with
        | .packetIn => (a.map UInt8.toNat).contains e.2
        | .portStatus => (b.map UInt8.toNat).contains e.2
        | .flowRemoved => (c.map UInt8.toNat).contains e.2 := by
  rw [async_told]
  · have hb : (s.role == 3) = false := by simp [hs]
    rw [hb]
    clear hr
    induction ev with
    | nil => rfl
    | cons e ev ih =>
      obtain ⟨k, r⟩ := e
      rw [List.map_cons, Wanted.told, ih, List.filter_cons]
      cases k <;> simp only [wantedOf, List.contains_iff_mem] <;> split <;> simp_all
  · intro k r hm
    obtain ⟨e, he, h⟩ := List.mem_map.1 hm
    cases h
    exact hr e he

/-- C115.  With empty lists for all kinds of its role, a controller hears nothing until it changes
configuration or role. -/
theorem async_silent (s : SwAsync) (hs : s.role = 3) (a b c : List UInt8)
    (ev : List (AsyncKind × Nat)) (hr : ∀ e ∈ ev, e.2 < 32) :
    asyncRun s (.call (.set a [] b [] c []) :: ev.map fun e => .event e.1 e.2) = [] := by
  rw [async_told]
  · have hb : (s.role == 3) = true := by simp [hs]
    rw [hb]
    clear hr
    induction ev with
    | nil => rfl
    | cons e ev ih =>
      obtain ⟨k, r⟩ := e
      rw [List.map_cons, Wanted.told, ih]
      cases k <;> simp [wantedOf]
  · intro k r hm
    obtain ⟨e, he, h⟩ := List.mem_map.1 hm
    cases h
    exact hr e he

/-- Non-vacuity: a master that wants table misses and port changes becomes slave (and then wants
only port changes); a stale role request in between changes nothing. -/
example : asyncRun ⟨1, none, fun _ _ => 0⟩
    [.call (.set [0] [] [0, 2] [2] [] []), .event .packetIn 0, .event .packetIn 1,
      .event .portStatus 2, .call (.role ⟨2, 7⟩), .event .packetIn 0, .call (.role ⟨3, 6⟩),
      .event .packetIn 0, .call (.role ⟨3, 8⟩), .event .packetIn 0, .event .portStatus 2,
      .event .portStatus 0] =
    [(.packetIn, 0), (.portStatus, 2), (.packetIn, 0), (.packetIn, 0), (.portStatus, 2)] := by
  decide +kernel

end Verif.Props
