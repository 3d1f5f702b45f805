import Verif.Ofptest
import Verif.Props.Request

/-!
# Properties C54 and C57: package ofptest
-/

namespace Verif.Props

open Verif

/-! ## C54 -/

/-- Write the given headers and messages one after another. -/
def recordAll (r : Recorder) : List (Header × Option (Nat → Wr)) → Recorder
  | [] => r
  | (h, w) :: t => recordAll (r.write h w).2 t

private theorem recordAll_reqs (r : Recorder) (ws : List (Header × Option (Nat → Wr))) :
    (recordAll r ws).reqs = r.reqs ++ ws.map (fun p => { newRequest p.1.type p.2 with header := p.1 }) := by
  induction ws generalizing r with
  | nil => simp [recordAll]
  | cons p t ih => simp [recordAll, ih, Recorder.write]

/-- C54.  After any sequence of writes, `All` has one entry per write, in order, each with
the header that was written, and with a body that serialises to (and, read to the end,
gives) what the message serialises to. -/
theorem recorder_all (ws : List (Header × Option (Nat → Wr))) :
    (recordAll .new ws).all.length = ws.length ∧
    (recordAll .new ws).all.map (fun q => q.header) = ws.map (fun p => p.1) ∧
    ∀ (i : Nat) (h : Header) (w : Option (Nat → Wr)), ws[i]? = some (h, w) →
      ∃ q, (recordAll .new ws).all[i]? = some q ∧ q.header = h ∧
        (w = none → q.body.Yields [] ∧ ∃ y, q.body.drain = ([], none, y)) ∧
        ∀ f b, w = some f → f 0 = ⟨b, b.length, none⟩ →
          q.body.Yields b ∧ ∃ y, q.body.drain = (b, none, y) := by
  simp only [Recorder.all, recordAll_reqs, Recorder.new, List.nil_append]
  refine ⟨by simp, by simp [Function.comp_def], fun i h w hi => ?_⟩
  refine ⟨{ newRequest h.type w with header := h }, by simp [hi], rfl, ?_, ?_⟩
  · rintro rfl
    exact ⟨rfl, _, rfl⟩
  · rintro f b rfl hf
    obtain ⟨c', hc⟩ := CopyReader.readAll_fresh f b (by rw [hf]) (by rw [hf])
    exact ⟨hf, .copy c', by simp [newRequest, Body.drain, hc]⟩

/-- C54.  `First` and `Last` are the first and the last of `All`; on a recorder without
messages, and on a nil recorder, they panic. -/
theorem recorder_first_last (r : Recorder) :
    (∀ q t, r.all = q :: t → Recorder.first (some r) = .ok q) ∧
    (∀ q t, r.all = t ++ [q] → Recorder.last (some r) = .ok q) ∧
    (r.all = [] → Recorder.first (some r) = .error .panic ∧ Recorder.last (some r) = .error .panic) ∧
    Recorder.first none = .error .panic ∧ Recorder.last none = .error .panic := by
  cases r with | mk l =>
  simp only [Recorder.all]
  refine ⟨?_, ?_, ?_, rfl, rfl⟩
  · rintro q t rfl; rfl
  · rintro q t rfl; simp [Recorder.last]
  · rintro rfl; exact ⟨rfl, rfl⟩

/-- C54.  Writing appends: what was recorded before is unchanged. -/
theorem recorder_write (r : Recorder) (h : Header) (w : Option (Nat → Wr)) :
    ∃ q, (r.write h w).2.all = r.all ++ [q] ∧ q.header = h ∧ Recorder.last (some (r.write h w).2) = .ok q :=
  ⟨_, rfl, rfl, (recorder_first_last _).2.1 _ _ rfl⟩

/-- C54, the limits of the recorder as a stand-in for the response writer of a connection: it
reports success for every message, where the real one fails; and it leaves version 0 in the
header, where the real one fills in the version of the request. -/
theorem recorder_not_response (r : Recorder) (h : Header) (w : Wr) (e : Err) (c : BW) (rv : UInt8)
    (he : w.err = some e) :
    (r.write h (some fun _ => w)).1 = none ∧ (Response.write c rv h (some w)).1 = some e := by
  exact ⟨rfl, by simp [Response.write, he]⟩

theorem recorder_version (r : Recorder) (h : Header) (w : Option (Nat → Wr)) (hv : h.version = 0)
    (c : BW) (rv : UInt8) :
    (Recorder.last (some (r.write h w).2)).toOption.map (fun q => q.header.version) = some 0 ∧
      (Response.write c rv h none).2.2.version = rv := by
  refine ⟨?_, ?_⟩
  · obtain ⟨q, _, h2, h3⟩ := recorder_write r h w
    rw [h3]; simp [Except.toOption, h2, hv]
  · simp only [Response.write, hv, if_true, Header.writeTo_eq]

/-- A recorder with two messages. -/
example : ((recordAll .new [(⟨4, 2, 0, 7⟩, some fun _ => ⟨[1, 2], 2, none⟩), (⟨4, 3, 0, 8⟩, none)]).all.map
    fun q => (q.header, q.body.drain.1)) = [(⟨4, 2, 0, 7⟩, [1, 2]), (⟨4, 3, 0, 8⟩, [])] := by decide +kernel

/-! ## C57 -/

/-- What holds in every state: every tracked or pending connection has been accepted, and
every connection that the first `Close` found is shut or still has its goroutine. -/
private structure TInv (s : TestSrv) : Prop where
  conns : ∀ c ∈ s.conns, c < s.count
  pending : ∀ c ∈ s.pending, c < s.count
  closers : ∀ c ∈ s.closers, c ∈ s.snapshot
  snap : ∀ c ∈ s.snapshot, c ∈ s.conns
  done : ∀ c ∈ s.snapshot, c ∈ s.shut ∨ c ∈ s.closers
  off : s.listening = !s.closed
  ret : 0 < s.returned → s.closed = true
  wait : s.pc = .waiting → s.closed = true ∧ s.returned = 0
  opened : s.closed = false → s.snapshot = [] ∧ s.closers = []
  early : s.closed = true → s.timeout = false → s.pc ≠ .waiting → s.closers = []

private theorem TInv.init : TInv .init := by
  constructor <;> simp [TestSrv.init]

private theorem TInv.step {s t : TestSrv} (h : TInv s) (hs : s.Step t) : TInv t := by
  obtain ⟨h1, h2, h4, h5, h6, h7, h8, h9, h10, h11⟩ := h
  cases hs with
  | accept hl =>
    refine ⟨?_, ?_, h4, h5, h6, h7, h8, h9, h10, h11⟩
    · intro c hc; exact Nat.lt_succ_of_lt (h1 c hc)
    · intro c hc
      simp only [List.mem_append, List.mem_singleton] at hc
      rcases hc with hc | rfl
      · exact Nat.lt_succ_of_lt (h2 c hc)
      · exact Nat.lt_succ_self _
  | track c hp hc =>
    refine ⟨?_, ?_, h4, ?_, h6, h7, h8, h9, h10, h11⟩
    · intro d hd
      simp only [List.mem_append, List.mem_singleton] at hd
      rcases hd with hd | rfl
      · exact h1 d hd
      · exact h2 _ hc
    · intro d hd; exact h2 d (List.mem_of_mem_erase hd)
    · intro d hd; exact List.mem_append_left _ (h5 d hd)
  | begin hp =>
    refine ⟨h1, h2, h4, h5, h6, h7, h8, ?_, h10, ?_⟩
    · simp
    · intro a b _; exact h11 a b (by simp [hp])
  | again hp hc =>
    refine ⟨h1, h2, h4, h5, h6, h7, fun _ => hc, by simp, h10, ?_⟩
    intro a b _; exact h11 a b (by simp [hp])
  | first hp hc =>
    have h0 : s.returned = 0 := by
      rcases Nat.eq_zero_or_pos s.returned with h | h
      · exact h
      · have := h8 h; simp [hc] at this
    exact ⟨h1, h2, fun c hc => hc, fun c hc => hc, fun c hc => Or.inr hc, rfl, fun _ => rfl,
      fun _ => ⟨rfl, h0⟩, by simp, by simp⟩
  | shutOne c hc =>
    refine ⟨h1, h2, fun d hd => h4 d (List.mem_of_mem_erase hd), h5, ?_, h7, h8, h9, ?_, ?_⟩
    · intro d hd
      rcases h6 d hd with h | h
      · exact Or.inl (List.mem_cons_of_mem _ h)
      · rcases Decidable.em (d = c) with rfl | hne
        · exact Or.inl (List.mem_cons_self ..)
        · exact Or.inr ((List.mem_erase_of_ne hne).2 h)
    · intro a; have := (h10 a).2; rw [this] at hc; simp at hc
    · intro a b d; have := h11 a b d; rw [this] at hc; simp at hc
  | finish hp hc =>
    exact ⟨h1, h2, h4, h5, h6, h7, fun _ => (h9 hp).1, by simp, h10, fun _ _ _ => hc⟩
  | expire hp =>
    exact ⟨h1, h2, h4, h5, h6, h7, fun _ => (h9 hp).1, by simp, h10, by simp⟩

private theorem TInv.env {s t : TestSrv} (h : TInv s) (hs : s.Env t) : TInv t := by
  cases hs with
  | gone c hc =>
    obtain ⟨h1, h2, h4, h5, h6, h7, h8, h9, h10, h11⟩ := h
    refine ⟨h1, h2, h4, h5, fun d hd => ?_, h7, h8, h9, h10, h11⟩
    exact (h6 d hd).imp (List.mem_cons_of_mem _) id

private theorem TInv.reach {s t : TestSrv} (h : TInv s) (hr : s.Reach t) : TInv t := by
  induction hr with
  | refl => exact h
  | step _ hs ih => exact ih.step hs
  | env _ hs ih => exact ih.env hs

private theorem conns_mono {s t : TestSrv} (hr : s.Reach t) : ∀ c ∈ s.conns, c ∈ t.conns := by
  induction hr with
  | refl => exact fun _ h => h
  | step _ hs ih => cases hs <;> simp_all
  | env _ hs ih => cases hs; exact ih

private theorem first_snapshot {s t : TestSrv} (hc : s.closed = false) (hr : s.Reach t)
    (ht : t.closed = true) : ∀ c ∈ s.conns, c ∈ t.snapshot := by
  induction hr with
  | refl => simp_all
  | step hr' hstep ih =>
    have hm := conns_mono hr'
    cases hstep <;> simp_all
  | env _ hstep ih => cases hstep; exact ih ht

/-- C57, first half.  However calls of `Close`, accepted connections, callbacks, closing
goroutines and connections going away on their own interleave: once some `Close` call has
returned, and unless the five second timer fired, every connection that had been tracked
(its `StateNew` callback ran) in any state `s` before the first call took effect is closed.
Missing: connections accepted before the call whose callback has not run, see
`testServer_close_leaks`. -/
theorem testServer_close_partial {s t : TestSrv} (h1 : TestSrv.init.Reach s) (hs : s.closed = false)
    (h2 : s.Reach t) (hret : 0 < t.returned) (htm : t.timeout = false) :
    ∀ c ∈ s.conns, c ∈ t.shut := by
  have hi := TInv.init.reach h1
  have ht := hi.reach h2
  have hcl := ht.ret hret
  intro c hc
  rcases ht.done c (first_snapshot hs h2 hcl c hc) with h | h
  · exact h
  · have hw : t.pc ≠ .waiting := fun hw => by have := (ht.wait hw).2; omega
    rw [ht.early hcl htm hw] at h; simp at h

/-- C57.  After a `Close` call has returned, no further connection is accepted, whether or
not the timer fired. -/
theorem testServer_close_listener {s t : TestSrv} (h1 : TestSrv.init.Reach s) (hret : 0 < s.returned)
    (h2 : s.Reach t) : t.listening = false ∧ t.count = s.count := by
  have hi := TInv.init.reach h1
  induction h2 with
  | refl => exact ⟨by rw [hi.off, hi.ret hret]; rfl, rfl⟩
  | step hr hs ih => cases hs <;> simp_all
  | env _ hs ih => cases hs; exact ih

/-- C57.  `Close` is idempotent: on a server on which a call has returned, a further call only
takes the lock and returns; it closes nothing. -/
theorem testServer_close_again {s t u : TestSrv} (h1 : TestSrv.init.Reach s) (hret : 0 < s.returned)
    (h2 : s.Step t) (hb : s.pc = .idle ∧ t.pc = .start) (h3 : t.Step u) (hu : u.pc = .idle) :
    u = { s with returned := s.returned + 1 } ∧ u.shut = s.shut := by
  have hc := (TInv.init.reach h1).ret hret
  obtain ⟨hb1, hb2⟩ := hb
  cases h2 <;> simp_all
  cases h3 <;> simp_all

/-- C57.  `Close` calls are counted once each: a step of the test server ends a call (the lock
is held before and free after) exactly when one more call has returned. -/
theorem testServer_close_once {s t : TestSrv} (h : s.Step t) :
    t.returned = s.returned + (if s.pc ≠ .idle ∧ t.pc = .idle then 1 else 0) := by
  cases h <;> simp_all

/-- C57.  `Close` does not hang: whatever the connections do, a call that has the lock can
return within two steps of its own, and no step of anything else takes that away. -/
theorem testServer_close_returns (s : TestSrv) (h : s.pc ≠ .idle) :
    (∃ t, s.Step t ∧ s.pc ≠ t.pc ∧ (t.pc = .idle ∨ t.pc = .waiting ∧ s.pc = .start ∧
      ∃ u, t.Step u ∧ u.pc = .idle ∧ u.returned = s.returned + 1)) ∧
    (∀ t, s.Step t → t.pc = s.pc ∨ t.pc = .idle ∨ t.pc = .waiting ∧ s.pc = .start) := by
  refine ⟨?_, fun t ht => ?_⟩
  · cases hp : s.pc with
    | idle => exact absurd hp h
    | start =>
      cases hc : s.closed with
      | true => exact ⟨_, .again s hp hc, by simp, .inl rfl⟩
      | false => exact ⟨_, .first s hp hc, by simp, .inr ⟨rfl, rfl, _, .expire _ rfl, rfl, rfl⟩⟩
    | waiting => exact ⟨_, .expire s hp, by simp, .inl rfl⟩
  · cases ht <;> simp_all

/-- C57, the second half is false.  A connection whose `StateNew` callback is waiting for the
lock while `Close` runs is tracked afterwards, and stays open: the first call of `Close` has
returned, without the timer, and so has a second call, and no step of the test server closes
the connection any more. -/
theorem testServer_close_leaks :
    ∃ s, TestSrv.init.Runs s ∧ s.returned = 2 ∧ s.timeout = false ∧ s.pending = [] ∧
      0 ∈ s.conns ∧ ∀ t, s.Runs t → 0 ∈ t.conns ∧ 0 ∉ t.shut := by
  refine ⟨_, ((((((((TestSrv.Runs.refl _).step (.accept _ rfl)).step (.begin _ rfl)).step
    (.first _ rfl rfl)).step (.finish _ rfl rfl)).step (.track _ 0 rfl ?_)).step (.begin _ rfl)).step
    (.again _ rfl rfl)), rfl, rfl, ?_, ?_, ?_⟩
  · simp [TestSrv.init]
  · simp [TestSrv.init]
  · simp [TestSrv.init]
  · intro t ht
    have key : t.closed = true ∧ t.closers = [] ∧ t.pc ≠ .waiting ∧ 0 ∈ t.conns ∧ 0 ∉ t.shut := by
      induction ht with
      | refl => simp [TestSrv.init]
      | step _ hs ih => cases hs <;> simp_all
    exact ⟨key.2.2.2.1, key.2.2.2.2⟩

/-- The hypotheses of `testServer_close_partial` are met with a tracked connection. -/
example : ∃ s t, TestSrv.init.Reach s ∧ s.closed = false ∧ 0 ∈ s.conns ∧ s.Reach t ∧
    0 < t.returned ∧ t.timeout = false := by
  refine ⟨_, _, ((TestSrv.Reach.refl _).step (.accept _ rfl)).step (.track _ 0 rfl ?_), rfl, ?_,
    ((((TestSrv.Reach.refl _).step (.begin _ rfl)).step (.first _ rfl rfl)).step
      (.shutOne _ 0 ?_)).step (.finish _ rfl ?_), by decide, rfl⟩ <;> decide

end Verif.Props
