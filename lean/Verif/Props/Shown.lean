import Verif.Shown
import Verif.Props.Request
import Verif.Props.Cookie

/-!
# Property C112: a request shows its message as it is when it is used
-/

namespace Verif.Props

open Verif

/-- The message after these operations: the last one assigned. -/
def msgAfter {μ α : Type} (m : μ) (ops : List (ShownOp μ α)) : μ :=
  ops.foldl (fun m op => match op with | .change m' => m' | _ => m) m

/-- The header after these operations, as the user assigned it. -/
def headAfter {μ α : Type} (hd : Header) (ops : List (ShownOp μ α)) : Header :=
  ops.foldl (fun hd op => match op with | .header hd' => hd' | _ => hd) hd

/-- No matcher looks at the request. -/
def Unmatched {μ α : Type} (ops : List (ShownOp μ α)) : Prop :=
  ∀ op ∈ ops, ∀ m, op ≠ .look m

/-- Nobody reads from the body. -/
def Unread {μ α : Type} (ops : List (ShownOp μ α)) : Prop :=
  ∀ op ∈ ops, ∀ k, op ≠ .read k

/-- Everything that was read from the body, in order. -/
def allRead : List ShownOut → Bytes
  | [] => []
  | .got b _ :: os => b ++ allRead os
  | _ :: os => allRead os

/-- Two headers differ at most in the length. -/
private def SameHead (a b : Header) : Prop :=
  a.version = b.version ∧ a.type = b.type ∧ a.transaction = b.transaction

private theorem run_append {μ α : Type} (enc : μ → Wr) (as bs : List (ShownOp μ α))
    (h : Shown μ) :
    Shown.run enc (as ++ bs) h = ((Shown.run enc as h).1 ++ (Shown.run enc bs (Shown.run enc as h).2).1,
      (Shown.run enc bs (Shown.run enc as h).2).2) := by
  induction as generalizing h with
  | nil => simp [Shown.run]
  | cons a as ih => simp [Shown.run, ih]

private theorem send_copy (hd : Header) (c : CopyReader) (w : Wr) (pm pn cl : Nat) :
    let q := (Request.writeTo recorder ⟨hd, .copy { c with wt := some fun _ => w }, pm, pn, cl⟩ []).req
    SameHead q.header hd ∧ ∃ c', q.body = .copy c' ∧ c'.rbuf = c.rbuf ∧ c'.rerr = c.rerr ∧
      c'.once = c.once := by
  obtain ⟨o, n, e⟩ := w
  cases e with
  | some e => simp [Request.writeTo, Body.copyTo, CopyReader.writeTo, SameHead]
  | none =>
    by_cases hl : 65535 < n + headerlen <;>
      simp [Request.writeTo, Body.copyTo, CopyReader.writeTo, hl, Header.writeTo_eq, SameHead]

private theorem run_state {μ α : Type} (enc : μ → Wr) (ops : List (ShownOp μ α))
    (hn : Unmatched ops) (h : Shown μ) (hd : Header) (hh : SameHead h.req.header hd)
    (hc : ∃ c, h.req.body = .copy c) :
    (Shown.run enc ops h).2.msg = msgAfter h.msg ops ∧
    SameHead (Shown.run enc ops h).2.req.header (headAfter hd ops) ∧
    ∃ c, (Shown.run enc ops h).2.req.body = .copy c := by
  induction ops generalizing h hd with
  | nil => exact ⟨rfl, hh, hc⟩
  | cons op ops ih =>
    have hn' : Unmatched ops := fun o ho => hn o (List.mem_cons_of_mem _ ho)
    obtain ⟨c, hc⟩ := hc
    obtain ⟨m, ⟨hd0, body, pm, pn, cl⟩⟩ := h
    simp only at hc hh; subst hc
    cases op with
    | change m' => exact ih hn' ⟨m', _⟩ hd hh ⟨c, rfl⟩
    | header hd' => exact ih hn' ⟨m, ⟨hd', .copy c, pm, pn, cl⟩⟩ hd' ⟨rfl, rfl, rfl⟩ ⟨c, rfl⟩
    | send =>
      obtain ⟨g1, c', g2, _⟩ := send_copy hd0 c (enc m) pm pn cl
      refine ih hn' _ hd ?_ ⟨c', g2⟩
      exact ⟨g1.1.trans hh.1, g1.2.1.trans hh.2.1, g1.2.2.trans hh.2.2⟩
    | read k => exact ih hn' _ hd hh ⟨_, rfl⟩
    | look m => exact absurd rfl (hn _ (List.mem_cons_self ..) m)

/-- C112, the part that holds.  A request made by `NewRequest` refers to the message of the
user.  Whatever the user did before - changed the message or the header, sent the request,
read from its body, any number of times, in any order - sending it puts on the wire, in one
write, the header as last assigned and the encoding of the message as it is now; if that
message cannot be encoded, or is too long, nothing and the error.  What earlier reads and
sends did does not matter.  Missing: a cookie matcher among the operations
(`shown_match_false`). -/
theorem shown_send_partial {μ α : Type} (enc : μ → Wr) (t : UInt8) (m₀ : μ)
    (ops : List (ShownOp μ α)) (hn : Unmatched ops) :
    let s := (Shown.run enc ops (.init enc t m₀)).2
    let o := (s.step enc (.send : ShownOp μ α)).1
    let hd := headAfter ⟨4, t, 0, 0⟩ ops
    (∀ b, enc (msgAfter m₀ ops) = ⟨b, b.length, none⟩ → 8 + b.length ≤ 65535 →
      ∃ msg, o = .sent none [msg] ∧
        Layout msg [.num 1 hd.version.toNat, .num 1 hd.type.toNat, .num 2 msg.length,
          .num 4 hd.transaction.toNat, .raw b]) ∧
    (∀ b, enc (msgAfter m₀ ops) = ⟨b, b.length, none⟩ → 65535 < 8 + b.length →
      o = .sent (some .bodyTooLong) []) ∧
    (∀ e, (enc (msgAfter m₀ ops)).err = some e → o = .sent (some e) []) := by
  obtain ⟨g1, g2, c, g3⟩ := run_state enc ops hn (.init enc t m₀) ⟨4, t, 0, 0⟩
    ⟨rfl, rfl, rfl⟩ ⟨_, rfl⟩
  intro s o hd
  change s.msg = msgAfter m₀ ops at g1
  have hq : s.now enc = { s.req with body := .copy { c with wt := some fun _ => enc s.msg } } := by
    unfold Shown.now; rw [show s.req.body = .copy c from g3]
  have ho : o = .sent ((s.now enc).writeTo recorder []).err ((s.now enc).writeTo recorder []).dst := rfl
  rw [hq] at ho
  rw [← g1]
  refine ⟨fun b hb hl => ?_, fun b hb hl => ?_, fun e he => ?_⟩
  · obtain ⟨msg, k1, k2, _, _, k5⟩ := request_writeTo
      { s.req with body := .copy { c with wt := some fun _ => enc s.msg } } b hb hl []
    refine ⟨msg, by rw [ho, k1, k2]; rfl, ?_⟩
    simp only at k5
    rw [g2.1, g2.2.1, g2.2.2] at k5
    exact k5
  · obtain ⟨k1, _, k2⟩ := request_writeTo_tooLong recorder
      { s.req with body := .copy { c with wt := some fun _ => enc s.msg } } b hb hl []
    rw [ho, k1, k2]
  · obtain ⟨k1, k2⟩ := request_writeTo_fails recorder
      { s.req with body := .copy { c with wt := some fun _ => enc s.msg } }
      { c with wt := some fun _ => enc s.msg } (fun _ => enc s.msg) e rfl rfl he []
    rw [ho, k1, k2]

/-- Some read reported the end of the body. -/
def SawEnd (os : List ShownOut) : Prop := ∃ b, ShownOut.got b (some .eof) ∈ os

private theorem bufRead_spec (k : Nat) (b : Bytes) :
    (bufRead k b).1 ++ (bufRead k b).2.2 = b ∧
    ((bufRead k b).2.1 = some .eof → b = []) := by
  unfold bufRead
  split <;> simp_all

/-- From the first read on: what is read and what is left is what was there. -/
private theorem run_read {μ α : Type} (enc : μ → Wr) (ops : List (ShownOp μ α))
    (hn : Unmatched ops) (h : Shown μ) (c : CopyReader) (hc : h.req.body = .copy c)
    (ho : c.once = true) (he : c.rerr ≠ some .eof) :
    allRead (Shown.run enc ops h).1 <+: c.rbuf ∧
    (SawEnd (Shown.run enc ops h).1 → allRead (Shown.run enc ops h).1 = c.rbuf) := by
  induction ops generalizing h c with
  | nil => simp [Shown.run, allRead, SawEnd]
  | cons op ops ih =>
    have hn' : Unmatched ops := fun o ho => hn o (List.mem_cons_of_mem _ ho)
    obtain ⟨m, ⟨hd0, body, pm, pn, cl⟩⟩ := h
    simp only at hc; subst hc
    cases op with
    | change m' =>
      have := ih hn' ⟨m', ⟨hd0, .copy c, pm, pn, cl⟩⟩ c rfl ho he
      simpa [Shown.run, Shown.step, allRead, SawEnd] using this
    | header hd' =>
      have := ih hn' ⟨m, ⟨hd', .copy c, pm, pn, cl⟩⟩ c rfl ho he
      simpa [Shown.run, Shown.step, allRead, SawEnd] using this
    | send =>
      obtain ⟨_, c', g2, g3, g4, g5⟩ := send_copy hd0 c (enc m) pm pn cl
      have := ih hn' ⟨m, _⟩ c' g2 (g5.trans ho) (by rw [g4]; exact he)
      rw [g3] at this
      simpa [Shown.run, Shown.step, Shown.now, allRead, SawEnd] using this
    | read k =>
      cases hr : c.rerr with
      | some e =>
        have := ih hn' ⟨m, ⟨hd0, .copy { c with wt := some fun _ => enc m }, pm, pn, cl⟩⟩ _ rfl ho he
        rw [hr] at he
        have he' : e ≠ .eof := fun hx => he (by rw [hx])
        simpa [Shown.run, Shown.step, Shown.now, Body.read, CopyReader.read, hr, allRead, SawEnd,
          Ne.symm he'] using this
      | none =>
        obtain ⟨s1, s2⟩ := bufRead_spec k c.rbuf
        have := ih hn' ⟨m, ⟨hd0, .copy ⟨some fun _ => enc m, c.calls, (bufRead k c.rbuf).2.2, none, true⟩,
          pm, pn, cl⟩⟩ _ rfl rfl (by simp)
        have hs : (Shown.step (α := α) enc ⟨m, ⟨hd0, .copy c, pm, pn, cl⟩⟩ (.read k)) =
            (.got (bufRead k c.rbuf).1 (bufRead k c.rbuf).2.1, ⟨m, ⟨hd0, .copy ⟨some fun _ => enc m,
              c.calls, (bufRead k c.rbuf).2.2, none, true⟩, pm, pn, cl⟩⟩) := by
          simp [Shown.step, Shown.now, Body.read, CopyReader.read, hr, CopyReader.init, ho]
        simp only [Shown.run, hs, allRead]
        obtain ⟨t1, t2⟩ := this
        simp only at t1 t2
        have hp := (List.prefix_append_right_inj (bufRead k c.rbuf).1).2 t1
        rw [s1] at hp
        refine ⟨hp, ?_⟩
        rintro ⟨b, hb⟩
        rcases List.mem_cons.1 hb with hb | hb
        · have h0 := s2 (by injection hb with _ hb; exact hb.symm)
          rw [h0] at hp ⊢
          exact List.prefix_nil.1 hp
        · rw [t2 ⟨b, hb⟩, s1]
    | look m => exact absurd rfl (hn _ (List.mem_cons_self ..) m)

/-- Before the first read nothing is kept of the message. -/
private theorem run_unread {μ α : Type} (enc : μ → Wr) (ops : List (ShownOp μ α))
    (hn : Unmatched ops) (hu : Unread ops) (h : Shown μ) (c : CopyReader)
    (hc : h.req.body = .copy c) (hf : c.rbuf = [] ∧ c.rerr = none ∧ c.once = false) :
    (∃ c', (Shown.run enc ops h).2.req.body = .copy c' ∧
      (c'.rbuf = [] ∧ c'.rerr = none ∧ c'.once = false)) ∧
    allRead (Shown.run enc ops h).1 = [] ∧ ¬ SawEnd (Shown.run enc ops h).1 := by
  induction ops generalizing h c with
  | nil => exact ⟨⟨c, hc, hf⟩, rfl, by simp [SawEnd, Shown.run]⟩
  | cons op ops ih =>
    have hn' : Unmatched ops := fun o ho => hn o (List.mem_cons_of_mem _ ho)
    have hu' : Unread ops := fun o ho => hu o (List.mem_cons_of_mem _ ho)
    obtain ⟨m, ⟨hd0, body, pm, pn, cl⟩⟩ := h
    simp only at hc; subst hc
    cases op with
    | change m' =>
      have := ih hn' hu' ⟨m', ⟨hd0, .copy c, pm, pn, cl⟩⟩ c rfl hf
      simpa [Shown.run, Shown.step, allRead, SawEnd] using this
    | header hd' =>
      have := ih hn' hu' ⟨m, ⟨hd', .copy c, pm, pn, cl⟩⟩ c rfl hf
      simpa [Shown.run, Shown.step, allRead, SawEnd] using this
    | send =>
      obtain ⟨_, c', g2, g3, g4, g5⟩ := send_copy hd0 c (enc m) pm pn cl
      have := ih hn' hu' ⟨m, _⟩ c' g2 (by rw [g3, g4, g5]; exact hf)
      simpa [Shown.run, Shown.step, Shown.now, allRead, SawEnd] using this
    | read k => exact absurd rfl (hu _ (List.mem_cons_self ..) k)
    | look m => exact absurd rfl (hn _ (List.mem_cons_self ..) m)

/-- C112, reading.  All the reads from the body together, with any buffer sizes and whatever
is done between them, give a beginning of the encoding of the message as it was at the first
read; when a read reports the end, all of it.  Changes and sends between the reads never mix
two messages.  The encoding may fail (with an error other than `io.EOF`): then what was
encoded before the failure is read. -/
theorem shown_read {μ α : Type} (enc : μ → Wr) (t : UInt8) (m₀ : μ)
    (pre post : List (ShownOp μ α)) (k : Nat) (hp : Unmatched pre) (hu : Unread pre)
    (hq : Unmatched post) (he : (enc (msgAfter m₀ pre)).err ≠ some .eof) :
    let os := (Shown.run enc (pre ++ .read k :: post) (.init enc t m₀)).1
    allRead os <+: (enc (msgAfter m₀ pre)).out ∧
    (SawEnd os → allRead os = (enc (msgAfter m₀ pre)).out) := by
  obtain ⟨⟨c, g1, g2, g3, g4⟩, g5, g6⟩ := run_unread enc pre hp hu (.init enc t m₀) _ rfl
    ⟨rfl, rfl, rfl⟩
  obtain ⟨k1, -, -⟩ := run_state enc pre hp (.init enc t m₀) ⟨4, t, 0, 0⟩ ⟨rfl, rfl, rfl⟩ ⟨_, rfl⟩
  have ha : ∀ as bs, allRead (as ++ bs) = allRead as ++ allRead bs := by
    intro as bs
    induction as with
    | nil => rfl
    | cons a as ih => cases a <;> simp [allRead, ih]
  intro os
  have hos : os = (Shown.run enc pre (.init enc t m₀)).1 ++
      (Shown.run enc (.read k :: post) (Shown.run enc pre (.init enc t m₀)).2).1 := by
    simp only [os, run_append]
  have hr : allRead os = allRead
      (Shown.run enc (.read k :: post) (Shown.run enc pre (.init enc t m₀)).2).1 := by
    rw [hos, ha, g5]; rfl
  have hs : SawEnd os → SawEnd
      (Shown.run enc (.read k :: post) (Shown.run enc pre (.init enc t m₀)).2).1 := by
    rw [hos]
    rintro ⟨b, hb⟩
    rcases List.mem_append.1 hb with hb | hb
    · exact absurd ⟨b, hb⟩ g6
    · exact ⟨b, hb⟩
  rw [hr]
  revert hs
  generalize SawEnd os = P
  intro hs
  generalize (Shown.run enc pre (.init enc t m₀)).2 = s at *
  obtain ⟨m, ⟨hd0, body, pm, pn, cl⟩⟩ := s
  simp only at g1 k1; subst g1
  replace k1 : m = msgAfter m₀ pre := k1
  rw [← k1] at he ⊢
  obtain ⟨s1, s2⟩ := bufRead_spec k (enc m).out
  have hst : (Shown.step (α := α) enc ⟨m, ⟨hd0, .copy c, pm, pn, cl⟩⟩ (.read k)) =
      (.got (bufRead k (enc m).out).1 (bufRead k (enc m).out).2.1, ⟨m, ⟨hd0, .copy ⟨some fun _ => enc m,
        c.calls + 1, (bufRead k (enc m).out).2.2, (enc m).err, true⟩, pm, pn, cl⟩⟩) := by
    simp [Shown.step, Shown.now, Body.read, CopyReader.read, g2, g3, CopyReader.init, g4,
      CopyReader.writeTo]
  obtain ⟨t1, t2⟩ := run_read (α := α) enc post hq ⟨m, ⟨hd0, .copy ⟨some fun _ => enc m,
        c.calls + 1, (bufRead k (enc m).out).2.2, (enc m).err, true⟩, pm, pn, cl⟩⟩ _ rfl rfl he
  simp only [Shown.run, hst, allRead] at hs ⊢
  simp only at t1 t2
  have hp := (List.prefix_append_right_inj (bufRead k (enc m).out).1).2 t1
  rw [s1] at hp
  refine ⟨hp, fun hP => ?_⟩
  obtain ⟨b, hb⟩ := hs hP
  rcases List.mem_cons.1 hb with hb | hb
  · have h0 := s2 (by injection hb with _ hb; exact hb.symm)
    rw [h0] at hp ⊢
    exact List.prefix_nil.1 hp
  · rw [t2 ⟨b, hb⟩, s1]

/-- C112 is violated by reads: after one `Read`, of any size, also of none, a change of the
message is not seen by the reads that follow, while a send of the same request sends the new
message.  For all messages, all types of messages. -/
theorem shown_read_false {μ α : Type} (enc : μ → Wr) (t : UInt8) (m₀ m₁ : μ) (b₀ b₁ : Bytes)
    (h₀ : enc m₀ = ⟨b₀, b₀.length, none⟩) (h₁ : enc m₁ = ⟨b₁, b₁.length, none⟩)
    (hne : b₀ ≠ []) (hl : 8 + b₁.length ≤ 65535) :
    ∃ msg, (Shown.run (α := α) enc [.read 0, .change m₁, .read b₀.length, .send]
        (.init enc t m₀)).1 = [.got [] none, .done, .got b₀ none, .sent none [msg]] ∧
      Layout msg [.num 1 4, .num 1 t.toNat, .num 2 msg.length, .num 4 0, .raw b₁] := by
  have hn : Unmatched ([.read 0, .change m₁, .read b₀.length] : List (ShownOp μ α)) := by
    intro op ho m; simp at ho; rcases ho with rfl | rfl | rfl <;> simp
  obtain ⟨g, -, -⟩ := shown_send_partial enc t m₀ _ hn
  obtain ⟨msg, k1, k2⟩ := g b₁ h₁ hl
  refine ⟨msg, ?_, by simpa [headAfter] using k2⟩
  rw [show ([.read 0, .change m₁, .read b₀.length, .send] : List (ShownOp μ α)) =
    [.read 0, .change m₁, .read b₀.length] ++ [.send] from rfl, run_append]
  have : (Shown.run enc ([.read 0, .change m₁, .read b₀.length] : List (ShownOp μ α))
      (.init enc t m₀)).1 = [.got [] none, .done, .got b₀ none] := by
    simp [Shown.run, Shown.step, Shown.init, newRequest, Shown.now, Body.read, CopyReader.read,
      CopyReader.init, CopyReader.writeTo, h₀, bufRead, hne]
  rw [this]
  change [ShownOut.got [] none, .done, .got b₀ none] ++ [(Shown.step enc _ ShownOp.send).1] = _
  rw [k1]
  rfl

/-- C112 is violated once a cookie matcher looked at the request: it replaces the body by a
copy of what it read.  A change of the message is not sent any more, the old message is; and
the request sent once more is a bare header.  For all messages and all matchers. -/
theorem shown_match_false {μ α : Type} (enc : μ → Wr) (t : UInt8) (m₀ m₁ : μ) (b₀ : Bytes)
    (h₀ : enc m₀ = ⟨b₀, b₀.length, none⟩) (hl : 8 + b₀.length ≤ 65535) (cm : CookieMatcher α) :
    ∃ r msg msg', (Shown.run enc [.look cm, .change m₁, .send, .send] (.init enc t m₀)).1 =
        [.matched r, .done, .sent none [msg], .sent none [msg']] ∧
      Layout msg [.num 1 4, .num 1 t.toNat, .num 2 msg.length, .num 4 0, .raw b₀] ∧
      Layout msg' [.num 1 4, .num 1 t.toNat, .num 2 8, .num 4 0, .raw []] := by
  obtain ⟨c', g⟩ := CopyReader.readAll_fresh (fun _ => enc m₀) b₀ (by rw [h₀]) (by rw [h₀])
  obtain ⟨msg, k1, k2, -, -, k5⟩ := request_writeTo ⟨⟨4, t, 0, 0⟩, .buffer b₀, 1, 3, 0⟩ b₀ rfl hl []
  have kr : ∃ len, ((Request.mk ⟨4, t, 0, 0⟩ (.buffer b₀) 1 3 0).writeTo recorder []).req =
      ⟨⟨4, t, len, 0⟩, .buffer [], 1, 3, 0⟩ := by
    have : ¬ 65535 < b₀.length + headerlen := by simp only [headerlen]; omega
    simp [Request.writeTo, Body.copyTo, this, Header.writeTo_eq]
  obtain ⟨len, kr⟩ := kr
  obtain ⟨msg', j1, j2, -, j4, j5⟩ := request_writeTo ⟨⟨4, t, len, 0⟩, .buffer [], 1, 3, 0⟩ [] rfl
    (by simp) []
  refine ⟨(cm.run (newRequest t (some fun _ => enc m₀))).1, msg, msg', ?_, by simpa using k5, ?_⟩
  · have hm : cm.run (newRequest t (some fun _ => enc m₀)) =
        ((cm.run (newRequest t (some fun _ => enc m₀))).1, ⟨⟨4, t, 0, 0⟩, .buffer b₀, 1, 3, 0⟩) := by
      simp [CookieMatcher.run, newRequest, Body.readAll, g]
    have hnow : (Shown.init enc t m₀).now enc = newRequest t (some fun _ => enc m₀) := rfl
    simp only [Shown.run, Shown.step, hnow]
    rw [hm]
    simp [Shown.now, kr, k1, k2, j1, j2]
  · simp only [List.length_nil] at j4
    rw [j4] at j5
    simpa using j5

private def plain (m : Bytes) : Wr := ⟨m, m.length, none⟩

/-- Non-vacuity: a message that is changed, sent, read, changed and sent again. -/
example : ∃ msg, ((Shown.run (α := FlowMod) plain
    [.send, .change [1, 2], .read 1, .change [3, 4, 5]] (Shown.init plain 2 [9])).2.step plain
      (.send : ShownOp Bytes FlowMod)).1 = .sent none [msg] ∧
    Layout msg [.num 1 4, .num 1 2, .num 2 msg.length, .num 4 0, .raw [3, 4, 5]] := by
  have hn : Unmatched ([.send, .change [1, 2], .read 1, .change [3, 4, 5]] :
      List (ShownOp Bytes FlowMod)) := by
    intro op ho m; simp at ho; rcases ho with rfl | rfl | rfl | rfl <;> simp
  exact (shown_send_partial plain 2 [9] _ hn).1 [3, 4, 5] rfl
    (by decide)

/-- Non-vacuity: reads with a change between them give the first message only. -/
example : (Shown.run (α := FlowMod) plain
    [.send, .change [1, 2], .read 1, .change [3, 4, 5], .read 7, .read 7] (Shown.init plain 2 [9])).1.length = 6 ∧
    allRead (Shown.run (α := FlowMod) plain
    [.send, .change [1, 2], .read 1, .change [3, 4, 5], .read 7, .read 7] (Shown.init plain 2 [9])).1 = [1, 2] ∧
    SawEnd (Shown.run (α := FlowMod) plain
    [.send, .change [1, 2], .read 1, .change [3, 4, 5], .read 7, .read 7] (Shown.init plain 2 [9])).1 := by
  refine ⟨rfl, rfl, [], ?_⟩
  simp [Shown.run, Shown.step, Shown.init, newRequest, Shown.now, Body.read, CopyReader.read,
      CopyReader.init, CopyReader.writeTo, bufRead, plain, Request.writeTo, Body.copyTo, headerlen,
      Header.writeTo_eq]

end Verif.Props
