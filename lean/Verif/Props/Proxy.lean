import Verif.Props.EndToEnd

/-!
# C80: a program that sends on what it receives

The program is not part of the repository: it is the loop a user writes with `Conn.Receive`
(net.go:121-131) of one connection and `Send` (net.go:232-240) on another.
-/

namespace Verif.Props

open Verif

/-- Why the loop ended. -/
inductive Ended where
  | read (e : Option Err)
  | write (e : Err)

/-- At most `n` rounds of: receive a request from one connection, send it on the other; end at
the first error. -/
def proxy : Nat → Rd → BW → Option Ended × Rd × BW
  | 0, r, c => (none, r, c)
  | n + 1, r, c =>
    match Conn.receive r with
    | (none, e, r') => (some (.read e), r', c)
    | (some q, _, r') =>
      match sendBatch c [q] with
      | (none, c') => proxy n r' c'
      | (some e, c') => (some (.write e), r', c')

/-- The bytes of one OpenFlow message, as far as the framing goes: an eight-byte header whose
length field says how many bytes there are. -/
def Frame (m : Bytes) : Prop :=
  ∃ v t x b, Layout m [.num 1 v, .num 1 t, .num 2 m.length, .num 4 x, .raw b]

/-! ## Lemmas -/

private theorem frame_bytes (H : Header) (b : Bytes) (h : H.len = 8 + b.length) :
    Frame (H.bytes ++ b) := by
  refine ⟨H.version.toNat, H.type.toNat, H.transaction.toNat, b, ?_⟩
  have hl : (H.bytes ++ b).length = H.length.toNat := by
    simp [Header.bytes_length]; exact h.symm
  rw [hl]
  simp only [Header.bytes, List.append_assoc, Layout.u8, Layout.u16, Layout.u32]
  simp

private theorem frame_header {m tail : Bytes} (h : Frame m) :
    8 ≤ m.length ∧ (Header.ofBytes (m ++ tail)).len = m.length := by
  obtain ⟨v, t, x, b, h⟩ := h
  simp only [Layout] at h
  obtain ⟨h1, _, h2, _, h3, h4, h5, _, _⟩ := h
  simp only [List.drop_drop, List.length_drop] at h1 h2 h3 h4 h5
  have h8 : 8 ≤ m.length := by omega
  refine ⟨h8, ?_⟩
  have : (((m ++ tail).drop 2).take 2) = (m.drop 2).take 2 := by
    rw [List.drop_append_of_le_length (by omega), List.take_append_of_le_length (by simp; omega)]
  have hlt := getBE_lt ((m.drop 2).take 2)
  rw [h4] at hlt
  have h16 : m.length < 65536 := by
    refine Nat.lt_of_lt_of_le hlt ?_
    rw [List.length_take]
    exact Nat.pow_le_pow_right (by omega) (Nat.min_le_left _ _)
  simp only [Header.ofBytes, Header.len]
  rw [this, ofBE, h4]
  show (UInt16.ofNat m.length).toNat = m.length
  simp; omega

/-- One round that receives a request: its bytes are those of a frame, and sending it puts
exactly these bytes on the wire. -/
private theorem round (F : Err) (r : Rd) (hr : r.Ok F) :
    (∃ e r', Conn.receive r = (none, e, r') ∧ (r.Sep → ∀ m tail, r.content = m ++ tail → ¬ Frame m) ∧
      (r.content = [] → e = some F)) ∨
    (∃ q m r', Conn.receive r = (some q, none, r') ∧ Frame m ∧ r.content = m ++ r'.content ∧
      r'.Ok F ∧ (r.Sep → r'.Sep) ∧ (ConnOp.send q).Serialises ∧ (ConnOp.send q).message = m) := by
  rcases Conn.receive_spec F r hr with ⟨h1, r', h2, _⟩ | ⟨h1, h2, r', h3, _⟩ |
    ⟨h1, h2, h3, r', h4, _, _, h5⟩ | ⟨h1, h2, r', h3, h4, h5⟩
  · refine .inl ⟨_, r', h2, fun _ m tail hc hf => ?_, fun hc => by simp [hc, headerErr]⟩
    have := (frame_header (tail := tail) hf).1
    rw [hc] at h1; simp at h1; omega
  · refine .inl ⟨_, r', h3, fun _ m tail hc hf => ?_, fun hc => by simp [hc] at h1⟩
    have := frame_header (tail := tail) hf
    rw [hc] at h2; omega
  · refine .inl ⟨_, r', h4, fun hs m tail hc hf => ?_, fun _ => rfl⟩
    have := frame_header (tail := tail) hf
    have h6 := h5 (.inl hs)
    rw [hc] at h6; simp at h6; omega
  · generalize hH : Header.ofBytes r.content = H at *
    have hb8 : H.bytes = r.content.take 8 := by rw [← hH]; exact Header.bytes_ofBytes (by omega)
    generalize hb : (r.content.drop 8).take (H.len - 8) = b at *
    have hbl : b.length = H.len - 8 := by rw [← hb]; simp; omega
    have hHl : H.len < 65536 := H.length.toNat_lt
    have hlen : ({ H with length := UInt16.ofNat (8 + b.length) } : Header) = H := by
      have : UInt16.ofNat (8 + b.length) = H.length := by
        rw [hbl, show 8 + (H.len - 8) = H.len by omega]
        simp [Header.len]
      rw [this]
    have hser : (ConnOp.send ⟨H, .buffer b, 1, (H.version - 1).toNat, H.len - 8⟩).Serialises := by
      obtain ⟨q', _, ⟨hl, hw⟩ | ⟨hl, hw⟩⟩ := Request.writeTo_yields Conn.write
        ⟨H, .buffer b, 1, (H.version - 1).toNat, H.len - 8⟩ b (BW.new []) rfl
      · obtain ⟨_, _, o3, _⟩ := op_took (.send ⟨H, .buffer b, 1, (H.version - 1).toNat, H.len - 8⟩) (.new [])
        apply Classical.byContradiction
        intro hn
        have hm := (o3 hn).2.2
        have hne : Header.bytes { H with length := UInt16.ofNat (8 + b.length) } ++ b ≠ [] := by
          intro hc; have := congrArg List.length hc; simp [Header.bytes_length] at this
        have hz := (o3 hn).2.1
        simp only [ConnOp.run, Conn.send, hw, bufWriteTo_conn _ _ hne] at hz
        have ht := ((BW.new []).write_took (Header.bytes { H with length := UInt16.ofNat (8 + b.length) } ++ b)).1
        rw [hz] at ht
        have := (ht.ok rfl).2
        simp [BW.new] at this
        have hl0 := congrArg List.length this.1
        simp [Header.bytes_length] at hl0
      · omega
    obtain ⟨_, hm⟩ := send_message ⟨H, .buffer b, 1, (H.version - 1).toNat, H.len - 8⟩ b rfl hser
    rw [hlen] at hm
    refine .inr ⟨_, H.bytes ++ b, r', h3, frame_bytes H b (by omega), ?_, h5, h4.sep, hser, hm⟩
    rw [h4.content.2, hb8, ← hb]
    have e1 : H.len = 8 + (H.len - 8) := by omega
    conv => rhs; rhs; rw [e1, ← List.drop_drop]
    rw [List.append_assoc, List.take_append_drop, List.take_append_drop]

private theorem flush_ser : (ConnOp.flush).Serialises := by
  simp [ConnOp.Serialises, ConnOp.run, Conn.flush, BW.flush, BW.new]

/-- What one `Send` does. -/
private theorem send_round (c : BW) (q : Request) (hs : (ConnOp.send q).Serialises)
    (he : c.err = none) (hb : c.buf = []) :
    ((sendBatch c [q]).1 = none ∧ (sendBatch c [q]).2.err = none ∧ (sendBatch c [q]).2.buf = [] ∧
      (sendBatch c [q]).2.tr.out = c.tr.out ++ (ConnOp.send q).message ∧
      (c.tr.plan = [] → (sendBatch c [q]).2.tr.plan = [])) ∨
    (c.tr.plan ≠ [] ∧ ∃ e, (sendBatch c [q]).1 = some e ∧
      (sendBatch c [q]).2.tr.out <+: c.tr.out ++ (ConnOp.send q).message) := by
  obtain ⟨o1, o2, _, o4⟩ := op_took (.send q) c
  rcases hq : Conn.send c q with ⟨e, c', q'⟩
  have hr : ConnOp.run c (.send q) = (e, c') := by simp [ConnOp.run, hq]
  rw [hr] at o1 o2 o4
  simp only at o1 o2 o4
  have o2 := o2 hs
  simp only [sendBatch, hq]
  cases e with
  | some e =>
    refine .inr ⟨fun hp => ?_, e, rfl, ?_⟩
    · rw [(o4 he hp).1] at o2; simp at o2
    · obtain ⟨k, _, hk⟩ := o1.pre he
      simp only [hk, hb, List.nil_append]
      exact List.prefix_append_right_inj _ |>.2 (List.take_prefix _ _)
  | none =>
    obtain ⟨p1, p2, p3⟩ := c'.flush_took
    obtain ⟨_, _, _, p4⟩ := op_took .flush c'
    simp only [ConnOp.run] at p4
    cases hf : (Conn.flush c').1 with
    | none =>
      simp only [Conn.flush] at hf ⊢
      have hbuf := p3 hf
      have hok := (p1.ok (by rw [← p2]; exact hf)).2
      refine .inl ⟨trivial, by rw [← p2]; exact hf, hbuf, ?_, fun hp => (p4 o2.symm (o4 he hp).2).2⟩
      rw [hbuf] at hok
      simp only [List.append_nil] at hok
      rw [hok, (o1.ok o2.symm).2, hb]
      simp
    | some e =>
      refine .inr ⟨fun hp => ?_, e, rfl, ?_⟩
      · have h1 := (p4 o2.symm (o4 he hp).2).1
        simp only [Conn.flush] at hf h1
        rw [p2, h1] at hf
        simp at hf
      · obtain ⟨k, _, hk⟩ := (o1.trans p1).pre he
        simp only [Conn.flush, hk, hb, List.nil_append, List.append_nil]
        exact List.prefix_append_right_inj _ |>.2 (List.take_prefix _ _)

/-- Everything about the loop. -/
private theorem proxy_spec (F : Err) (n : Nat) (r : Rd) (hr : r.Ok F) (c : BW) (he : c.err = none)
    (hb : c.buf = []) :
    ∃ (frames : List Bytes) (rest : Bytes), r.content = frames.flatten ++ rest ∧
      (∀ m ∈ frames, Frame m) ∧
      match proxy n r c with
      | (none, _, c') => c'.tr.out = c.tr.out ++ frames.flatten ∧ frames.length = n
      | (some (.read e), _, c') => c'.tr.out = c.tr.out ++ frames.flatten ∧
        (r.Sep → ∀ m tail, rest = m ++ tail → ¬ Frame m) ∧ (rest = [] → e = some F)
      | (some (.write _), _, c') => c'.tr.out <+: c.tr.out ++ frames.flatten ∧ c.tr.plan ≠ [] := by
  induction n generalizing r c with
  | zero => exact ⟨[], r.content, by simp, by simp, by simp [proxy]⟩
  | succ n ih =>
    rcases round F r hr with ⟨e, r', h1, h2, h20⟩ | ⟨q, m, r', h1, h2, h3, h4, h5, h6, h7⟩
    · exact ⟨[], r.content, by simp, by simp, by simp only [proxy, h1]; exact ⟨by simp, h2, h20⟩⟩
    · rcases send_round c q h6 he hb with ⟨s1, s2, s3, s4, s5⟩ | ⟨s1, e, s2, s3⟩
      · obtain ⟨frames, rest, i1, i2, i3⟩ := ih r' h4 (sendBatch c [q]).2 s2 s3
        refine ⟨m :: frames, rest, by rw [h3, i1]; simp, by simpa using ⟨h2, i2⟩, ?_⟩
        rcases hs : sendBatch c [q] with ⟨e, c'⟩
        rw [hs] at s1 s4 s5 i3
        simp only at s1 s4 s5 i3
        subst s1
        simp only [proxy, h1, hs]
        rw [s4, h7] at i3
        rcases hp : proxy n r' c' with ⟨_ | ⟨_⟩ | _, r'', c''⟩
        · rw [hp] at i3; simp only at i3 ⊢; simpa using i3
        · rw [hp] at i3; simp only at i3 ⊢
          exact ⟨by simpa using i3.1, fun hs => i3.2.1 (h5 hs), i3.2.2⟩
        · rw [hp] at i3; simp only at i3 ⊢
          exact ⟨by simpa using i3.1, fun hc => i3.2 (s5 hc)⟩
      · refine ⟨[m], r'.content, by rw [h3]; simp, by simpa using h2, ?_⟩
        rcases hs : sendBatch c [q] with ⟨e', c'⟩
        rw [hs] at s2 s3
        simp only at s2 s3
        subst s2
        simp only [proxy, h1, hs]
        exact ⟨by simpa [h7] using s3, s1⟩

private theorem frames_length {frames : List Bytes} (h : ∀ m ∈ frames, Frame m) :
    8 * frames.length ≤ frames.flatten.length := by
  induction frames with
  | nil => simp
  | cons m t ih =>
    have h1 := (frame_header (tail := []) (h m (by simp))).1
    have h2 := ih (fun x hx => h x (by simp [hx]))
    simp at h2 ⊢; omega

/-! ## Theorems -/

/-- C80.  Whatever the stream is and whatever the other transport does: what is sent is a
beginning of what was received. -/
theorem proxy_prefix (F : Err) (plan : List (Option (Nat × Err))) (n : Nat) (r : Rd) (hr : r.Ok F) :
    (proxy n r (.new plan)).2.2.tr.out <+: r.content := by
  obtain ⟨frames, rest, h1, h2, h3⟩ := proxy_spec F n r hr (.new plan) rfl rfl
  rw [h1]
  rcases hp : proxy n r (.new plan) with ⟨_ | ⟨_⟩ | _, r', c'⟩
  · rw [hp] at h3; simp [BW.new] at h3 ⊢; rw [h3.1]; exact List.prefix_append _ _
  · rw [hp] at h3; simp [BW.new] at h3 ⊢; rw [h3.1]; exact List.prefix_append _ _
  · rw [hp] at h3; simp [BW.new] at h3 ⊢; exact h3.1.trans (List.prefix_append _ _)

/-- C80.  The loop ends on every finite stream. -/
theorem proxy_ends (F : Err) (plan : List (Option (Nat × Err))) (n : Nat) (r : Rd) (hr : r.Ok F)
    (hn : r.content.length < 8 * n) : (proxy n r (.new plan)).1 ≠ none := by
  obtain ⟨frames, rest, h1, h2, h3⟩ := proxy_spec F n r hr (.new plan) rfl rfl
  intro h
  rcases hp : proxy n r (.new plan) with ⟨o, r', c'⟩
  rw [hp] at h h3
  simp only at h
  subst h
  have := frames_length h2
  rw [h3.2] at this
  rw [h1] at hn
  simp at hn this
  omega

/-- C80.  The proxy is transparent.  For any stream, well formed or not, in any fragmentation:
when the loop ends with an error of `Receive`, the stream was a sequence of frames and a rest,
the frames have been transmitted byte for byte, and nothing else.  If the transport reports the
end of the stream in a call of its own the rest does not begin with a frame, so that these are
all frames.  A stream that ends after a frame ends the loop with its own error. -/
theorem proxy_transparent (F : Err) (plan : List (Option (Nat × Err))) (n : Nat) (r : Rd) (hr : r.Ok F)
    (e : Option Err) (h : (proxy n r (.new plan)).1 = some (.read e)) :
    ∃ (frames : List Bytes) (rest : Bytes), r.content = frames.flatten ++ rest ∧
      (∀ m ∈ frames, Frame m) ∧ (proxy n r (.new plan)).2.2.tr.out = frames.flatten ∧
      (r.Sep → ∀ m tail, rest = m ++ tail → ¬ Frame m) ∧ (rest = [] → e = some F) := by
  obtain ⟨frames, rest, h1, h2, h3⟩ := proxy_spec F n r hr (.new plan) rfl rfl
  refine ⟨frames, rest, h1, h2, ?_⟩
  rcases hp : proxy n r (.new plan) with ⟨o, r', c'⟩
  rw [hp] at h h3
  simp only at h
  subst h
  simp only [BW.new, List.nil_append] at h3
  exact h3

/-- C80.  On a transport that does not fail, no send fails: the loop ends with the error of
`Receive`. -/
theorem proxy_reads (F : Err) (n : Nat) (r : Rd) (hr : r.Ok F) (e : Err) :
    (proxy n r (.new [])).1 ≠ some (.write e) := by
  obtain ⟨frames, rest, h1, h2, h3⟩ := proxy_spec F n r hr (.new []) rfl rfl
  intro h
  rcases hp : proxy n r (.new []) with ⟨o, r', c'⟩
  rw [hp] at h h3
  simp only at h
  subst h
  exact h3.2 rfl

/-- Non-vacuity: a hello, an echo request of an unknown version with two bytes, in fragments, and
the beginning of a third message; the two are sent on. -/
example :
    let r : Rd := .buf [] none (.src [4, 0, 0, 8, 0, 0, 0, 7, 99, 2, 0, 10, 1, 2, 3, 4, 5, 6, 4, 0, 0]
      [3, 9, 2] .eof false)
    r.Ok .eof ∧ r.Sep ∧ r.content.length < 8 * 3 ∧
    (proxy 3 r (.new [])).2.2.tr.out =
      [4, 0, 0, 8, 0, 0, 0, 7, 99, 2, 0, 10, 1, 2, 3, 4, 5, 6] := by
  refine ⟨?_, ?_, ?_, ?_⟩
  · simp [Rd.Ok]
  · simp [Rd.Sep]
  · simp [Rd.content]
  · decide +kernel

end Verif.Props
