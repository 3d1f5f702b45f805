import Verif.Request

/-!
# The sending half of net.go, and response.Write of server.go
-/

namespace Verif

/-! ## The transport and bufio.Writer -/

/-- A transport (`net.Conn`) for writing: `out` is what it accepted so far, `plan` is what
it will do: the next `Write` accepts everything (`none`, also when the plan is used up), or
accepts at most `k` bytes and returns an error.  This is the `io.Writer` contract: a short
count comes with an error. -/
structure Transport where
  out : Bytes
  plan : List (Option (Nat × Err))
  deriving DecidableEq, Repr

/-- `net.Conn.Write`. -/
def Transport.write (t : Transport) (p : Bytes) : Nat × Option Err × Transport :=
  match t.plan with
  | [] => (p.length, none, { t with out := t.out ++ p })
  | none :: rest => (p.length, none, ⟨t.out ++ p, rest⟩)
  | some (k, e) :: rest => (min k p.length, some e, ⟨t.out ++ p.take k, rest⟩)

/-- `bufio.Writer` of the default size 4096 (the writing half of `conn`, net.go:101-128):
buffered bytes, sticky error, transport. -/
structure BW where
  buf : Bytes
  err : Option Err
  tr : Transport
  deriving DecidableEq, Repr

/-- `newConn`, net.go:122-128. -/
def BW.new (plan : List (Option (Nat × Err))) : BW := ⟨[], none, ⟨[], plan⟩⟩

/-- `(b *bufio.Writer) Available`. -/
def BW.avail (b : BW) : Nat := bufSize - b.buf.length

/-- `(b *bufio.Writer) Flush`. -/
def BW.flush (b : BW) : Option Err × BW :=
  match b.err with
  | some e => (some e, b)
  | none =>
    if b.buf = [] then (none, b)
    else
      match b.tr.write b.buf with
      | (n, e, t) =>
        match (if n < b.buf.length ∧ e = none then some Err.shortWrite else e) with
        | some e => (some e, ⟨b.buf.drop n, some e, t⟩)
        | none => (none, ⟨[], none, t⟩)

/-- The loop of `(b *bufio.Writer) Write`: returns the number of bytes taken, the rest of
`p`, and the writer.  `fuel` bounds the number of iterations. -/
def BW.loop : Nat → Bytes → BW → Nat × Bytes × BW
  | 0, p, b => (0, p, b)
  | fuel + 1, p, b =>
    if b.avail < p.length ∧ b.err = none then
      let (n, b') :=
        if b.buf = [] then
          match b.tr.write p with
          | (n, e, t) => (n, (⟨b.buf, e, t⟩ : BW))
        else
          (min b.avail p.length, (BW.flush { b with buf := b.buf ++ p.take b.avail }).2)
      let (nn, p', b'') := BW.loop fuel (p.drop n) b'
      (n + nn, p', b'')
    else (0, p, b)

/-- `(b *bufio.Writer) Write`.  Three iterations are always enough (`BW.loop_done`). -/
def BW.write (b : BW) (p : Bytes) : Nat × Option Err × BW :=
  match BW.loop 3 p b with
  | (nn, p', b') =>
    match b'.err with
    | some e => (nn, some e, b')
    | none => (nn + min b'.avail p'.length, none, { b' with buf := b'.buf ++ p'.take b'.avail })

/-! ## conn -/

/-- `(c *conn) Write`, net.go:151-155, as a destination. -/
def Conn.write : Dst BW := fun b p => b.write p

/-- `(c *conn) Flush`, net.go:158-162. -/
def Conn.flush (b : BW) : Option Err × BW := b.flush

/-- `(c *conn) forceWrite`, net.go:165-175. -/
def Conn.forceWrite (b : BW) (p : Bytes) : Option Err × BW :=
  match b.write p with
  | (_, some e, b') => (some e, b')
  | (_, none, b') => b'.flush

/-- `(c *conn) Send`, net.go:178-187.  The write deadline (net.go:179-183) is part of the
transport: an expired deadline is a transport error. -/
def Conn.send (b : BW) (q : Request) : Option Err × BW × Request :=
  let o := q.writeTo Conn.write b
  (o.err, o.dst, o.req)

/-- `Send`, net.go:232-240. -/
def sendBatch (b : BW) : List Request → Option Err × BW
  | [] => Conn.flush b
  | q :: qs =>
    match Conn.send b q with
    | (some e, b', _) => (some e, b')
    | (none, b', _) => sendBatch b' qs

/-- `(r *response) Write`, server.go:58-90: `rv` is the version of the request, `h` the
header supplied by the handler, `w` what the message's `WriteTo` does (`none` for a nil
message).  Returns the error, the connection, and the (modified) header. -/
def Response.write (b : BW) (rv : UInt8) (h : Header) (w : Option Wr) : Option Err × BW × Header :=
  let h := if h.version = 0 then { h with version := rv } else h
  let body : Wr := match w with
    | none => ⟨[], 0, none⟩
    | some w => w
  match body.err with
  | some e => (some e, b, h)
  | none =>
    let h := { h with length := UInt16.ofNat headerlen + UInt16.ofNat body.out.length }
    match h.writeTo with
    | ⟨_, _, some e⟩ => (some e, b, h)
    | ⟨hb, _, none⟩ =>
      let (e, b') := Conn.forceWrite b (hb ++ body.out)
      (e, b', h)

/-! ## Invariant -/

/-- `b'` is `b` after the bytes `p` have been passed to it: as long as there is no error
everything is either transmitted or buffered; after an error nothing is transmitted. -/
structure BW.Took (b : BW) (p : Bytes) (b' : BW) : Prop where
  cap : b.buf.length ≤ bufSize → b'.buf.length ≤ bufSize
  ok : b'.err = none → b.err = none ∧ b'.tr.out ++ b'.buf = b.tr.out ++ b.buf ++ p
  pre : b.err = none → ∃ k ≤ (b.buf ++ p).length, b'.tr.out = b.tr.out ++ (b.buf ++ p).take k
  stuck : ∀ e, b.err = some e → b'.err = some e ∧ b'.tr.out = b.tr.out

theorem Transport.write_spec (t : Transport) (p : Bytes) :
    ∃ k e t', t.write p = (k, e, t') ∧ k ≤ p.length ∧ t'.out = t.out ++ p.take k ∧
      (e = none → k = p.length) := by
  unfold Transport.write
  split
  · exact ⟨_, _, _, rfl, Nat.le_refl _, by simp, by simp⟩
  · exact ⟨_, _, _, rfl, Nat.le_refl _, by simp, by simp⟩
  · rename_i k e rest _
    refine ⟨_, _, _, rfl, Nat.min_le_right _ _, ?_, by simp⟩
    simp only [List.append_cancel_left_eq]
    by_cases h : k ≤ p.length
    · rw [Nat.min_eq_left h]
    · rw [Nat.min_eq_right (by omega), List.take_of_length_le (by omega), List.take_length]

theorem BW.flush_took (b : BW) : b.Took [] b.flush.2 ∧ b.flush.1 = b.flush.2.err ∧
    (b.flush.1 = none → b.flush.2.buf = []) := by
  unfold BW.flush
  cases he : b.err with
  | some e =>
    refine ⟨⟨fun h => h, fun h => ?_, fun h => ?_, fun e' h => ?_⟩, by simp [he], by simp⟩
    · simp [he] at h
    · rw [he] at h; simp at h
    · rw [he] at h; simp at h; simp [he, h]
  | none =>
    simp only
    by_cases hb : b.buf = []
    · simp only [hb, if_true]
      exact ⟨⟨fun h => by simp [hb], fun _ => by simp [he, hb], fun _ => ⟨0, by simp, by simp⟩,
        fun e h => by rw [he] at h; simp at h⟩, by simp [he], fun _ => trivial⟩
    · simp only [hb, if_false]
      obtain ⟨k, e, t', h1, h2, h3, h4⟩ := b.tr.write_spec b.buf
      rw [h1]
      cases e with
      | some e =>
        simp only [reduceCtorEq, and_false, if_false]
        refine ⟨⟨fun h => ?_, fun h => by simp at h, fun _ => ⟨k, ?_, ?_⟩, fun e' h => ?_⟩, by simp, by simp⟩
        · simp only [List.length_drop]; omega
        · simpa using h2
        · simpa using h3
        · rw [he] at h; simp at h
      | none =>
        have hk := h4 rfl
        subst hk
        simp only [Nat.lt_irrefl, false_and, if_false]
        refine ⟨⟨fun h => by simp, fun h => ?_, fun _ => ⟨b.buf.length, by simp, ?_⟩, fun e' h => ?_⟩, by simp, by simp⟩
        · simp [he, h3]
        · simpa using h3
        · rw [he] at h; simp at h

theorem BW.Took.refl (b : BW) : b.Took [] b :=
  ⟨fun h => h, fun h => ⟨h, by simp⟩, fun _ => ⟨0, by simp, by simp⟩, fun _ h => ⟨h, rfl⟩⟩

theorem BW.Took.trans {a b c : BW} {p q : Bytes} (h1 : a.Took p b) (h2 : b.Took q c) :
    a.Took (p ++ q) c where
  cap h := h2.cap (h1.cap h)
  ok h := by
    obtain ⟨hb, e2⟩ := h2.ok h
    obtain ⟨ha, e1⟩ := h1.ok hb
    exact ⟨ha, by rw [e2, e1]; simp⟩
  pre h := by
    obtain ⟨k, hk, e1⟩ := h1.pre h
    cases hb : b.err with
    | some e =>
      have := (h2.stuck e hb).2
      refine ⟨k, by simp at hk ⊢; omega, ?_⟩
      rw [this, e1, ← List.append_assoc, List.take_append_of_le_length hk]
    | none =>
      obtain ⟨j, hj, e2⟩ := h2.pre hb
      have e3 := (h1.ok hb).2
      -- b.out ++ b.buf = a.out ++ a.buf ++ p, and b.out = a.out ++ take k (a.buf ++ p)
      have e4 : b.buf = (a.buf ++ p).drop k := by
        rw [e1, List.append_assoc, List.append_assoc] at e3
        have := List.append_cancel_left e3
        have hsplit := List.take_append_drop k (a.buf ++ p)
        rw [← this] at hsplit
        rw [this] at hsplit
        have e5 : List.take k (a.buf ++ p) ++ b.buf = List.take k (a.buf ++ p) ++ (a.buf ++ p).drop k := by
          rw [List.take_append_drop]; exact this
        exact List.append_cancel_left e5
      refine ⟨k + j, ?_, ?_⟩
      · rw [e4] at hj; simp at hk hj ⊢; omega
      · rw [e2, e1, e4, List.append_assoc, List.append_cancel_left_eq, ← List.append_assoc]
        have e6 : ((a.buf ++ p).drop k ++ q) = (a.buf ++ p ++ q).drop k := by
          rw [List.drop_append_of_le_length hk]
        rw [e6]
        have e7 : (a.buf ++ p).take k = (a.buf ++ p ++ q).take k := by
          rw [List.take_append_of_le_length hk]
        rw [e7, List.take_add]
  stuck e h := by
    obtain ⟨hb, e1⟩ := h1.stuck e h
    obtain ⟨hc, e2⟩ := h2.stuck e hb
    exact ⟨hc, by rw [e2, e1]⟩

/-- Passing more bytes than the (failed) writer took does not matter. -/
theorem BW.Took.extend {a b : BW} {p q : Bytes} (h : a.Took p b) (hb : b.err ≠ none) :
    a.Took (p ++ q) b where
  cap := h.cap
  ok h' := absurd h' hb
  pre h' := by
    obtain ⟨k, hk, e⟩ := h.pre h'
    refine ⟨k, by simp at hk ⊢; omega, ?_⟩
    rw [e, ← List.append_assoc, List.take_append_of_le_length hk]
  stuck := h.stuck

/-- Copying into the buffer. -/
theorem BW.took_copy (b : BW) (q : Bytes) (hb : b.err = none) (hq : q.length ≤ b.avail) :
    b.Took q { b with buf := b.buf ++ q } where
  cap h := by simp only [BW.avail] at hq; simp; omega
  ok _ := ⟨hb, by simp⟩
  pre _ := ⟨0, by simp, by simp⟩
  stuck e h := by rw [hb] at h; simp at h

/-- The loop of `Write`: `q` is what it took. -/
theorem BW.loop_took (fuel : Nat) (p : Bytes) (b : BW) :
    ∃ q p' b', BW.loop fuel p b = (q.length, p', b') ∧ p = q ++ p' ∧ b.Took q b' := by
  induction fuel generalizing p b with
  | zero => exact ⟨[], p, b, rfl, rfl, .refl b⟩
  | succ fuel ih =>
    unfold BW.loop
    by_cases hc : b.avail < p.length ∧ b.err = none
    · rw [if_pos hc]
      by_cases hb : b.buf = []
      · simp only [hb, if_true]
        obtain ⟨k, e, t', h1, h2, h3, h4⟩ := b.tr.write_spec p
        rw [h1]
        simp only
        obtain ⟨q, p', b', g1, g2, g3⟩ := ih (p.drop k) ⟨[], e, t'⟩
        rw [g1]
        refine ⟨p.take k ++ q, p', b', ?_, ?_, ?_⟩
        · simp; omega
        · rw [List.append_assoc, ← g2]; simp
        · refine BW.Took.trans ⟨fun h => by simp, fun h => ?_, fun _ => ⟨k, ?_, ?_⟩, fun e' h => ?_⟩ g3
          · refine ⟨hc.2, ?_⟩
            simp [h3, hb]
          · simp [hb]; omega
          · simp [hb, h3, List.take_take]
          · rw [hc.2] at h; simp at h
      · simp only [hb, if_false]
        obtain ⟨q, p', b', g1, g2, g3⟩ := ih (p.drop (min b.avail p.length))
          (BW.flush { b with buf := b.buf ++ p.take b.avail }).2
        rw [g1]
        have hm : min b.avail p.length = b.avail := Nat.min_eq_left (by omega)
        refine ⟨p.take b.avail ++ q, p', b', ?_, ?_, ?_⟩
        · simp
        · rw [List.append_assoc, ← g2, hm]; simp
        · have t1 := BW.took_copy b (p.take b.avail) hc.2 (by simp; omega)
          have t2 := (BW.flush_took { b with buf := b.buf ++ p.take b.avail }).1
          have := (t1.trans t2).trans g3
          simpa using this
    · simp only [hc, if_false]
      exact ⟨[], p, b, rfl, rfl, .refl b⟩

/-- After three iterations the loop is done: the rest fits into the buffer, or there was an
error. -/
theorem BW.loop_done (p : Bytes) (b : BW) :
    (BW.loop 3 p b).2.2.err ≠ none ∨
      (BW.loop 3 p b).2.1.length ≤ (BW.loop 3 p b).2.2.avail := by
  have direct : ∀ fuel (p : Bytes) (b : BW), 1 ≤ fuel → b.buf = [] →
      (BW.loop fuel p b).2.2.err ≠ none ∨
        (BW.loop fuel p b).2.1.length ≤ (BW.loop fuel p b).2.2.avail := by
    intro fuel p b hf hb
    obtain ⟨fuel, rfl⟩ := Nat.exists_eq_add_of_le' hf
    unfold BW.loop
    by_cases hc : b.avail < p.length ∧ b.err = none
    · rw [if_pos hc]; simp only [hb, if_true]
      obtain ⟨k, e, t', h1, h2, h3, h4⟩ := b.tr.write_spec p
      rw [h1]
      simp only
      cases e with
      | some e =>
        left
        have : BW.loop fuel (p.drop k) ⟨[], some e, t'⟩ = (0, p.drop k, ⟨[], some e, t'⟩) := by
          cases fuel <;> simp [BW.loop]
        simp [this]
      | none =>
        right
        have hk := h4 rfl
        subst hk
        have : BW.loop fuel (p.drop p.length) ⟨[], none, t'⟩ = (0, [], ⟨[], none, t'⟩) := by
          cases fuel <;> simp [BW.loop]
        simp only [this]; simp
    · simp only [hc, if_false]
      by_cases he : b.err = none
      · right; simp only [he, and_true, Nat.not_lt] at hc; exact hc
      · exact .inl he
  by_cases hb : b.buf = []
  · exact direct 3 p b (by omega) hb
  · unfold BW.loop
    by_cases hc : b.avail < p.length ∧ b.err = none
    · rw [if_pos hc]; simp only [hb, if_false]
      have hf := BW.flush_took { b with buf := b.buf ++ p.take b.avail }
      generalize hB : BW.flush { b with buf := b.buf ++ p.take b.avail } = B at *
      obtain ⟨e, B⟩ := B
      simp only at hf ⊢
      cases he : B.err with
      | some e' =>
        left
        have : BW.loop 2 (p.drop (min b.avail p.length)) B = (0, p.drop (min b.avail p.length), B) := by
          simp [BW.loop, he]
        simp only [this]; simp [he]
      | none =>
        have hbuf := hf.2.2 (by rw [hf.2.1, he])
        exact direct 2 (p.drop (min b.avail p.length)) B (by omega) hbuf
    · simp only [hc, if_false]
      by_cases he : b.err = none
      · right; simp only [he, and_true, Nat.not_lt] at hc; exact hc
      · exact .inl he

/-- `bufio.Writer.Write`: all bytes are taken or there is an error; the returned error is
the sticky one. -/
theorem BW.write_took (b : BW) (p : Bytes) :
    b.Took p (b.write p).2.2 ∧ (b.write p).2.1 = (b.write p).2.2.err ∧ (b.write p).1 ≤ p.length ∧
      ((b.write p).2.1 = none → (b.write p).1 = p.length) := by
  obtain ⟨q, p', b', h1, h2, h3⟩ := BW.loop_took 3 p b
  have hd := BW.loop_done p b
  rw [h1] at hd
  simp only at hd
  unfold BW.write
  rw [h1]
  simp only
  cases he : b'.err with
  | some e =>
    simp only [he]
    refine ⟨?_, trivial, by rw [h2]; simp, by simp⟩
    rw [h2]
    exact h3.extend (by simp [he])
  | none =>
    simp only
    have hl : p'.length ≤ b'.avail := by simpa [he] using hd
    have ht : p'.take b'.avail = p' := List.take_of_length_le hl
    have hm : min b'.avail p'.length = p'.length := Nat.min_eq_right hl
    rw [ht, hm]
    refine ⟨?_, by simp, by rw [h2]; simp, by rw [h2]; simp⟩
    rw [h2]
    have hcopy := BW.took_copy b' p' he hl
    rw [he] at hcopy
    exact h3.trans hcopy

/-- `Request.WriteTo` on a connection is one `bufio.Writer.Write`. -/
theorem bufWriteTo_conn (b : BW) (msg : Bytes) (hne : msg ≠ []) :
    bufWriteTo Conn.write msg b = b.write msg := by
  obtain ⟨_, h2, h3, h4⟩ := b.write_took msg
  unfold bufWriteTo
  rw [if_neg hne]
  have : Conn.write b msg = b.write msg := rfl
  rw [this]
  revert h2 h3 h4
  rcases b.write msg with ⟨m, e, b'⟩
  intro h2 h3 h4
  simp only at h2 h3 h4
  simp only [Nat.not_lt.mpr h3, if_false]
  cases e with
  | some e => rfl
  | none => simp [h4 rfl]

theorem Conn.forceWrite_took (b : BW) (p : Bytes) :
    b.Took p (Conn.forceWrite b p).2 ∧ (Conn.forceWrite b p).1 = (Conn.forceWrite b p).2.err ∧
      ((Conn.forceWrite b p).1 = none → (Conn.forceWrite b p).2.buf = []) := by
  obtain ⟨h1, h2, h3, h4⟩ := b.write_took p
  unfold Conn.forceWrite
  rcases hw : b.write p with ⟨n, e, b'⟩
  rw [hw] at h1 h2
  simp only at h1 h2
  cases e with
  | some e => exact ⟨h1, h2, by simp⟩
  | none =>
    obtain ⟨f1, f2, f3⟩ := b'.flush_took
    refine ⟨?_, f2, f3⟩
    have := h1.trans f1
    simpa using this

end Verif
