import Verif.Header

/-!
# request.go, and the receiving half of net.go
-/

namespace Verif

/-! ## copyReader -/

/-- `copyReader`, request.go:28-38.  The embedded `io.WriterTo` may be nil; otherwise
`f i` is what its `i`-th `WriteTo` call writes, reports and returns (a serialiser may keep
state of its own).  `calls` counts the calls made so far.  Simplification: the serialiser
does not depend on the destination it writes to, which always is a `bytes.Buffer`. -/
structure CopyReader where
  wt : Option (Nat → Wr)
  calls : Nat
  rbuf : Bytes
  rerr : Option Err
  once : Bool

/-- `(r *copyReader) WriteTo`, request.go:52-58. -/
def CopyReader.writeTo (c : CopyReader) : Wr × CopyReader :=
  match c.wt with
  | none => (⟨[], 0, none⟩, c)
  | some f => (f c.calls, { c with calls := c.calls + 1 })

/-- `(r *copyReader) init` under `sync.Once`, request.go:45-47,66. -/
def CopyReader.init (c : CopyReader) : CopyReader :=
  if c.once then c
  else
    let (w, c') := c.writeTo
    { c' with rbuf := c'.rbuf ++ w.out, rerr := w.err, once := true }

/-- `(*bytes.Buffer).Read(p)` with `len(p) = k`. -/
def bufRead (k : Nat) (b : Bytes) : Bytes × Option Err × Bytes :=
  if b = [] then ([], if k = 0 then none else some .eof, [])
  else (b.take k, none, b.drop k)

/-- `(r *copyReader) Read`, request.go:61-68. -/
def CopyReader.read (k : Nat) (c : CopyReader) : Bytes × Option Err × CopyReader :=
  match c.rerr with
  | some e => ([], some e, c)
  | none =>
    let c := c.init
    let (o, e, b) := bufRead k c.rbuf
    (o, e, { c with rbuf := b })

/-! ## Requests -/

/-- `Request.Body`: nil, the `copyReader` of `NewRequest`, the `bytes.Buffer` of
`ReadFrom`, or any other reader supplied by the user. -/
inductive Body where
  | nil
  | copy (c : CopyReader)
  | buffer (b : Bytes)
  | reader (r : Rd)

/-- `Request`, request.go:73-101, without `Proto` (a function of the other fields),
`Addr` and `conn` (pointers copied from the connection). -/
structure Request where
  header : Header
  body : Body
  protoMajor : Nat
  protoMinor : Nat
  contentLength : Nat

/-- `var r Request`. -/
def Request.zero : Request := ⟨.zero, .nil, 0, 0, 0⟩

/-- `NewRequest`, request.go:105-116. -/
def newRequest (t : UInt8) (body : Option (Nat → Wr)) : Request :=
  ⟨⟨UInt8.ofNat (1 + 3), t, 0, 0⟩, .copy ⟨body, 0, [], none, false⟩, 1, 3, 0⟩

/-- `(r *Request) ProtoAtLeast`, request.go:120-123. -/
def Request.protoAtLeast (r : Request) (major minor : Nat) : Bool :=
  r.protoMajor > major || (r.protoMajor == major && r.protoMinor ≥ minor)

/-- `io.Copy(&buf, body)`: `io.WriterTo` is preferred, so the count is the reported one
for a `copyReader`; a `bytes.Buffer` writes all of its contents and is left empty; any
other reader is read to its end.  Returns what is in `buf`, the count, the error, the
body afterwards.  A nil body panics, but is never passed (request.go:139). -/
def Body.copyTo : Body → Bytes × Nat × Option Err × Body
  | .nil => ([], 0, some .panic, .nil)
  | .copy c => let (w, c') := c.writeTo; (w.out, w.n, w.err, .copy c')
  | .buffer b => (b, b.length, none, .buffer [])
  | .reader r => match readAll r with
    | (o, e, r') => (o, o.length, e, .reader r')

/-- Outcome of `Request.WriteTo`. -/
structure ReqWr (ω : Type) where
  n : Nat
  err : Option Err
  dst : ω
  req : Request

/-- `headerlen`, request.go:24. -/
def headerlen : Nat := 8

/-- `(r *Request) WriteTo`, request.go:132-174. -/
def Request.writeTo {ω : Type} (w : Dst ω) (r : Request) (s : ω) : ReqWr ω :=
  let h := { r.header with length := UInt16.ofNat headerlen }
  match r.body with
  | .nil =>
    match h.writeToDst w s with
    | (n, e, s') => ⟨n, e, s', { r with header := h }⟩
  | body =>
    match body.copyTo with
    | (_, n, some e, body') => ⟨n, some e, s, { r with header := h, body := body' }⟩
    | (buf, n, none, body') =>
      if 65535 < n + headerlen then
        ⟨0, some .bodyTooLong, s, { r with header := h, body := body' }⟩
      else
        let h := { h with length := h.length + UInt16.ofNat buf.length }
        match h.writeTo with
        | ⟨_, _, some e⟩ => ⟨n, some e, s, { r with header := h, body := body' }⟩
        | ⟨out, _, none⟩ =>
          match bufWriteTo w (out ++ buf) s with
          | (n, e, s') => ⟨n, e, s', { r with header := h, body := body' }⟩

/-- The body loop of `(r *Request) ReadFrom`, request.go:205-210: unlike `io.ReadFull`
it returns any error, also when the buffer is full.  `fuel` bounds the number of reads and
is never exhausted. -/
def bodyLoop : Nat → Nat → Rd → Bytes × Option Err × Rd
  | 0, _, r => ([], some .noProgress, r)
  | fuel + 1, need, r =>
    if need = 0 then ([], none, r)
    else
      match r.read need with
      | (o, some e, r') => (o, some e, r')
      | (o, none, r') =>
        let (o2, e2, r2) := bodyLoop fuel (need - o.length) r'
        (o ++ o2, e2, r2)

/-- `(r *Request) ReadFrom`, request.go:178-216. -/
def Request.readFrom : Step Request := fun q r =>
  match Header.readFrom q.header r with
  | ⟨h, n, some e, r'⟩ => ⟨{ q with header := h }, n, some e, r'⟩
  | ⟨h, n, none, r'⟩ =>
    let q := { q with header := h, protoMajor := 1, protoMinor := (h.version - 1).toNat }
    if h.len < headerlen then ⟨q, n, some .corruptedHeader, r'⟩
    else
      match bodyLoop (h.len - headerlen + 1) (h.len - headerlen) r' with
      | (o, some e, r'') => ⟨q, o.length + headerlen, some e, r''⟩
      | (o, none, r'') =>
        ⟨{ q with body := .buffer o, contentLength := h.len - headerlen },
          o.length + headerlen, none, r''⟩

/-- `(c *conn) Receive`, net.go:136-148, on the connection's `bufio.Reader`: no request is
returned together with an error.  The read deadline (net.go:137-139) is part of the
transport: an expired deadline is a transport error. -/
def Conn.receive (r : Rd) : Option Request × Option Err × Rd :=
  match Request.readFrom .zero r with
  | ⟨_, _, some e, r'⟩ => (none, some e, r')
  | ⟨q, _, none, r'⟩ => (some q, none, r')

/-! ## Specifications -/

theorem bodyLoop_spec (F : Err) (fuel need : Nat) (r : Rd) (hf : need < fuel) (hr : r.Ok F) :
    ∃ o e r', bodyLoop fuel need r = (o, e, r') ∧ Rd.Adv o.length r r' ∧ r'.Ok F ∧
      r.content = o ++ r'.content ∧ o.length ≤ need ∧ (e = none → o.length = need) ∧
      (∀ e', e = some e' → e' = F ∧ r'.content = []) := by
  induction fuel generalizing need r with
  | zero => omega
  | succ fuel ih =>
    by_cases hn : need = 0
    · subst hn
      exact ⟨[], none, r, by simp [bodyLoop], Rd.Adv.refl _, hr, by simp, by simp, by simp,
        by simp⟩
    · obtain ⟨o, e, r', h1, h2, h3, h4, h5, h6, h7⟩ := Rd.read_spec F need r (by omega) hr
      cases e with
      | some e =>
        exact ⟨o, some e, r', by simp [bodyLoop, hn, h1], h4, h5, h3, h2, by simp, h7⟩
      | none =>
        have ho : o ≠ [] := by intro h; have := (h6 h).1; simp at this
        have hol : 0 < o.length := List.length_pos_iff.mpr ho
        obtain ⟨o2, e2, r2, g1, g2, g3, g4, g5, g6, g7⟩ := ih (need - o.length) r' (by omega) h5
        refine ⟨o ++ o2, e2, r2, by simp [bodyLoop, hn, h1, g1], ?_, g3, ?_, ?_, ?_, g7⟩
        · rw [List.length_append]; exact h4.trans g2
        · rw [h3, g4, List.append_assoc]
        · rw [List.length_append]; omega
        · intro h; have := g6 h; rw [List.length_append]; omega

/-- The transport reports the end of the stream in a call of its own, never together with
data. -/
def Rd.Sep : Rd → Prop
  | .src _ _ _ tog => tog = false
  | .lim _ r => r.Sep
  | .buf _ _ r => r.Sep

theorem Rd.Adv.sep {k : Nat} {r r' : Rd} (h : Rd.Adv k r r') (hs : r.Sep) : r'.Sep := by
  induction r generalizing k r' with
  | src d s f t =>
    cases r' <;> simp only [Rd.Adv] at h
    simp only [Rd.Sep] at *; rw [h.2.2.2, hs]
  | lim n r ih =>
    cases r' <;> simp only [Rd.Adv] at h
    simp only [Rd.Sep] at *; exact ih h.2.2 hs
  | buf b e r ih =>
    cases r' <;> simp only [Rd.Adv] at h
    obtain ⟨_, _, j, h⟩ := h
    simp only [Rd.Sep] at *; exact ih h hs

theorem Rd.read_sep {k : Nat} {r r' : Rd} {o : Bytes} {e : Err} (hs : r.Sep)
    (h : r.read k = (o, some e, r')) : o = [] := by
  induction r generalizing k r' o e with
  | src d s f t =>
    simp only [Rd.Sep] at hs; subst hs
    simp only [Rd.read] at h
    split at h
    · simp at h
    · split at h <;> simp at h
      exact h.1
  | lim n r ih =>
    simp only [Rd.Sep] at hs
    simp only [Rd.read] at h
    split at h
    · simp at h; exact h.1
    · simp only [Prod.mk.injEq] at h
      obtain ⟨h1, h2, h3⟩ := h
      subst h1
      exact ih (k := min k n) (e := e) (r' := (r.read (min k n)).2.2) hs (by rw [← h2])
  | buf b e0 r ih =>
    simp only [Rd.Sep] at hs
    simp only [Rd.read] at h
    split at h
    · split at h <;> simp at h
      exact h.1
    · split at h
      · simp at h
      · split at h
        · simp at h; exact h.1
        · split at h
          · simp only [Prod.mk.injEq] at h
            obtain ⟨h1, h2, h3⟩ := h
            subst h1
            exact ih (k := k) (e := e) (r' := (r.read k).2.2) hs (by rw [← h2])
          · split at h <;> simp at h
            exact h.1

/-- A `bufio.Reader` asked for less than its size never returns an error with data. -/
theorem Rd.read_buf_small {k : Nat} {b : Bytes} {e0 : Option Err} {q r' : Rd} {o : Bytes}
    {e : Err} (hk : k < bufSize) (h : (Rd.buf b e0 q).read k = (o, some e, r')) : o = [] := by
  simp only [Rd.read] at h
  split at h
  · split at h <;> simp at h
    exact h.1
  · split at h
    · simp at h
    · split at h
      · simp at h; exact h.1
      · rw [if_neg (by omega)] at h
        split at h <;> simp at h
        exact h.1

/-- Reads of at most `need` bytes never return an error with data. -/
def Rd.Late (need : Nat) (r : Rd) : Prop :=
  r.Sep ∨ (need < bufSize ∧ ∃ b e q, r = .buf b e q)

theorem Rd.Late.read {need k : Nat} {r r' : Rd} {o : Bytes} {e : Err} (hl : r.Late need)
    (hk : k ≤ need) (h : r.read k = (o, some e, r')) : o = [] := by
  rcases hl with hl | ⟨hn, b, e0, q, rfl⟩
  · exact Rd.read_sep hl h
  · exact Rd.read_buf_small (by omega) h

theorem Rd.Late.adv {need need' k : Nat} {r r' : Rd} (hl : r.Late need) (hn : need' ≤ need)
    (h : Rd.Adv k r r') : r'.Late need' := by
  rcases hl with hl | ⟨hn, b, e0, q, rfl⟩
  · exact .inl (h.sep hl)
  · cases r' <;> simp only [Rd.Adv] at h
    exact .inr ⟨by omega, _, _, _, rfl⟩

theorem bodyLoop_late (F : Err) (fuel need : Nat) (r : Rd) (hf : need < fuel) (hr : r.Ok F)
    (hl : r.Late need) (hc : need ≤ r.content.length) :
    ∃ r', bodyLoop fuel need r = (r.content.take need, none, r') ∧ Rd.Adv need r r' ∧ r'.Ok F := by
  suffices hs : ∃ o r', bodyLoop fuel need r = (o, none, r') by
    obtain ⟨o, r', h⟩ := hs
    obtain ⟨o', e', r'', h1, h2, h3, h4, h5, h6, h7⟩ := bodyLoop_spec F fuel need r hf hr
    rw [h1] at h
    simp only [Prod.mk.injEq] at h
    obtain ⟨rfl, he, rfl⟩ := h
    have := h6 he
    refine ⟨r'', ?_, this ▸ h2, h3⟩
    rw [h1, h4, he, ← this]; simp
  induction fuel generalizing need r with
  | zero => omega
  | succ fuel ih =>
    by_cases hn : need = 0
    · exact ⟨[], r, by simp [bodyLoop, hn]⟩
    · obtain ⟨o, e, r', h1, h2, h3, h4, h5, h6, h7⟩ := Rd.read_spec F need r (by omega) hr
      cases e with
      | some e =>
        have ho := hl.read (Nat.le_refl _) h1
        have := (h6 ho).2
        rw [this] at hc; simp at hc; omega
      | none =>
        have ho : o ≠ [] := by intro h; have := (h6 h).1; simp at this
        have hol : 0 < o.length := List.length_pos_iff.mpr ho
        rw [h3, List.length_append] at hc
        obtain ⟨o2, r2, g⟩ := ih (need - o.length) r' (by omega) h5 (hl.adv (by omega) h4) (by omega)
        exact ⟨o ++ o2, r2, by simp [bodyLoop, hn, h1, g]⟩

/-- The header a byte string starts with. -/
def Header.ofBytes (b : Bytes) : Header :=
  ⟨ofBE UInt8 (b.take 1), ofBE UInt8 ((b.drop 1).take 1), ofBE UInt16 ((b.drop 2).take 2),
    ofBE UInt32 ((b.drop 4).take 4)⟩

theorem Header.ofBytes_bytes (h : Header) (t : Bytes) : Header.ofBytes (h.bytes ++ t) = h := by
  cases h with | mk v ty l x =>
  have d1 : ∀ n, 1 ≤ n → (be v).drop n = [] := fun n h => List.drop_eq_nil_of_le (by simpa using h)
  have d2 : ∀ n, 1 ≤ n → (be ty).drop n = [] := fun n h => List.drop_eq_nil_of_le (by simpa using h)
  simp [Header.ofBytes, Header.bytes, List.drop_append, d1, d2]

theorem Header.bytes_ofBytes {b : Bytes} (h : 8 ≤ b.length) :
    (Header.ofBytes b).bytes = b.take 8 := by
  simp only [Header.ofBytes, Header.bytes]
  rw [be_ofBE_u8 (by simp; omega), be_ofBE_u8 (by simp; omega), be_ofBE_u16 (by simp; omega),
    be_ofBE_u32 (by simp; omega)]
  have e4 : b.take 8 = b.take 1 ++ ((b.drop 1).take 1 ++ ((b.drop 2).take 2 ++ (b.drop 4).take 4)) := by
    rw [← List.drop_take (i := 4) (j := 8), ← List.drop_take (i := 2) (j := 4),
      ← List.drop_take (i := 1) (j := 2)]
    have f1 : b.take 1 = (b.take 2).take 1 := by simp [List.take_take]
    have f2 : b.take 4 = (b.take 8).take 4 := by simp [List.take_take]
    have f3 : b.take 2 = (b.take 4).take 2 := by simp [List.take_take]
    rw [f1, ← List.append_assoc, List.take_append_drop, f3, ← List.append_assoc,
      List.take_append_drop, f2, List.take_append_drop]
  exact e4.symm

theorem num_spec {σ α : Type} [Wire α] (set : α → σ → σ) (F : Err) (s : σ) (r : Rd) (hr : r.Ok F) :
    (Wire.size α ≤ r.content.length ∧ ∃ r', Enc.num set s r =
        ⟨set (ofBE α (r.content.take (Wire.size α))) s, Wire.size α, none, r'⟩ ∧
        Rd.Adv (Wire.size α) r r' ∧ r'.Ok F) ∨
    (r.content.length < Wire.size α ∧ ∃ r', Enc.num set s r =
        ⟨s, r.content.length, some (shortErr F r.content), r'⟩ ∧
        Rd.Adv r.content.length r r' ∧ r'.Ok F) := by
  rcases readFull_spec F (Wire.size α) r hr with ⟨h1, r', h2, h3, h4⟩ | ⟨h1, r', h2, h3, h4⟩
  · exact .inl ⟨h1, r', by simp [Enc.num, Enc.bin, h2, h1], h3, h4⟩
  · exact .inr ⟨h1, r', by simp [Enc.num, Enc.bin, h2], h3, h4⟩

/-- The error of reading a header from a stream that ends after `c` (fewer than 8 bytes):
at a field boundary the terminal error itself. -/
def headerErr (F : Err) (c : Bytes) : Err :=
  if (c.length = 3 ∨ c.length = 5 ∨ c.length = 6 ∨ c.length = 7) ∧ F = .eof then .unexpectedEOF
  else F

theorem readFrom_ok {σ : Type} {st : Step σ} {t : List (Step σ)} {s s' : σ} {r r' : Rd} {n : Nat}
    (h : st s r = ⟨s', n, none, r'⟩) : Enc.readFrom (st :: t) s r =
      ⟨(Enc.readFrom t s' r').val, n + (Enc.readFrom t s' r').n, (Enc.readFrom t s' r').err,
        (Enc.readFrom t s' r').rd⟩ := by
  simp [Enc.readFrom, h]

theorem readFrom_err {σ : Type} {st : Step σ} {t : List (Step σ)} {s s' : σ} {r r' : Rd} {n : Nat}
    {e : Err} (h : st s r = ⟨s', n, some e, r'⟩) :
    Enc.readFrom (st :: t) s r = ⟨s', n, some e, r'⟩ := by
  simp [Enc.readFrom, h]

theorem Header.read_spec (F : Err) (s : Header) (r : Rd) (hr : r.Ok F) :
    (8 ≤ r.content.length ∧ ∃ r', Header.readFrom s r = ⟨Header.ofBytes r.content, 8, none, r'⟩ ∧
        Rd.Adv 8 r r' ∧ r'.Ok F) ∨
    (r.content.length < 8 ∧ ∃ h r', Header.readFrom s r =
        ⟨h, r.content.length, some (headerErr F r.content), r'⟩ ∧
        Rd.Adv r.content.length r r' ∧ r'.Ok F) := by
  unfold Header.readFrom
  rcases num_spec (fun v s => ({ s with version := v } : Header)) F s r hr with
    ⟨a1, r1, a2, a3, a4⟩ | ⟨a1, r1, a2, a3, a4⟩
  case inr =>
    right
    rw [readFrom_err a2]
    simp only [size_u8] at a1
    have h0 : r.content.length = 0 := by omega
    have h0' : r.content = [] := List.length_eq_zero_iff.mp h0
    refine ⟨by omega, s, r1, ?_, a3, a4⟩
    simp [headerErr, shortErr, h0']
  rw [readFrom_ok a2]
  have c1 := a3.content.2
  generalize hs1 : ({ s with version := ofBE UInt8 (r.content.take (Wire.size UInt8)) } : Header) = s1
  rcases num_spec (fun v s => ({ s with type := v } : Header)) F s1 r1 a4 with
    ⟨b1, r2, b2, b3, b4⟩ | ⟨b1, r2, b2, b3, b4⟩
  case inr =>
    right
    rw [readFrom_err b2]
    simp only [size_u8, c1, List.length_drop] at a1 b1
    have hl : r.content.length = 1 := by omega
    refine ⟨by omega, s1, r2, ?_, ?_, b4⟩
    · have : r1.content = [] := by rw [c1]; exact List.drop_eq_nil_of_le (by simp [hl])
      simp [headerErr, shortErr, hl, this]
    · have := a3.trans b3; simp [c1, hl] at this; rw [hl]; exact this
  rw [readFrom_ok b2]
  have c2 := b3.content.2
  generalize hs2 : ({ s1 with type := ofBE UInt8 (r1.content.take (Wire.size UInt8)) } : Header) = s2
  rcases num_spec (fun v s => ({ s with length := v } : Header)) F s2 r2 b4 with
    ⟨d1, r3, d2, d3, d4⟩ | ⟨d1, r3, d2, d3, d4⟩
  case inr =>
    right
    rw [readFrom_err d2]
    simp only [size_u8, size_u16, c1, c2, List.length_drop] at a1 b1 d1
    have hl : r.content.length = 2 ∨ r.content.length = 3 := by omega
    refine ⟨by omega, s2, r3, ?_, ?_, d4⟩
    · rcases hl with hl | hl <;> simp [headerErr, shortErr, hl, c1, c2]
    · have := (a3.trans b3).trans d3
      simp [c1, c2] at this
      have he : 2 + (r.content.length - (1 + 1)) = r.content.length := by omega
      have he' : 2 + (r.content.length - 2) = r.content.length := by omega
      first | (rw [he] at this; exact this) | (rw [he'] at this; exact this)
  rw [readFrom_ok d2]
  have c3 := d3.content.2
  generalize hs3 : ({ s2 with length := ofBE UInt16 (r2.content.take (Wire.size UInt16)) } : Header) = s3
  rcases num_spec (fun v s => ({ s with transaction := v } : Header)) F s3 r3 d4 with
    ⟨e1, r4, e2, e3, e4⟩ | ⟨e1, r4, e2, e3, e4⟩
  case inr =>
    right
    rw [readFrom_err e2]
    simp only [size_u8, size_u16, size_u32, c1, c2, c3, List.length_drop] at a1 b1 d1 e1
    have hl : r.content.length = 4 ∨ r.content.length = 5 ∨ r.content.length = 6 ∨
      r.content.length = 7 := by omega
    refine ⟨by omega, s3, r4, ?_, ?_, e4⟩
    · rcases hl with hl | hl | hl | hl <;> simp [headerErr, shortErr, hl, c1, c2, c3]
    · have := ((a3.trans b3).trans d3).trans e3
      simp [c1, c2, c3] at this
      have he : 4 + (r.content.length - (1 + 1 + 2)) = r.content.length := by omega
      have he' : 4 + (r.content.length - 4) = r.content.length := by omega
      first | (rw [he] at this; exact this) | (rw [he'] at this; exact this)
  left
  rw [readFrom_ok e2]
  have hh : ({ s3 with transaction := ofBE UInt32 (r3.content.take (Wire.size UInt32)) } : Header)
      = Header.ofBytes r.content := by
    subst hs3 hs2 hs1
    simp [Header.ofBytes, c1, c2, c3]
  simp only [size_u8, size_u16, size_u32, c1, c2, c3, List.length_drop] at a1 b1 d1 e1
  refine ⟨by omega, r4, ?_, ((a3.trans b3).trans d3).trans e3, e4⟩
  rw [hh]; simp [Enc.readFrom]

/-- What `Receive` does, in terms of the bytes the transport will deliver. -/
theorem Conn.receive_spec (F : Err) (r : Rd) (hr : r.Ok F) :
    (r.content.length < 8 ∧ ∃ r', Conn.receive r = (none, some (headerErr F r.content), r') ∧
      r'.Ok F) ∨
    (8 ≤ r.content.length ∧ (Header.ofBytes r.content).len < 8 ∧
      ∃ r', Conn.receive r = (none, some .corruptedHeader, r') ∧ Rd.Adv 8 r r' ∧ r'.Ok F) ∨
    (8 ≤ r.content.length ∧ 8 ≤ (Header.ofBytes r.content).len ∧
      r.content.length ≤ (Header.ofBytes r.content).len ∧
      ∃ r', Conn.receive r = (none, some F, r') ∧ r'.Ok F ∧ r'.content = [] ∧
        (r.Late ((Header.ofBytes r.content).len - 8) →
          r.content.length < (Header.ofBytes r.content).len)) ∨
    (8 ≤ (Header.ofBytes r.content).len ∧ (Header.ofBytes r.content).len ≤ r.content.length ∧
      ∃ r', Conn.receive r = (some ⟨Header.ofBytes r.content,
          .buffer ((r.content.drop 8).take ((Header.ofBytes r.content).len - 8)), 1,
          ((Header.ofBytes r.content).version - 1).toNat, (Header.ofBytes r.content).len - 8⟩,
          none, r') ∧
        Rd.Adv (Header.ofBytes r.content).len r r' ∧ r'.Ok F) := by
  rcases Header.read_spec F Request.zero.header r hr with ⟨h1, r1, h2, h3, h4⟩ | ⟨h1, h, r1, h2, h3, h4⟩
  case inr =>
    left
    exact ⟨h1, r1, by simp [Conn.receive, Request.readFrom, h2], h4⟩
  right
  by_cases hlen : (Header.ofBytes r.content).len < 8
  · left
    exact ⟨h1, hlen, r1, by simp [Conn.receive, Request.readFrom, h2, headerlen, hlen], h3, h4⟩
  right
  obtain ⟨o, e, r2, g1, g2, g3, g4, g5, g6, g7⟩ := bodyLoop_spec F
    ((Header.ofBytes r.content).len - 8 + 1) ((Header.ofBytes r.content).len - 8) r1 (by omega) h4
  have c1 := h3.content.2
  have hl1 : r1.content.length = o.length + r2.content.length := by rw [g4]; simp
  rw [c1, List.length_drop] at hl1
  cases e with
  | some e =>
    left
    obtain ⟨rfl, hc⟩ := g7 e rfl
    rw [hc] at hl1; simp at hl1
    refine ⟨h1, by omega, by omega, r2, ?_, g3, hc, ?_⟩
    · simp [Conn.receive, Request.readFrom, h2, headerlen, hlen, g1]
    · intro hlate
      apply Nat.lt_of_not_le
      intro hle
      obtain ⟨r3, k1, _⟩ := bodyLoop_late e ((Header.ofBytes r.content).len - 8 + 1)
        ((Header.ofBytes r.content).len - 8) r1 (by omega) h4 (hlate.adv (by omega) h3)
        (by rw [c1, List.length_drop]; omega)
      rw [k1] at g1; simp at g1
  | none =>
    right
    have ho := g6 rfl
    refine ⟨by omega, by omega, r2, ?_, ?_, g3⟩
    · have : (r.content.drop 8).take ((Header.ofBytes r.content).len - 8) = o := by
        rw [← c1, g4, ← ho]; simp
      simp [Conn.receive, Request.readFrom, h2, headerlen, hlen, g1, this]
    · have := h3.trans g2
      rw [ho] at this
      have he : 8 + ((Header.ofBytes r.content).len - 8) = (Header.ofBytes r.content).len := by omega
      rw [he] at this; exact this

/-- The body serialises to `b` (and, for a serialiser, reports that many bytes). -/
def Body.Yields : Body → Bytes → Prop
  | .nil, b => b = []
  | .copy c, b => match c.wt with
    | none => b = []
    | some f => f c.calls = ⟨b, b.length, none⟩
  | .buffer b', b => b' = b
  | .reader r, b => r.Ok .eof ∧ r.content = b

theorem Body.Yields.copyTo {y : Body} {b : Bytes} (h : y.Yields b) (hn : y ≠ .nil) :
    ∃ y', y.copyTo = (b, b.length, none, y') := by
  cases y with
  | nil => exact absurd rfl hn
  | copy c =>
    simp only [Body.Yields] at h
    cases hw : c.wt with
    | none => simp only [hw] at h; subst h; exact ⟨_, by simp [Body.copyTo, CopyReader.writeTo, hw]; rfl⟩
    | some f => simp only [hw] at h; exact ⟨_, by simp [Body.copyTo, CopyReader.writeTo, hw, h]; rfl⟩
  | buffer b' => simp only [Body.Yields] at h; subst h; exact ⟨_, rfl⟩
  | reader r =>
    simp only [Body.Yields] at h
    obtain ⟨h1, h2⟩ := h
    obtain ⟨r', g1, _⟩ := readAll_spec .eof r h1
    exact ⟨.reader r', by simp [Body.copyTo, g1, h2, skipEOF]⟩

/-- A request body that serialises to `b`: what `Request.WriteTo` does. -/
theorem Request.writeTo_yields {ω : Type} (w : Dst ω) (q : Request) (b : Bytes) (s : ω)
    (h : q.body.Yields b) :
    ∃ q' : Request, (q'.header.version = q.header.version ∧ q'.header.type = q.header.type ∧
        q'.header.transaction = q.header.transaction) ∧
      ((8 + b.length ≤ 65535 ∧
        q.writeTo w s = ⟨(bufWriteTo w (Header.bytes
          { q.header with length := UInt16.ofNat (8 + b.length) } ++ b) s).1,
          (bufWriteTo w (Header.bytes
          { q.header with length := UInt16.ofNat (8 + b.length) } ++ b) s).2.1,
          (bufWriteTo w (Header.bytes
          { q.header with length := UInt16.ofNat (8 + b.length) } ++ b) s).2.2, q'⟩) ∨
       (65535 < 8 + b.length ∧ q.writeTo w s = ⟨0, some .bodyTooLong, s, q'⟩)) := by
  obtain ⟨hd, body, pm, pn, cl⟩ := q
  by_cases hy : body = .nil
  · subst hy
    simp only [Body.Yields] at h
    subst h
    refine ⟨⟨{ hd with length := 8 }, .nil, pm, pn, cl⟩, ⟨rfl, rfl, rfl⟩, .inl ⟨by simp, ?_⟩⟩
    simp [Request.writeTo, Header.writeToDst, Header.elems, Enc.writeToDst, Enc.gather,
        Header.bytes, headerlen]
  · obtain ⟨y', hy'⟩ := h.copyTo hy
    have hw : Request.writeTo w ⟨hd, body, pm, pn, cl⟩ s =
      (if 65535 < b.length + headerlen then
        ⟨0, some .bodyTooLong, s, ⟨{ hd with length := UInt16.ofNat headerlen }, y', pm, pn, cl⟩⟩
      else
        let H := { hd with length := UInt16.ofNat headerlen + UInt16.ofNat b.length }
        match bufWriteTo w (H.bytes ++ b) s with
          | (n, e, s') => ⟨n, e, s', ⟨H, y', pm, pn, cl⟩⟩) := by
      cases body with
      | nil => exact absurd rfl hy
      | copy c => simp [Request.writeTo, hy', Header.writeTo_eq]
      | buffer c => simp [Request.writeTo, hy', Header.writeTo_eq]
      | reader c => simp [Request.writeTo, hy', Header.writeTo_eq]
    by_cases hl : 65535 < b.length + headerlen
    · refine ⟨⟨{ hd with length := UInt16.ofNat headerlen }, y', pm, pn, cl⟩, ⟨rfl, rfl, rfl⟩,
        .inr ⟨by simp [headerlen] at hl; omega, by rw [hw, if_pos hl]⟩⟩
    · refine ⟨⟨{ hd with length := UInt16.ofNat headerlen + UInt16.ofNat b.length }, y', pm, pn, cl⟩,
        ⟨rfl, rfl, rfl⟩, .inl ⟨by simp [headerlen] at hl; omega, ?_⟩⟩
      rw [hw, if_neg hl]
      simp [UInt16.ofNat_add, headerlen]

/-- Whatever the body: `Request.WriteTo` either fails before it touches the destination, or
passes one message to one `Write` call. -/
theorem Request.writeTo_any (q : Request) :
    (∃ n e q', ∀ (ω : Type) (w : Dst ω) (s : ω), q.writeTo w s = ⟨n, some e, s, q'⟩) ∨
    (∃ msg q', msg ≠ [] ∧ ∀ (ω : Type) (w : Dst ω) (s : ω), q.writeTo w s =
      ⟨(bufWriteTo w msg s).1, (bufWriteTo w msg s).2.1, (bufWriteTo w msg s).2.2, q'⟩) := by
  have hne : ∀ (H : Header) (b : Bytes), H.bytes ++ b ≠ [] := by
    intro H b hc; have := congrArg List.length hc; simp [Header.bytes_length] at this
  obtain ⟨hd, body, pm, pn, cl⟩ := q
  by_cases hy : body = .nil
  · subst hy
    refine .inr ⟨Header.bytes { hd with length := 8 } ++ [],
      ⟨{ hd with length := 8 }, .nil, pm, pn, cl⟩, hne _ _, ?_⟩
    intro ω w s
    simp [Request.writeTo, Header.writeToDst, Header.elems, Enc.writeToDst, Enc.gather,
      Header.bytes, headerlen]
  · rcases hc : body.copyTo with ⟨b, n, e, y'⟩
    cases e with
    | some e =>
      refine .inl ⟨n, e, ⟨{ hd with length := UInt16.ofNat headerlen }, y', pm, pn, cl⟩, ?_⟩
      intro ω w s
      cases body with
      | nil => exact absurd rfl hy
      | copy c => simp [Request.writeTo, hc]
      | buffer c => simp [Request.writeTo, hc]
      | reader c => simp [Request.writeTo, hc]
    | none =>
      by_cases hl : 65535 < n + headerlen
      · refine .inl ⟨0, .bodyTooLong, ⟨{ hd with length := UInt16.ofNat headerlen }, y', pm, pn, cl⟩, ?_⟩
        intro ω w s
        cases body with
        | nil => exact absurd rfl hy
        | copy c => simp [Request.writeTo, hc, hl]
        | buffer c => simp [Request.writeTo, hc, hl]
        | reader c => simp [Request.writeTo, hc, hl]
      · refine .inr ⟨Header.bytes { hd with length := UInt16.ofNat headerlen + UInt16.ofNat b.length } ++ b,
          ⟨{ hd with length := UInt16.ofNat headerlen + UInt16.ofNat b.length }, y', pm, pn, cl⟩,
          hne _ _, ?_⟩
        intro ω w s
        cases body with
        | nil => exact absurd rfl hy
        | copy c => simp [Request.writeTo, hc, hl, Header.writeTo_eq]
        | buffer c => simp [Request.writeTo, hc, hl, Header.writeTo_eq]
        | reader c => simp [Request.writeTo, hc, hl, Header.writeTo_eq]

end Verif
