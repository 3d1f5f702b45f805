import Verif.Go.Bytes

/-!
# io.Reader, io.LimitedReader, bufio.Reader

A reader is a *state*; reading returns the bytes, an optional error and the next
state.  Aliasing of Go reader pointers is made explicit by wrapping and unwrapping:
a decoder that receives `r` and builds `io.LimitReader(r, n)` returns the unwrapped
inner reader.
-/

namespace Verif

/-- The readers /repo builds.

* `src data sched fin tog`: a transport or a `bytes.Buffer`.  It holds `data`; the
  `i`-th read returns at most `sched[i]+1` bytes (as many as asked for once the
  schedule is exhausted, which is how `bytes.Buffer` behaves); after the data it
  returns `fin`; if `tog` is set, `fin` is returned together with the last bytes, as
  the `io.Reader` contract allows.  Simplification: never returns `(0, nil)`.
* `lim n r`: `io.LimitedReader{r, n}` (a non-positive limit is `0`).
* `buf b e r`: `bufio.Reader` of the default size 4096 over `r` with unread bytes `b`
  and pending error `e`. -/
inductive Rd where
  | src (data : Bytes) (sched : List Nat) (fin : Err) (tog : Bool)
  | lim (n : Nat) (r : Rd)
  | buf (b : Bytes) (e : Option Err) (r : Rd)
  deriving DecidableEq, Repr

/-- `defaultBufSize` of package bufio. -/
def bufSize : Nat := 4096

/-- One `Read(p)` call with `len(p) = k`.  Go: `bytes.Buffer.Read`, `io.LimitedReader.Read`,
`bufio.Reader.Read`. -/
def Rd.read (k : Nat) : Rd → Bytes × Option Err × Rd
  | .src data sched fin tog =>
    if k = 0 then ([], none, .src data sched fin tog)
    else if data = [] then ([], some fin, .src data sched fin tog)
    else
      let m := min k (match sched with | [] => k | s :: _ => s + 1)
      let rest := data.drop m
      (data.take m, if tog ∧ rest = [] then some fin else none, .src rest sched.tail fin tog)
  | .lim n r =>
    if n = 0 then ([], some .eof, .lim n r)
    else
      let (o, e, r') := r.read (min k n)
      (o, e, .lim (n - o.length) r')
  | .buf b e r =>
    if k = 0 then if b ≠ [] then ([], none, .buf b e r) else ([], e, .buf b none r)
    else if b ≠ [] then (b.take k, none, .buf (b.drop k) e r)
    else match e with
      | some e => ([], some e, .buf [] none r)
      | none =>
        if bufSize ≤ k then
          let (o, e, r') := r.read k
          (o, e, .buf [] none r')
        else
          let (o, e, r') := r.read bufSize
          if o = [] then ([], e, .buf [] none r')
          else (o.take k, none, .buf (o.drop k) e r')

/-- All bytes a reader can still deliver. -/
def Rd.content : Rd → Bytes
  | .src d _ _ _ => d
  | .lim n r => r.content.take n
  | .buf b _ r => b ++ r.content

/-- Well-formed reader whose terminal error is `F`.  The pending error of a
`bufio.Reader` is set only when the underlying reader is exhausted. -/
def Rd.Ok (F : Err) : Rd → Prop
  | .src _ _ fin _ => fin = F
  | .lim _ r => F = .eof ∧ r.Ok F
  | .buf _ e r => r.Ok F ∧ (e = none ∨ (e = some F ∧ r.content = []))

/-- `Adv k r r'`: `r'` is `r` after exactly `k` bytes have been delivered.  Below a
`bufio.Reader` an unspecified number of bytes may have been read ahead. -/
def Rd.Adv (k : Nat) : Rd → Rd → Prop
  | .src d _ f t, .src d' _ f' t' => k ≤ d.length ∧ d' = d.drop k ∧ f' = f ∧ t' = t
  | .lim n r, .lim n' r' => k ≤ n ∧ n' = n - k ∧ Rd.Adv k r r'
  | .buf b _ r, .buf b' _ r' =>
      k ≤ (b ++ r.content).length ∧ b' ++ r'.content = (b ++ r.content).drop k ∧
        ∃ j, Rd.Adv j r r'
  | _, _ => False

theorem Rd.Adv.content {k : Nat} {r r' : Rd} (h : Rd.Adv k r r') :
    k ≤ r.content.length ∧ r'.content = r.content.drop k := by
  induction r generalizing k r' with
  | src d s f t =>
    cases r' <;> simp only [Rd.Adv] at h
    simp only [Rd.content]; exact ⟨h.1, h.2.1⟩
  | lim n r ih =>
    cases r' <;> simp only [Rd.Adv] at h
    obtain ⟨h1, h2, h3⟩ := h
    have := ih h3
    simp only [Rd.content, this.2, h2, List.length_take]
    refine ⟨by omega, ?_⟩
    rw [List.drop_take]
  | buf b e r ih =>
    cases r' <;> simp only [Rd.Adv] at h
    simp only [Rd.content]; exact ⟨h.1, h.2.1⟩

theorem Rd.Adv.refl (r : Rd) : Rd.Adv 0 r r := by
  induction r with
  | src d s f t => simp [Rd.Adv]
  | lim n r ih => simp [Rd.Adv, ih]
  | buf b e r ih => simp only [Rd.Adv]; exact ⟨by simp, by simp, 0, ih⟩

theorem Rd.Adv.trans {j k : Nat} {a b c : Rd} (h1 : Rd.Adv j a b) (h2 : Rd.Adv k b c) :
    Rd.Adv (j + k) a c := by
  induction a generalizing j k b c with
  | src d s f t =>
    cases b <;> simp only [Rd.Adv] at h1
    cases c <;> simp only [Rd.Adv] at h2 ⊢
    obtain ⟨h11, h12, h13, h14⟩ := h1
    obtain ⟨h21, h22, h23, h24⟩ := h2
    subst h12; rw [List.length_drop] at h21
    refine ⟨by omega, ?_, by rw [h23, h13], by rw [h24, h14]⟩
    rw [h22, List.drop_drop]
  | lim n r ih =>
    cases b <;> simp only [Rd.Adv] at h1
    cases c <;> simp only [Rd.Adv] at h2 ⊢
    obtain ⟨h11, h12, h13⟩ := h1
    obtain ⟨h21, h22, h23⟩ := h2
    exact ⟨by omega, by omega, ih h13 h23⟩
  | buf b0 e r ih =>
    cases b <;> simp only [Rd.Adv] at h1
    cases c <;> simp only [Rd.Adv] at h2 ⊢
    obtain ⟨h11, h12, i, h13⟩ := h1
    obtain ⟨h21, h22, i', h23⟩ := h2
    rw [h12, List.length_drop] at h21
    refine ⟨by omega, ?_, i + i', ih h13 h23⟩
    rw [h22, h12, List.drop_drop]

/-- The complete specification of one `Read` call on a well-formed reader. -/
theorem Rd.read_spec (F : Err) (k : Nat) (r : Rd) (hk : 0 < k) (hr : r.Ok F) :
    ∃ o e r', r.read k = (o, e, r') ∧ o.length ≤ k ∧
      r.content = o ++ r'.content ∧ Rd.Adv o.length r r' ∧ r'.Ok F ∧
      (o = [] → e = some F ∧ r.content = []) ∧
      (∀ e', e = some e' → e' = F ∧ r'.content = []) := by
  induction r generalizing k with
  | src d s f t =>
    simp only [Rd.Ok] at hr; subst hr
    by_cases hd : d = []
    · refine ⟨[], some f, .src d s f t, ?_, by simp, ?_, ?_, ?_, ?_, ?_⟩
      · have : k ≠ 0 := by omega
        simp [Rd.read, hd, this]
      · simp [Rd.content]
      · exact Rd.Adv.refl _
      · simp [Rd.Ok]
      · simp [Rd.content, hd]
      · intro e' he; simp at he; simp [he, Rd.content, hd]
    · have hk0 : k ≠ 0 := by omega
      let m := min k (match s with | [] => k | s :: _ => s + 1)
      have hm : 0 < m ∧ m ≤ k := by
        show 0 < min k _ ∧ min k _ ≤ k
        cases s <;> simp <;> omega
      refine ⟨d.take m, if t ∧ d.drop m = [] then some f else none,
        .src (d.drop m) s.tail f t, ?_, ?_, ?_, ?_, ?_, ?_, ?_⟩
      · simp only [Rd.read, hk0, hd, if_false]; rfl
      · rw [List.length_take]; omega
      · simp [Rd.content]
      · simp only [Rd.Adv, List.length_take]
        refine ⟨by omega, ?_, trivial, trivial⟩
        by_cases hl : m ≤ d.length
        · rw [Nat.min_eq_left hl]
        · rw [Nat.min_eq_right (by omega), List.drop_length, List.drop_eq_nil_of_le (by omega)]
      · simp [Rd.Ok]
      · intro h
        have hl : (d.take m).length = 0 := by rw [h]; rfl
        rw [List.length_take] at hl
        have : d.length ≠ 0 := by simpa using hd
        omega
      · intro e' he
        split at he
        · rename_i h; simp at he; simp [Rd.content, h.2, he]
        · simp at he
  | lim n r ih =>
    simp only [Rd.Ok] at hr
    by_cases hn : n = 0
    · subst hn
      refine ⟨[], some .eof, .lim 0 r, by simp [Rd.read], by simp, by simp [Rd.content],
        Rd.Adv.refl _, ?_, ?_, ?_⟩
      · simp only [Rd.Ok]; exact hr
      · simp [Rd.content, hr.1]
      · intro e' he; simp at he; simp [Rd.content, hr.1, he]
    · obtain ⟨o, e, r', h1, h2, h3, h4, h5, h6, h7⟩ := ih (min k n) (by omega) hr.2
      refine ⟨o, e, .lim (n - o.length) r', ?_, by omega, ?_, ?_, ?_, ?_, ?_⟩
      · simp [Rd.read, hn, h1]
      · have hon : o.length ≤ n := by omega
        simp only [Rd.content, h3, List.take_append, List.take_of_length_le hon]
      · simp only [Rd.Adv]; exact ⟨by omega, trivial, h4⟩
      · simp only [Rd.Ok]; exact ⟨hr.1, h5⟩
      · intro h; have := h6 h; simp [Rd.content, this]
      · intro e' he; have := h7 e' he; simp [Rd.content, this]
  | buf b e r ih =>
    simp only [Rd.Ok] at hr
    obtain ⟨hr, he⟩ := hr
    have hk0 : k ≠ 0 := by omega
    by_cases hb : b = []
    · subst hb
      cases e with
      | some e =>
        simp at he
        obtain ⟨he, hc⟩ := he
        subst he
        refine ⟨[], some e, .buf [] none r, by simp [Rd.read, hk0], by simp,
          by simp [Rd.content], ?_, ?_, by simp [Rd.content, hc], ?_⟩
        · simp only [Rd.Adv]; exact ⟨by simp, by simp, 0, Rd.Adv.refl _⟩
        · simp [Rd.Ok, hr]
        · intro e' h; simp at h; simp [h, Rd.content, hc]
      | none =>
        by_cases hbig : bufSize ≤ k
        · obtain ⟨o, e, r', h1, h2, h3, h4, h5, h6, h7⟩ := ih k hk hr
          refine ⟨o, e, .buf [] none r', by simp [Rd.read, hk0, hbig, h1], h2, ?_, ?_, ?_, ?_, ?_⟩
          · simpa [Rd.content] using h3
          · simp only [Rd.Adv]
            refine ⟨?_, ?_, _, h4⟩
            · rw [h3]; simp
            · simp [h3]
          · simp [Rd.Ok, h5]
          · intro h; have := h6 h; simp [Rd.content, this]
          · intro e' h; have := h7 e' h; simp [Rd.content, this]
        · obtain ⟨o, e, r', h1, h2, h3, h4, h5, h6, h7⟩ :=
            ih bufSize (by simp [bufSize]) hr
          by_cases ho : o = []
          · refine ⟨[], e, .buf [] none r', by simp [Rd.read, hk0, hbig, h1, ho], by simp, ?_, ?_,
              ?_, ?_, ?_⟩
            · simpa [Rd.content, ho] using h3
            · simp only [Rd.Adv]
              refine ⟨by simp, ?_, _, h4⟩
              simp [h3, ho]
            · simp [Rd.Ok, h5]
            · intro _; have := h6 ho; simp [Rd.content, this]
            · intro e' h; have := h7 e' h; simp [Rd.content, this]
          · refine ⟨o.take k, none, .buf (o.drop k) e r', by simp [Rd.read, hk0, hbig, h1, ho],
              by rw [List.length_take]; omega, ?_, ?_, ?_, ?_, ?_⟩
            · simp [Rd.content, h3, ← List.append_assoc]
            · simp only [Rd.Adv]
              have hmin : (o.take k).length ≤ o.length := by rw [List.length_take]; omega
              refine ⟨?_, ?_, _, h4⟩
              · simp [h3]; omega
              · simp only [List.nil_append, h3]
                rw [List.drop_append_of_le_length hmin]
                congr 1
                by_cases hl : k ≤ o.length
                · rw [List.length_take, Nat.min_eq_left hl]
                · rw [List.length_take, Nat.min_eq_right (by omega), List.drop_length,
                    List.drop_eq_nil_of_le (by omega)]
            · simp only [Rd.Ok]
              refine ⟨h5, ?_⟩
              cases e with
              | none => simp
              | some e => right; have := h7 e rfl; simp [this]
            · intro h
              have hl : (o.take k).length = 0 := by rw [h]; rfl
              rw [List.length_take] at hl
              have : o.length ≠ 0 := by simpa using ho
              omega
            · simp
    · refine ⟨b.take k, none, .buf (b.drop k) e r, by simp [Rd.read, hk0, hb],
        by rw [List.length_take]; omega, ?_, ?_, ?_, ?_, by simp⟩
      · simp [Rd.content, ← List.append_assoc]
      · simp only [Rd.Adv]
        have hmin : (b.take k).length ≤ b.length := by rw [List.length_take]; omega
        refine ⟨?_, ?_, 0, Rd.Adv.refl _⟩
        · simp; omega
        · rw [List.drop_append_of_le_length hmin]
          congr 1
          by_cases hl : k ≤ b.length
          · rw [List.length_take, Nat.min_eq_left hl]
          · rw [List.length_take, Nat.min_eq_right (by omega), List.drop_length,
              List.drop_eq_nil_of_le (by omega)]
      · simp only [Rd.Ok]; exact ⟨hr, he⟩
      · intro h
        have hl : (b.take k).length = 0 := by rw [h]; rfl
        rw [List.length_take] at hl
        have : b.length ≠ 0 := by simpa using hb
        omega

/-! ## io.ReadFull -/

/-- The loop of `io.ReadAtLeast(r, buf, len(buf))`; `fuel` bounds the number of reads
(never exhausted, see `readLoop_spec`).  Returns the bytes read and the last error. -/
def readLoop : Nat → Nat → Rd → Bytes × Option Err × Rd
  | 0, _, r => ([], some .noProgress, r)
  | fuel + 1, need, r =>
    if need = 0 then ([], none, r)
    else
      match r.read need with
      | (o, some e, r') => (o, some e, r')
      | (o, none, r') =>
        let (o2, e2, r2) := readLoop fuel (need - o.length) r'
        (o ++ o2, e2, r2)

/-- `io.ReadFull(r, buf)` with `len(buf) = k`. -/
def readFull (k : Nat) (r : Rd) : Bytes × Option Err × Rd :=
  match readLoop (k + 1) k r with
  | (o, e, r') =>
    if k ≤ o.length then (o, none, r')
    else if o ≠ [] ∧ e = some .eof then (o, some .unexpectedEOF, r')
    else (o, e, r')

theorem readLoop_spec (F : Err) (fuel need : Nat) (r : Rd) (hf : need < fuel) (hr : r.Ok F) :
    ∃ o e r', readLoop fuel need r = (o, e, r') ∧ Rd.Adv o.length r r' ∧ r'.Ok F ∧
      r.content = o ++ r'.content ∧ o.length ≤ need ∧
      (o.length < need → e = some F ∧ r'.content = []) := by
  induction fuel generalizing need r with
  | zero => omega
  | succ fuel ih =>
    by_cases hn : need = 0
    · subst hn
      exact ⟨[], none, r, by simp [readLoop], Rd.Adv.refl _, hr, by simp, by simp, by simp⟩
    · obtain ⟨o, e, r', h1, h2, h3, h4, h5, h6, h7⟩ := Rd.read_spec F need r (by omega) hr
      cases e with
      | some e =>
        refine ⟨o, some e, r', by simp [readLoop, hn, h1], h4, h5, h3, h2, ?_⟩
        intro _; have := h7 e rfl; simp [this]
      | none =>
        have ho : o ≠ [] := by intro h; have := (h6 h).1; simp at this
        have hol : 0 < o.length := List.length_pos_iff.mpr ho
        obtain ⟨o2, e2, r2, g1, g2, g3, g4, g5, g6⟩ := ih (need - o.length) r' (by omega) h5
        refine ⟨o ++ o2, e2, r2, by simp [readLoop, hn, h1, g1], ?_, g3, ?_, ?_, ?_⟩
        · rw [List.length_append]; exact h4.trans g2
        · rw [h3, g4, List.append_assoc]
        · rw [List.length_append]; omega
        · rw [List.length_append]; intro h; exact g6 (by omega)

/-- Error of `io.ReadFull` when the reader with terminal error `F` ends after `c`. -/
def shortErr (F : Err) (c : Bytes) : Err :=
  if c ≠ [] ∧ F = .eof then .unexpectedEOF else F

theorem readFull_spec (F : Err) (k : Nat) (r : Rd) (hr : r.Ok F) :
    (k ≤ r.content.length ∧ ∃ r', readFull k r = (r.content.take k, none, r') ∧
        Rd.Adv k r r' ∧ r'.Ok F) ∨
    (r.content.length < k ∧ ∃ r', readFull k r = (r.content, some (shortErr F r.content), r') ∧
        Rd.Adv r.content.length r r' ∧ r'.Ok F) := by
  obtain ⟨o, e, r', h1, h2, h3, h4, h5, h6⟩ := readLoop_spec F (k + 1) k r (by omega) hr
  by_cases hk : k ≤ o.length
  · left
    have hlen : o.length = k := by omega
    have ho : r.content.take k = o := by rw [h4, ← hlen]; simp
    refine ⟨by rw [h4, List.length_append]; omega, r', ?_, by rw [← hlen]; exact h2, h3⟩
    simp [readFull, h1, hk, ho]
  · right
    obtain ⟨he, hc⟩ := h6 (by omega)
    have ho : r.content = o := by rw [h4, hc]; simp
    refine ⟨by rw [ho]; omega, r', ?_, by rw [ho]; exact h2, h3⟩
    simp only [readFull, h1, hk, if_false, ho, shortErr, he]
    by_cases h : o ≠ [] ∧ F = .eof
    · rw [if_pos h, if_pos ⟨h.1, by rw [h.2]⟩]
    · rw [if_neg h, if_neg (by intro h'; apply h; simpa using h')]

/-! ## ioutil.ReadAll / io.Copy(&buf, r) -/

/-- `ioutil.ReadAll(r)` (and `io.Copy` into a `bytes.Buffer` from a plain reader): read
until an error; a terminal `io.EOF` is success.  Simplification: always asks for 512
bytes (Go grows the request); the result does not depend on the sizes. -/
def readAllLoop : Nat → Rd → Bytes × Option Err × Rd
  | 0, r => ([], some .noProgress, r)
  | fuel + 1, r =>
    match r.read 512 with
    | (o, some e, r') => (o, skipEOF e, r')
    | (o, none, r') =>
      let (o2, e2, r2) := readAllLoop fuel r'
      (o ++ o2, e2, r2)

def readAll (r : Rd) : Bytes × Option Err × Rd := readAllLoop (r.content.length + 1) r

theorem readAllLoop_spec (F : Err) (fuel : Nat) (r : Rd) (hf : r.content.length < fuel)
    (hr : r.Ok F) :
    ∃ r', readAllLoop fuel r = (r.content, skipEOF F, r') ∧
      Rd.Adv r.content.length r r' ∧ r'.Ok F := by
  induction fuel generalizing r with
  | zero => omega
  | succ fuel ih =>
    obtain ⟨o, e, r', h1, h2, h3, h4, h5, h6, h7⟩ := Rd.read_spec F 512 r (by omega) hr
    cases e with
    | some e =>
      have := h7 e rfl
      have hc : r.content = o := by rw [h3, this.2]; simp
      refine ⟨r', by simp [readAllLoop, h1, hc, this], by rw [hc]; exact h4, h5⟩
    | none =>
      have ho : o ≠ [] := by intro h; have := (h6 h).1; simp at this
      have hol : 0 < o.length := List.length_pos_iff.mpr ho
      have hl : r.content.length = o.length + r'.content.length := by
        rw [h3, List.length_append]
      obtain ⟨r2, g1, g2, g3⟩ := ih r' (by omega) h5
      refine ⟨r2, by simp [readAllLoop, h1, g1, h3], ?_, g3⟩
      rw [hl]; exact h4.trans g2

theorem readAll_spec (F : Err) (r : Rd) (hr : r.Ok F) :
    ∃ r', readAll r = (r.content, skipEOF F, r') ∧ Rd.Adv r.content.length r r' ∧ r'.Ok F :=
  readAllLoop_spec F _ r (by omega) hr

/-! ## bufio.NewReader, Peek -/

/-- `bufio.NewReader(r)`: a reader that already is a default-size `bufio.Reader` is
returned as is. -/
def Rd.wrapBuf : Rd → Rd
  | .buf b e r => .buf b e r
  | r => .buf [] none r

/-- The reader the caller is left with after the `bufio.Reader` created by
`bufio.NewReader(orig)` is dropped: what was read ahead is lost. -/
def Rd.unwrapBuf (orig : Rd) : Rd → Rd
  | .buf b e r => match orig with
    | .buf _ _ _ => .buf b e r
    | _ => r
  | r => r

/-- The reader below `io.LimitReader`. -/
def Rd.unlimit : Rd → Rd
  | .lim _ r => r
  | r => r

/-- The fill loop of `bufio.Reader.Peek(2)`; at most two fills make progress. -/
def peekFill : Nat → Bytes → Option Err → Rd → Bytes × Option Err × Rd
  | 0, b, e, r => (b, e, r)
  | fuel + 1, b, e, r =>
    if b.length < 2 ∧ e = none then
      let (o, e', r') := r.read (bufSize - b.length)
      peekFill fuel (b ++ o) e' r'
    else (b, e, r)

/-- `bufio.Reader.Peek(2)`; returns the peeked bytes or the error. -/
def Rd.peek2 : Rd → Bytes × Option Err × Rd
  | .buf b e r =>
    match peekFill 2 b e r with
    | (b', e', r') =>
      if 2 ≤ b'.length then (b'.take 2, none, .buf b' e' r')
      else (b', e', .buf b' none r')
  | r => ([], some .panic, r)

theorem peekFill_spec (F : Err) (fuel : Nat) (b : Bytes) (e : Option Err) (r : Rd)
    (hf : 2 ≤ fuel + b.length) (hr : r.Ok F) (he : e = none ∨ (e = some F ∧ r.content = [])) :
    ∃ b' e' r', peekFill fuel b e r = (b', e', r') ∧ b' ++ r'.content = b ++ r.content ∧
      r'.Ok F ∧ (e' = none ∨ (e' = some F ∧ r'.content = [])) ∧ (∃ j, Rd.Adv j r r') ∧
      (b'.length < 2 → e' = some F) := by
  induction fuel generalizing b e r with
  | zero =>
    exact ⟨b, e, r, rfl, rfl, hr, he, ⟨0, Rd.Adv.refl _⟩, by omega⟩
  | succ fuel ih =>
    by_cases hc : b.length < 2 ∧ e = none
    · obtain ⟨o, e1, r1, h1, h2, h3, h4, h5, h6, h7⟩ :=
        Rd.read_spec F (bufSize - b.length) r (by simp [bufSize]; omega) hr
      have he1 : e1 = none ∨ (e1 = some F ∧ r1.content = []) := by
        cases e1 with
        | none => simp
        | some e1 => right; have := h7 e1 rfl; simp [this]
      by_cases ho : o = []
      · -- exhausted: the next iteration stops because of the error
        have hE := (h6 ho).1
        have hr1 : r1.content = [] := (h7 F hE).2
        refine ⟨b, some F, r1, ?_, ?_, h5, .inr ⟨rfl, hr1⟩, ⟨_, h4⟩, fun _ => rfl⟩
        · simp only [peekFill, hc, and_self, if_true, h1, ho, List.append_nil, hE]
          cases fuel <;> simp [peekFill]
        · rw [h3, ho]; simp
      · have hol : 0 < o.length := List.length_pos_iff.mpr ho
        obtain ⟨b', e', r', g1, g2, g3, g4, ⟨j, g5⟩, g6⟩ :=
          ih (b ++ o) e1 r1 (by rw [List.length_append]; omega) h5 he1
        refine ⟨b', e', r', ?_, ?_, g3, g4, ⟨_, h4.trans g5⟩, g6⟩
        · simp only [peekFill, hc, and_self, if_true, h1, g1]
        · rw [g2, h3, List.append_assoc]
    · refine ⟨b, e, r, by simp only [peekFill, hc, if_false], rfl, hr, he, ⟨0, Rd.Adv.refl _⟩, ?_⟩
      intro hb
      rcases he with he | he
      · exact absurd ⟨hb, he⟩ hc
      · exact he.1

/-- Specification of `Peek(2)` on a `bufio.Reader`: nothing is consumed, and it fails
with the terminal error exactly when fewer than two bytes are left. -/
theorem peek2_spec (F : Err) (b : Bytes) (e : Option Err) (r : Rd) (hr : (Rd.buf b e r).Ok F) :
    ∃ b' e' r', Rd.Adv 0 (.buf b e r) (.buf b' e' r') ∧ (Rd.buf b' e' r').Ok F ∧
     ((2 ≤ (Rd.buf b e r).content.length ∧
        (Rd.buf b e r).peek2 = ((Rd.buf b e r).content.take 2, none, .buf b' e' r')) ∨
      ((Rd.buf b e r).content.length < 2 ∧
        (Rd.buf b e r).peek2 = ((Rd.buf b e r).content, some F, .buf b' e' r'))) := by
  simp only [Rd.Ok] at hr
  obtain ⟨b', e', r', h1, h2, h3, h4, ⟨j, h5⟩, h6⟩ := peekFill_spec F 2 b e r (by omega) hr.1 hr.2
  by_cases hb : 2 ≤ b'.length
  · refine ⟨b', e', r', ?_, ?_, ?_⟩
    · simp only [Rd.Adv]; exact ⟨by simp, by simp [h2], j, h5⟩
    · simp only [Rd.Ok]; exact ⟨h3, h4⟩
    · left
      simp only [Rd.content, ← h2, Rd.peek2, h1, hb, if_true]
      refine ⟨by rw [List.length_append]; omega, ?_⟩
      rw [List.take_append_of_le_length hb]
  · have he' := h6 (by omega)
    have hc : r'.content = [] := by
      rcases h4 with h4 | h4
      · rw [h4] at he'; simp at he'
      · exact h4.2
    refine ⟨b', none, r', ?_, ?_, ?_⟩
    · simp only [Rd.Adv]; exact ⟨by simp, by simp [h2], j, h5⟩
    · simp only [Rd.Ok]; exact ⟨h3, .inl trivial⟩
    · right
      simp only [Rd.content, ← h2, Rd.peek2, h1, hb, if_false, hc, List.append_nil, he']
      exact ⟨by omega, trivial⟩

/-- A `Peek(2)` that fails has emptied the reader below. -/
theorem peek2_short {b : Bytes} {e : Option Err} {r : Rd} (hr : (Rd.buf b e r).Ok .eof)
    (hc : (Rd.buf b e r).content.length < 2) : ∃ b' r', Rd.Adv 0 (.buf b e r) (.buf b' none r') ∧
      r'.Ok .eof ∧ r'.content = [] ∧ (Rd.buf b e r).peek2 = (b', some .eof, .buf b' none r') := by
  simp only [Rd.Ok] at hr
  obtain ⟨b', e', r', h1, h2, h3, h4, ⟨j, h5⟩, h6⟩ := peekFill_spec .eof 2 b e r (by omega) hr.1 hr.2
  have hb : ¬ 2 ≤ b'.length := by
    intro hb
    have := congrArg List.length h2
    simp [Rd.content] at this hc
    omega
  have he' := h6 (by omega)
  have hcr : r'.content = [] := by
    rcases h4 with h4 | h4
    · rw [h4] at he'; simp at he'
    · exact h4.2
  refine ⟨b', r', ?_, h3, hcr, by simp only [Rd.peek2, h1, hb, if_false, he']⟩
  simp only [Rd.Adv]; exact ⟨by simp, by simp [h2], j, h5⟩

theorem Rd.Adv.all {m : Nat} {r r' : Rd} (h : Rd.Adv m r r') (hc : r'.content = []) : m = r.content.length := by
  obtain ⟨h1, h2⟩ := h.content
  rw [hc] at h2
  have := congrArg List.length h2
  simp at this
  omega

end Verif
