import Verif.Request

/-!
# Readers that return no bytes and no error

`Verif/Go/Reader.lean` has readers that never return `(0, nil)`.  The contract of `io.Reader`
discourages it but allows it, and a TLS connection does so for empty records.  Here is what the
code does with such readers: `io.ReadFull`, `ioutil.ReadAll`, the loop of `Request.ReadFrom` and
`bufio.Reader`, and with them `Receive`.
-/

namespace Verif

/-- The readers of `Rd`, with a schedule in which `none` is a call that returns `(0, nil)`. -/
inductive Rd0 where
  | src (data : Bytes) (sched : List (Option Nat)) (fin : Err) (tog : Bool)
  | lim (n : Nat) (r : Rd0)
  | buf (b : Bytes) (e : Option Err) (r : Rd0)
  deriving DecidableEq, Repr

/-- One `Read(p)` call with `len(p) = k`, see `Rd.read`.  `bufio.Reader.Read` asks the reader below
once and returns `(0, nil)` when it gets nothing. -/
def Rd0.read (k : Nat) : Rd0 → Bytes × Option Err × Rd0
  | .src data sched fin tog =>
    if k = 0 then ([], none, .src data sched fin tog)
    else
      match sched with
      | none :: sched => ([], none, .src data sched fin tog)
      | _ =>
        if data = [] then ([], some fin, .src data sched fin tog)
        else
          let m := min k (match sched with | some s :: _ => s + 1 | _ => k)
          let rest := data.drop m
          (data.take m, if tog ∧ rest = [] then some fin else none, .src rest sched.tail fin tog)
  | .lim n r =>
    if n = 0 then ([], some .eof, .lim n r)
    else
      let (o, e, r') := r.read (min k n)
      (o, e, .lim (n - o.length) r')
  | .buf b e r =>
    if k = 0 then if b ≠ [] then ([], none, .buf b e r) else ([], e, .buf b none r)
    else if b ≠ [] then (b.take k, none, .buf (b.drop k) e r)
    else match e with
      | some e => ([], some e, .buf [] none r)
      | none =>
        if bufSize ≤ k then
          let (o, e, r') := r.read k
          (o, e, .buf [] none r')
        else
          let (o, e, r') := r.read bufSize
          if o = [] then ([], e, .buf [] none r')
          else (o.take k, none, .buf (o.drop k) e r')

/-- The same reader without its empty reads. -/
def Rd0.erase : Rd0 → Rd
  | .src d s f t => .src d (s.filterMap id) f t
  | .lim n r => .lim n r.erase
  | .buf b e r => .buf b e r.erase

/-- How many empty reads are to come. -/
def Rd0.empties : Rd0 → Nat
  | .src _ s _ _ => s.countP Option.isNone
  | .lim _ r => r.empties
  | .buf _ _ r => r.empties

/-- The loop of `io.ReadAtLeast(r, buf, len(buf))`, see `readLoop`. -/
def readLoop0 : Nat → Nat → Rd0 → Bytes × Option Err × Rd0
  | 0, _, r => ([], some .noProgress, r)
  | fuel + 1, need, r =>
    if need = 0 then ([], none, r)
    else
      match r.read need with
      | (o, some e, r') => (o, some e, r')
      | (o, none, r') =>
        let (o2, e2, r2) := readLoop0 fuel (need - o.length) r'
        (o ++ o2, e2, r2)

/-- `io.ReadFull(r, buf)` with `len(buf) = k`: there is no limit on the number of empty reads. -/
def readFull0 (k : Nat) (r : Rd0) : Bytes × Option Err × Rd0 :=
  match readLoop0 (k + 1 + r.empties) k r with
  | (o, e, r') =>
    if k ≤ o.length then (o, none, r')
    else if o ≠ [] ∧ e = some .eof then (o, some .unexpectedEOF, r')
    else (o, e, r')

/-- `ioutil.ReadAll`, see `readAllLoop`. -/
def readAllLoop0 : Nat → Rd0 → Bytes × Option Err × Rd0
  | 0, r => ([], some .noProgress, r)
  | fuel + 1, r =>
    match r.read 512 with
    | (o, some e, r') => (o, skipEOF e, r')
    | (o, none, r') =>
      let (o2, e2, r2) := readAllLoop0 fuel r'
      (o ++ o2, e2, r2)

/-- `ioutil.ReadAll(r)`. -/
def readAll0 (r : Rd0) : Bytes × Option Err × Rd0 :=
  readAllLoop0 (r.erase.content.length + 1 + r.empties) r

/-- `maxConsecutiveEmptyReads` of package bufio. -/
def maxEmptyReads : Nat := 100

/-- `bufio.Reader.fill` with `n` attempts left: the buffer, the pending error, the reader below. -/
def fill0 : Nat → Bytes → Rd0 → Bytes × Option Err × Rd0
  | 0, b, r => (b, some .noProgress, r)
  | n + 1, b, r =>
    match r.read (bufSize - b.length) with
    | (o, some e, r') => (b ++ o, some e, r')
    | (o, none, r') => if o = [] then fill0 n b r' else (b ++ o, none, r')

/-- The loop of `bufio.Reader.Peek(2)`, see `peekFill`. -/
def peekFill0 : Nat → Bytes → Option Err → Rd0 → Bytes × Option Err × Rd0
  | 0, b, e, r => (b, e, r)
  | fuel + 1, b, e, r =>
    if b.length < 2 ∧ e = none then
      let (b', e', r') := fill0 maxEmptyReads b r
      peekFill0 fuel b' e' r'
    else (b, e, r)

/-- `bufio.Reader.Peek(2)`, see `Rd.peek2`. -/
def Rd0.peek2 : Rd0 → Bytes × Option Err × Rd0
  | .buf b e r =>
    match peekFill0 2 b e r with
    | (b', e', r') =>
      if 2 ≤ b'.length then (b'.take 2, none, .buf b' e' r')
      else (b', e', .buf b' none r')
  | r => ([], some .panic, r)

/-- The body loop of `(r *Request) ReadFrom`, request.go:205-210, see `bodyLoop`. -/
def bodyLoop0 : Nat → Nat → Rd0 → Bytes × Option Err × Rd0
  | 0, _, r => ([], some .noProgress, r)
  | fuel + 1, need, r =>
    if need = 0 then ([], none, r)
    else
      match r.read need with
      | (o, some e, r') => (o, some e, r')
      | (o, none, r') =>
        let (o2, e2, r2) := bodyLoop0 fuel (need - o.length) r'
        (o ++ o2, e2, r2)

/-- `encoding.ReadFrom`, internal/encoding/encoding.go:90-113, of fields of fixed size, given by their size
and what they set: the receiver, the count, the error and the reader. -/
def readFields0 {σ : Type} : List (Nat × (Bytes → σ → σ)) → σ → Rd0 → σ × Nat × Option Err × Rd0
  | [], s, r => (s, 0, none, r)
  | (k, set) :: t, s, r =>
    match readFull0 k r with
    | (o, some e, r') => (s, o.length, some e, r')
    | (o, none, r') =>
      match readFields0 t (set o s) r' with
      | (s', n, e, r'') => (s', o.length + n, e, r'')

/-- `(h *Header) ReadFrom`, header.go:238-240. -/
def Header.readFrom0 : Header → Rd0 → Header × Nat × Option Err × Rd0 := readFields0 [
  (1, fun b s => { s with version := ofBE UInt8 b }), (1, fun b s => { s with type := ofBE UInt8 b }),
  (2, fun b s => { s with length := ofBE UInt16 b }), (4, fun b s => { s with transaction := ofBE UInt32 b })]

/-- `(r *Request) ReadFrom`, request.go:178-216, see `Request.readFrom`. -/
def Request.readFrom0 (q : Request) (r : Rd0) : Request × Nat × Option Err × Rd0 :=
  match Header.readFrom0 q.header r with
  | (h, n, some e, r') => ({ q with header := h }, n, some e, r')
  | (h, n, none, r') =>
    let q := { q with header := h, protoMajor := 1, protoMinor := (h.version - 1).toNat }
    if h.len < headerlen then (q, n, some .corruptedHeader, r')
    else
      match bodyLoop0 (h.len - headerlen + 1 + r'.empties) (h.len - headerlen) r' with
      | (o, some e, r'') => (q, o.length + headerlen, some e, r'')
      | (o, none, r'') =>
        ({ q with body := .buffer o, contentLength := h.len - headerlen },
          o.length + headerlen, none, r'')

/-- `(c *conn) Receive`, net.go:136-148, see `Conn.receive`. -/
def Conn.receive0 (r : Rd0) : Option Request × Option Err × Rd0 :=
  match Request.readFrom0 .zero r with
  | (_, _, some e, r') => (none, some e, r')
  | (q, _, none, r') => (some q, none, r')

/-! ## Erasing the empty reads -/

/-- A read of at least one byte returns something, if there are no empty reads. -/
theorem Rd.read_some (k : Nat) (hk : 0 < k) (r : Rd) : (r.read k).1 = [] → (r.read k).2.1 ≠ none := by
  induction r generalizing k with
  | src d s f t =>
    have hk0 : k ≠ 0 := by omega
    by_cases hd : d = []
    · simp [Rd.read, hk0, hd]
    · simp only [Rd.read, hk0, hd, if_false]
      intro h
      exfalso
      have hl := congrArg List.length h
      have hdl : d.length ≠ 0 := by simpa using hd
      rw [List.length_take, List.length_nil] at hl
      cases s <;> simp only at hl <;> omega
  | lim n r ih =>
    by_cases hn : n = 0
    · simp [Rd.read, hn]
    · simp only [Rd.read, hn, if_false]
      exact ih (min k n) (by omega)
  | buf b e r ih =>
    have hk0 : k ≠ 0 := by omega
    by_cases hb : b = []
    · subst hb
      cases e with
      | some e => simp [Rd.read, hk0]
      | none =>
        by_cases hbig : bufSize ≤ k
        · simp only [Rd.read, hk0, hbig, if_true, if_false]
          exact ih k hk
        · have := ih bufSize (by simp [bufSize])
          rcases hx : r.read bufSize with ⟨o, e, r'⟩
          rw [hx] at this
          by_cases ho : o = []
          · simp [Rd.read, hk0, hbig, hx, ho] at this ⊢; exact this
          · simp [Rd.read, hk0, hbig, hx, ho]
    · simp [Rd.read, hk0, hb]

/-- A read is empty, or it is the read of the reader without its empty reads. -/
theorem Rd0.read_erase (k : Nat) (hk : 0 < k) (r : Rd0) :
    ((r.read k).1 = [] ∧ (r.read k).2.1 = none ∧ (r.read k).2.2.erase = r.erase ∧
      (r.read k).2.2.empties + 1 = r.empties) ∨
    (r.erase.read k = ((r.read k).1, (r.read k).2.1, (r.read k).2.2.erase) ∧
      (r.read k).2.2.empties = r.empties) := by
  induction r generalizing k with
  | src d s f t =>
    have hk0 : k ≠ 0 := by omega
    cases s with
    | nil =>
      right
      by_cases hd : d = []
      · simp [Rd0.read, Rd.read, Rd0.erase, Rd0.empties, hk0, hd]
      · simp [Rd0.read, Rd.read, Rd0.erase, Rd0.empties, hk0, hd]
    | cons x s =>
      cases x with
      | none => left; simp [Rd0.read, Rd0.erase, Rd0.empties, hk0]
      | some n =>
        right
        by_cases hd : d = []
        · simp [Rd0.read, Rd.read, Rd0.erase, Rd0.empties, hk0, hd]
        · simp [Rd0.read, Rd.read, Rd0.erase, Rd0.empties, hk0, hd]
  | lim n r ih =>
    by_cases hn : n = 0
    · right; simp [Rd0.read, Rd.read, Rd0.erase, hn]
    · rcases ih (min k n) (by omega) with ⟨h1, h2, h3, h4⟩ | ⟨h1, h2⟩
      · left
        simp only [Rd0.read, hn, if_false, Rd0.erase, Rd0.empties]
        exact ⟨h1, h2, by simp [h1, h3], h4⟩
      · right
        simp only [Rd0.read, Rd.read, hn, if_false, Rd0.erase, Rd0.empties, h1]
        exact ⟨trivial, h2⟩
  | buf b e r ih =>
    have hk0 : k ≠ 0 := by omega
    by_cases hb : b = []
    · subst hb
      cases e with
      | some e => right; simp [Rd0.read, Rd.read, Rd0.erase, Rd0.empties, hk0]
      | none =>
        by_cases hbig : bufSize ≤ k
        · rcases ih k hk with ⟨h1, h2, h3, h4⟩ | ⟨h1, h2⟩
          · left
            simp [Rd0.read, hk0, hbig, Rd0.erase, Rd0.empties, h1, h2, h3, h4]
          · right
            simp [Rd0.read, Rd.read, hk0, hbig, Rd0.erase, Rd0.empties, h1, h2]
        · rcases ih bufSize (by simp [bufSize]) with ⟨h1, h2, h3, h4⟩ | ⟨h1, h2⟩
          · left
            simp [Rd0.read, hk0, hbig, Rd0.erase, Rd0.empties, h1, h2, h3, h4]
          · right
            rcases hx : r.read bufSize with ⟨o, e, r'⟩
            rw [hx] at h1 h2
            by_cases ho : o = []
            · simp [Rd0.read, Rd.read, hk0, hbig, Rd0.erase, Rd0.empties, h1, hx, ho] at h2 ⊢; exact h2
            · simp [Rd0.read, Rd.read, hk0, hbig, Rd0.erase, Rd0.empties, h1, hx, ho] at h2 ⊢; exact h2
    · right; simp [Rd0.read, Rd.read, Rd0.erase, Rd0.empties, hk0, hb]

theorem readLoop0_erase (fuel0 : Nat) : ∀ (fuel need : Nat) (r : Rd0), need < fuel → fuel + r.empties ≤ fuel0 →
    readLoop fuel need r.erase =
      ((readLoop0 fuel0 need r).1, (readLoop0 fuel0 need r).2.1, (readLoop0 fuel0 need r).2.2.erase) := by
  induction fuel0 with
  | zero => intro fuel need r h1 h2; omega
  | succ fuel0 ih =>
    intro fuel need r h1 h2
    obtain ⟨fuel, rfl⟩ : ∃ f, fuel = f + 1 := ⟨fuel - 1, by omega⟩
    by_cases hn : need = 0
    · simp [readLoop, readLoop0, hn]
    · have hs := Rd.read_some need (by omega) r.erase
      rcases hx : r.read need with ⟨o, e, r'⟩
      rcases Rd0.read_erase need (by omega) r with ⟨g1, g2, g3, g4⟩ | ⟨g1, g2⟩
      · rw [hx] at g1 g2 g3 g4
        simp only at g1 g2 g3 g4
        subst g1 g2
        simp only [readLoop0, hn, if_false, hx, List.length_nil, Nat.sub_zero, List.nil_append]
        rw [← g3]
        exact ih (fuel + 1) need r' h1 (by omega)
      · rw [hx] at g1 g2
        simp only at g1 g2
        rw [g1] at hs
        cases e with
        | some e => simp [readLoop, readLoop0, hn, hx, g1]
        | none =>
          have ho : o ≠ [] := fun h => hs h rfl
          have hol : 0 < o.length := List.length_pos_iff.mpr ho
          have := ih fuel (need - o.length) r' (by omega) (by omega)
          simp [readLoop, readLoop0, hn, hx, g1, this]

/-- The loop of `Request.ReadFrom` does what `io.ReadAtLeast` does. -/
theorem bodyLoop0_erase (fuel0 : Nat) : ∀ (fuel need : Nat) (r : Rd0), need < fuel → fuel + r.empties ≤ fuel0 →
    bodyLoop fuel need r.erase =
      ((bodyLoop0 fuel0 need r).1, (bodyLoop0 fuel0 need r).2.1, (bodyLoop0 fuel0 need r).2.2.erase) := by
  induction fuel0 with
  | zero => intro fuel need r h1 h2; omega
  | succ fuel0 ih =>
    intro fuel need r h1 h2
    obtain ⟨fuel, rfl⟩ : ∃ f, fuel = f + 1 := ⟨fuel - 1, by omega⟩
    by_cases hn : need = 0
    · simp [bodyLoop, bodyLoop0, hn]
    · have hs := Rd.read_some need (by omega) r.erase
      rcases hx : r.read need with ⟨o, e, r'⟩
      rcases Rd0.read_erase need (by omega) r with ⟨g1, g2, g3, g4⟩ | ⟨g1, g2⟩
      · rw [hx] at g1 g2 g3 g4
        simp only at g1 g2 g3 g4
        subst g1 g2
        simp only [bodyLoop0, hn, if_false, hx, List.length_nil, Nat.sub_zero, List.nil_append]
        rw [← g3]
        exact ih (fuel + 1) need r' h1 (by omega)
      · rw [hx] at g1 g2
        simp only at g1 g2
        rw [g1] at hs
        cases e with
        | some e => simp [bodyLoop, bodyLoop0, hn, hx, g1]
        | none =>
          have ho : o ≠ [] := fun h => hs h rfl
          have hol : 0 < o.length := List.length_pos_iff.mpr ho
          have := ih fuel (need - o.length) r' (by omega) (by omega)
          simp [bodyLoop, bodyLoop0, hn, hx, g1, this]

theorem readFull0_erase (k : Nat) (r : Rd0) :
    readFull k r.erase = ((readFull0 k r).1, (readFull0 k r).2.1, (readFull0 k r).2.2.erase) := by
  have h := readLoop0_erase (k + 1 + r.empties) (k + 1) k r (by omega) (Nat.le_refl _)
  rcases hx : readLoop0 (k + 1 + r.empties) k r with ⟨o, e, r'⟩
  rw [hx] at h
  simp only [readFull, readFull0, h, hx]
  by_cases h1 : k ≤ o.length
  · simp [h1]
  · by_cases h2 : o ≠ [] ∧ e = some .eof
    · simp [h1, h2]
    · simp [h1, h2]

theorem Rd.read_content (k : Nat) (r : Rd) : r.content = (r.read k).1 ++ (r.read k).2.2.content := by
  induction r generalizing k with
  | src d s f t =>
    by_cases hk : k = 0
    · simp [Rd.read, hk, Rd.content]
    · by_cases hd : d = []
      · simp [Rd.read, hk, hd, Rd.content]
      · simp [Rd.read, hk, hd, Rd.content]
  | lim n r ih =>
    by_cases hn : n = 0
    · simp [Rd.read, hn, Rd.content]
    · simp only [Rd.read, hn, if_false, Rd.content]
      rw [ih (min k n), List.take_append]
      have hl : (r.read (min k n)).1.length ≤ n := by
        have : ∀ (k : Nat) (r : Rd), (r.read k).1.length ≤ k := by
          intro k r
          induction r generalizing k with
          | src d s f t =>
            by_cases hk : k = 0
            · simp [Rd.read, hk]
            · by_cases hd : d = []
              · simp [Rd.read, hk, hd]
              · simp only [Rd.read, hk, hd, if_false]; rw [List.length_take]; omega
          | lim n r ih =>
            by_cases hn : n = 0
            · simp [Rd.read, hn]
            · simp only [Rd.read, hn, if_false]; have := ih (min k n); omega
          | buf b e r ih =>
            by_cases hk : k = 0
            · subst hk; by_cases hb : b = [] <;> simp [Rd.read, hb]
            · by_cases hb : b = []
              · subst hb
                cases e with
                | some e => simp [Rd.read, hk]
                | none =>
                  by_cases hbig : bufSize ≤ k
                  · simp only [Rd.read, hk, hbig, if_true, if_false]; exact ih k
                  · rcases hx : r.read bufSize with ⟨o, e, r'⟩
                    by_cases ho : o = []
                    · simp [Rd.read, hk, hbig, hx, ho]
                    · simp only [Rd.read, hk, hbig, hx, ho, if_false]; simp; omega
              · simp only [Rd.read, hk, hb, ne_eq, not_false_eq_true, if_true, if_false]
                rw [List.length_take]; omega
        exact Nat.le_trans (this _ _) (Nat.min_le_right _ _)
      rw [List.take_of_length_le hl]
  | buf b e r ih =>
    by_cases hk : k = 0
    · subst hk; by_cases hb : b = [] <;> simp [Rd.read, hb, Rd.content]
    · by_cases hb : b = []
      · subst hb
        cases e with
        | some e => simp [Rd.read, hk, Rd.content]
        | none =>
          by_cases hbig : bufSize ≤ k
          · simp only [Rd.read, hk, hbig, if_true, if_false]; simpa [Rd.content] using ih k
          · have h := ih bufSize
            rcases hx : r.read bufSize with ⟨o, e, r'⟩
            rw [hx] at h
            by_cases ho : o = []
            · simpa [Rd.read, hk, hbig, hx, ho, Rd.content] using h
            · simp only [Rd.read, hk, hbig, hx, ho, ne_eq, not_true_eq_false, if_false, Rd.content]
              rw [← List.append_assoc, List.take_append_drop]; simpa using h
      · simp only [Rd.read, hk, hb, ne_eq, not_false_eq_true, if_true, if_false, Rd.content]
        rw [← List.append_assoc, List.take_append_drop]

theorem readAllLoop0_erase (fuel0 : Nat) : ∀ (fuel : Nat) (r : Rd0), r.erase.content.length < fuel →
    fuel + r.empties ≤ fuel0 →
    readAllLoop fuel r.erase =
      ((readAllLoop0 fuel0 r).1, (readAllLoop0 fuel0 r).2.1, (readAllLoop0 fuel0 r).2.2.erase) := by
  induction fuel0 with
  | zero => intro fuel r h1 h2; omega
  | succ fuel0 ih =>
    intro fuel r h1 h2
    obtain ⟨fuel, rfl⟩ : ∃ f, fuel = f + 1 := ⟨fuel - 1, by omega⟩
    have hs := Rd.read_some 512 (by omega) r.erase
    have hc := Rd.read_content 512 r.erase
    rcases hx : r.read 512 with ⟨o, e, r'⟩
    rcases Rd0.read_erase 512 (by omega) r with ⟨g1, g2, g3, g4⟩ | ⟨g1, g2⟩
    · rw [hx] at g1 g2 g3 g4
      simp only at g1 g2 g3 g4
      subst g1 g2
      simp only [readAllLoop0, hx, List.nil_append]
      rw [← g3]
      exact ih (fuel + 1) r' (by rw [g3]; exact h1) (by omega)
    · rw [hx] at g1 g2
      simp only at g1 g2
      rw [g1] at hs hc
      simp only at hs hc
      cases e with
      | some e => simp [readAllLoop, readAllLoop0, hx, g1]
      | none =>
        have ho : o ≠ [] := fun h => hs h rfl
        have hol : 0 < o.length := List.length_pos_iff.mpr ho
        rw [hc, List.length_append] at h1
        have := ih fuel r' (by omega) (by omega)
        simp [readAllLoop, readAllLoop0, hx, g1, this]

theorem readAll0_erase (r : Rd0) :
    readAll r.erase = ((readAll0 r).1, (readAll0 r).2.1, (readAll0 r).2.2.erase) :=
  readAllLoop0_erase _ _ r (by omega) (Nat.le_refl _)

/-! ## `bufio.Reader.fill` -/

/-- Fewer than 100 empty reads in a row. -/
def Rd0.Calm : Rd0 → Prop
  | .src _ s _ _ => ∀ a b, s ≠ a ++ List.replicate maxEmptyReads none ++ b
  | .lim _ r => r.Calm
  | .buf _ _ r => r.Calm

/-- The empty reads to come before the next other one. -/
def Rd0.lead : Rd0 → Nat
  | .src _ s _ _ => (s.takeWhile Option.isNone).length
  | .lim _ r => r.lead
  | .buf _ _ r => r.lead

theorem Rd0.Calm.lead {r : Rd0} (h : r.Calm) : r.lead < maxEmptyReads := by
  induction r with
  | src d s f t =>
    simp only [Rd0.Calm, Rd0.lead] at h ⊢
    refine Classical.byContradiction fun hn => ?_
    have hle : maxEmptyReads ≤ (s.takeWhile Option.isNone).length := by omega
    have hall : s.takeWhile Option.isNone = List.replicate (s.takeWhile Option.isNone).length none := by
      refine List.eq_replicate_iff.mpr ⟨rfl, fun x hx => ?_⟩
      have := List.all_takeWhile (p := Option.isNone) (l := s)
      rw [List.all_eq_true] at this
      have := this x hx
      simpa using this
    refine h [] ((List.replicate ((s.takeWhile Option.isNone).length - maxEmptyReads) none) ++
      s.dropWhile Option.isNone) ?_
    rw [List.nil_append, ← List.append_assoc, List.replicate_append_replicate,
      Nat.add_sub_cancel' hle, ← hall, List.takeWhile_append_dropWhile]
  | lim n r ih => exact ih h
  | buf b e r ih => exact ih h

theorem Rd0.Calm.read {r : Rd0} (h : r.Calm) (k : Nat) : (r.read k).2.2.Calm := by
  induction r generalizing k with
  | src d s f t =>
    have htail : ∀ (x : Option Nat) (s : List (Option Nat)), (∀ a b, x :: s ≠ a ++ List.replicate maxEmptyReads none ++ b) →
        ∀ a b, s ≠ a ++ List.replicate maxEmptyReads none ++ b := by
      intro x s hx a b hs
      exact hx (x :: a) b (by rw [hs]; rfl)
    simp only [Rd0.Calm] at h
    by_cases hk : k = 0
    · simpa [Rd0.read, hk, Rd0.Calm] using h
    · cases s with
      | nil =>
        by_cases hd : d = []
        · simpa [Rd0.read, hk, hd, Rd0.Calm] using h
        · simpa [Rd0.read, hk, hd, Rd0.Calm] using h
      | cons x s =>
        cases x with
        | none => simp only [Rd0.read, hk, if_false, Rd0.Calm]; exact htail _ _ h
        | some n =>
          by_cases hd : d = []
          · simp only [Rd0.read, hk, hd, if_true, if_false, Rd0.Calm]; exact h
          · simp only [Rd0.read, hk, hd, if_false, Rd0.Calm, List.tail_cons]; exact htail _ _ h
  | lim n r ih =>
    by_cases hn : n = 0
    · simpa [Rd0.read, hn] using h
    · simp only [Rd0.read, hn, if_false, Rd0.Calm]; exact ih h _
  | buf b e r ih =>
    have hr : r.Calm := h
    by_cases hk : k = 0
    · subst hk; by_cases hb : b = [] <;> simpa [Rd0.read, hb, Rd0.Calm] using hr
    · by_cases hb : b = []
      · subst hb
        cases e with
        | some e => simpa [Rd0.read, hk, Rd0.Calm] using hr
        | none =>
          by_cases hbig : bufSize ≤ k
          · simp only [Rd0.read, hk, hbig, if_true, if_false]; exact ih hr k
          · have := ih hr bufSize
            rcases hx : r.read bufSize with ⟨o, e, r'⟩
            rw [hx] at this
            by_cases ho : o = []
            · simpa [Rd0.read, hk, hbig, hx, ho, Rd0.Calm] using this
            · simpa [Rd0.read, hk, hbig, hx, ho, Rd0.Calm] using this
      · simpa [Rd0.read, hk, hb, Rd0.Calm] using hr

theorem Rd0.read_lead (k : Nat) (r : Rd0) (hk : 0 < k) (h : (r.read k).1 = []) (he : (r.read k).2.1 = none) :
    (r.read k).2.2.lead + 1 = r.lead := by
  induction r generalizing k with
  | src d s f t =>
    have hk0 : k ≠ 0 := by omega
    cases s with
    | nil =>
      by_cases hd : d = []
      · simp [Rd0.read, hk0, hd] at he
      · simp [Rd0.read, hk0, hd] at h
    | cons x s =>
      cases x with
      | none => simp [Rd0.read, hk0, Rd0.lead]
      | some n =>
        by_cases hd : d = []
        · simp [Rd0.read, hk0, hd] at he
        · simp [Rd0.read, hk0, hd] at h
  | lim n r ih =>
    by_cases hn : n = 0
    · simp [Rd0.read, hn] at he
    · simp only [Rd0.read, hn, if_false, Rd0.lead] at h he ⊢
      exact ih _ (by omega) h he
  | buf b e r ih =>
    have hk0 : k ≠ 0 := by omega
    by_cases hb : b = []
    · subst hb
      cases e with
      | some e => simp [Rd0.read, hk0] at he
      | none =>
        by_cases hbig : bufSize ≤ k
        · simp only [Rd0.read, hk0, hbig, if_true, if_false, Rd0.lead] at h he ⊢
          exact ih k hk h he
        · rcases hx : r.read bufSize with ⟨o, e, r'⟩
          have := ih bufSize (by simp [bufSize])
          rw [hx] at this
          by_cases ho : o = []
          · simp [Rd0.read, hk0, hbig, hx, ho] at he
            simp only [Rd0.read, hk0, hbig, hx, ho, if_false, if_true, Rd0.lead, ne_eq, not_true]
            exact this ho he
          · have hol : o.length ≠ 0 := by simpa using ho
            simp [Rd0.read, hk0, hbig, hx, ho] at h
    · simp [Rd0.read, hk0, hb] at h

theorem fill0_erase (n : Nat) (b : Bytes) (hb : b.length < bufSize) : ∀ (r : Rd0), r.Calm → r.lead < n →
    r.erase.read (bufSize - b.length) = ((fill0 n b r).1.drop b.length, (fill0 n b r).2.1, (fill0 n b r).2.2.erase) ∧
    (fill0 n b r).1.take b.length = b ∧ (fill0 n b r).2.2.Calm := by
  induction n with
  | zero => intro r _ h; omega
  | succ n ih =>
    intro r hc hl
    have hs := Rd.read_some (bufSize - b.length) (by omega) r.erase
    have hcr := hc.read (bufSize - b.length)
    have hlead := Rd0.read_lead (bufSize - b.length) r (by omega)
    rcases hx : r.read (bufSize - b.length) with ⟨o, e, r'⟩
    rw [hx] at hcr hlead
    rcases Rd0.read_erase (bufSize - b.length) (by omega) r with ⟨g1, g2, g3, g4⟩ | ⟨g1, g2⟩
    · rw [hx] at g1 g2 g3 g4
      simp only at g1 g2 g3 g4
      subst g1 g2
      have hl' := hlead rfl rfl
      simp only at hl'
      simp only [fill0, hx, if_true]
      rw [← g3]
      exact ih r' hcr (by omega)
    · rw [hx] at g1 g2
      simp only at g1 g2
      rw [g1] at hs
      cases e with
      | some e => simpa [fill0, hx, g1] using hcr
      | none =>
        have ho : o ≠ [] := fun h => hs h rfl
        simpa [fill0, hx, g1, ho] using hcr

theorem peekFill0_erase (fuel : Nat) : ∀ (b : Bytes) (e : Option Err) (r : Rd0), r.Calm →
    peekFill fuel b e r.erase =
      ((peekFill0 fuel b e r).1, (peekFill0 fuel b e r).2.1, (peekFill0 fuel b e r).2.2.erase) ∧
    (peekFill0 fuel b e r).2.2.Calm := by
  induction fuel with
  | zero => intro b e r h; exact ⟨rfl, h⟩
  | succ fuel ih =>
    intro b e r hc
    by_cases hb : b.length < 2 ∧ e = none
    · obtain ⟨h1, h2, h3⟩ := fill0_erase maxEmptyReads b (by have := hb.1; simp [bufSize]; omega) r hc hc.lead
      have := ih (fill0 maxEmptyReads b r).1 (fill0 maxEmptyReads b r).2.1 _ h3
      simp only [peekFill, peekFill0, hb, and_self, if_true, h1]
      have hbo : b ++ (fill0 maxEmptyReads b r).1.drop b.length = (fill0 maxEmptyReads b r).1 := by
        have := List.take_append_drop b.length (fill0 maxEmptyReads b r).1
        rwa [h2] at this
      rw [hbo]
      exact this
    · simp only [peekFill, peekFill0, hb, if_false]
      exact ⟨trivial, hc⟩

theorem peek20_erase (r : Rd0) (hc : r.Calm) :
    r.erase.peek2 = (r.peek2.1, r.peek2.2.1, r.peek2.2.2.erase) ∧ r.peek2.2.2.Calm := by
  cases r with
  | src d s f t => exact ⟨rfl, hc⟩
  | lim n r => exact ⟨rfl, hc⟩
  | buf b e r =>
    obtain ⟨h1, h2⟩ := peekFill0_erase 2 b e r hc
    simp only [Rd0.erase, Rd.peek2, Rd0.peek2, h1]
    split
    · exact ⟨rfl, h2⟩
    · exact ⟨rfl, h2⟩

/-! ## `Receive` -/

theorem readFields0_erase {σ : Type} (l : List (Nat × (Bytes → σ → σ))) : ∀ (s : σ) (r : Rd0),
    Enc.readFrom (l.map (fun p => Enc.bin p.1 p.2)) s r.erase =
      ⟨(readFields0 l s r).1, (readFields0 l s r).2.1, (readFields0 l s r).2.2.1, (readFields0 l s r).2.2.2.erase⟩ := by
  induction l with
  | nil => intro s r; rfl
  | cons p l ih =>
    intro s r
    obtain ⟨k, set⟩ := p
    have h := readFull0_erase k r
    rcases hx : readFull0 k r with ⟨o, e, r'⟩
    rw [hx] at h
    cases e with
    | some e => simp [Enc.readFrom, Enc.bin, readFields0, h, hx]
    | none => simp [Enc.readFrom, Enc.bin, readFields0, h, hx, ih]

theorem Header.readFrom0_erase (h : Header) (r : Rd0) : Header.readFrom h r.erase =
    ⟨(Header.readFrom0 h r).1, (Header.readFrom0 h r).2.1, (Header.readFrom0 h r).2.2.1,
      (Header.readFrom0 h r).2.2.2.erase⟩ := by
  rw [Header.readFrom0, ← readFields0_erase]; rfl

theorem Request.readFrom0_erase (q : Request) (r : Rd0) : Request.readFrom q r.erase =
    ⟨(Request.readFrom0 q r).1, (Request.readFrom0 q r).2.1, (Request.readFrom0 q r).2.2.1,
      (Request.readFrom0 q r).2.2.2.erase⟩ := by
  have hh := Header.readFrom0_erase q.header r
  rcases hx : Header.readFrom0 q.header r with ⟨h, n, e, r'⟩
  rw [hx] at hh
  cases e with
  | some e => simp [Request.readFrom, Request.readFrom0, hh, hx]
  | none =>
    by_cases hl : h.len < headerlen
    · simp [Request.readFrom, Request.readFrom0, hh, hx, hl]
    · have hb := bodyLoop0_erase (h.len - headerlen + 1 + r'.empties) (h.len - headerlen + 1)
        (h.len - headerlen) r' (by omega) (Nat.le_refl _)
      rcases hy : bodyLoop0 (h.len - headerlen + 1 + r'.empties) (h.len - headerlen) r' with ⟨o, e, r''⟩
      rw [hy] at hb
      cases e with
      | some e => simp [Request.readFrom, Request.readFrom0, hh, hx, hl, hb, hy]
      | none => simp [Request.readFrom, Request.readFrom0, hh, hx, hl, hb, hy]

theorem Conn.receive0_erase (r : Rd0) : Conn.receive r.erase =
    ((Conn.receive0 r).1, (Conn.receive0 r).2.1, (Conn.receive0 r).2.2.erase) := by
  have h := Request.readFrom0_erase .zero r
  rcases hx : Request.readFrom0 .zero r with ⟨q, n, e, r'⟩
  rw [hx] at h
  cases e with
  | some e => simp [Conn.receive, Conn.receive0, h, hx]
  | none => simp [Conn.receive, Conn.receive0, h, hx]

end Verif
