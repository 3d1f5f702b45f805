import Verif.Go.Broken

/-!
# internal/encoding/encoding.go

`WriteTo`, `ReadFrom`, `WriteSliceTo`, `ReadFunc`, `ReadSliceFrom`, `ScanFrom`.
-/

namespace Verif

/-! ## Encoders -/

/-- Result of a `WriteTo(w)` call when the destination accepts everything (in /repo the
destination of every message encoder is a `bytes.Buffer`; Verif/Dest.lean has the others): bytes written, reported
count, error. -/
structure Wr where
  out : Bytes
  n : Nat
  err : Option Err
  deriving DecidableEq, Repr

/-- One argument of `encoding.WriteTo`: untyped nil, a fixed-size value (its big-endian
bytes), a value `binary.Write` rejects, or an `io.WriterTo`. -/
inductive WElem where
  | nil
  | bin (b : Bytes)
  | bad
  | writer (w : Wr)

namespace Enc

/-- The accumulation loop of `encoding.WriteTo`, encoding.go:72-85. -/
def gather : List WElem → Bytes × Option Err
  | [] => ([], none)
  | .nil :: t => gather t
  | .bin b :: t => let (o, e) := gather t; (b ++ o, e)
  | .bad :: _ => ([], some .invalidType)
  | .writer w :: t =>
    match w.err with
    | some e => (w.out, some e)
    | none => let (o, e) := gather t; (w.out ++ o, e)

/-- `encoding.WriteTo`, encoding.go:66-88: everything is buffered, then written at once. -/
def writeTo (v : List WElem) : Wr :=
  match gather v with
  | (o, none) => ⟨o, o.length, none⟩
  | (_, some e) => ⟨[], 0, some e⟩

/-- `encoding.WriteSliceTo`, encoding.go:120-143: elements are written one by one;
counts are summed; stops at the first error (earlier output stays). -/
def writeSliceTo : List Wr → Wr
  | [] => ⟨[], 0, none⟩
  | w :: t =>
    match w.err with
    | some e => ⟨w.out, w.n, some e⟩
    | none => let r := writeSliceTo t; ⟨w.out ++ r.out, w.n + r.n, r.err⟩

end Enc

/-! ## Decoders -/

/-- Outcome of a `ReadFrom(r)` call: the receiver afterwards, the reported count, the
error, and the reader afterwards. -/
structure Out (σ : Type) where
  val : σ
  n : Nat
  err : Option Err
  rd : Rd
  deriving DecidableEq, Repr

/-- A decoding step that mutates a receiver of type `σ`. -/
abbrev Step (σ : Type) := σ → Rd → Out σ

namespace Enc

variable {σ τ : Type}

/-- `binary.Read(rd, BigEndian, ptr)` of a `k` byte value through the counting reader
(encoding.go:19-23,104): `io.ReadFull`, then the value is set. -/
def bin (k : Nat) (set : Bytes → σ → σ) : Step σ := fun s r =>
  match readFull k r with
  | (o, some e, r') => ⟨s, o.length, some e, r'⟩
  | (o, none, r') => ⟨set o s, o.length, none, r'⟩

/-- `binary.Read` of an unsigned integer. -/
def num {α : Type} [Wire α] (set : α → σ → σ) : Step σ :=
  bin (Wire.size α) (fun b s => set (ofBE α b) s)

/-- `binary.Read` into a padding array (`&defaultPadN`): the bytes are ignored. -/
def skip (k : Nat) : Step σ := bin k (fun _ s => s)

/-- A Go array `[2]uint32`, read by one `binary.Read`. -/
def pair32 (set : UInt32 × UInt32 → σ → σ) : Step σ :=
  Enc.bin 8 (fun b => set (ofBE UInt32 (b.take 4), ofBE UInt32 (b.drop 4)))

/-- A Go array `[4]uint32`, read by one `binary.Read`. -/
def quad32 (set : UInt32 × UInt32 × UInt32 × UInt32 → σ → σ) : Step σ :=
  Enc.bin 16 (fun b => set (ofBE UInt32 (b.take 4), ofBE UInt32 ((b.drop 4).take 4),
    ofBE UInt32 ((b.drop 8).take 4), ofBE UInt32 (b.drop 12)))

/-- An `io.ReaderFrom` argument of `encoding.ReadFrom` (encoding.go:100-102). -/
def sub (get : σ → τ) (set : τ → σ → σ) (st : Step τ) : Step σ := fun s r =>
  let o := st (get s) r
  ⟨set o.val s, o.n, o.err, o.rd⟩

/-- An `io.ReaderFrom` argument whose method has a *value receiver*: whatever it
decodes is lost. -/
def subVal (get : σ → τ) (st : Step τ) : Step σ := fun s r =>
  let o := st (get s) r
  ⟨s, o.n, o.err, o.rd⟩

/-- Decoding into a value of a particular dynamic type `τ` held in a variable of an
interface type `σ`. -/
def wrap (f : τ → σ) (st : Step τ) (t : τ) (r : Rd) : Out σ :=
  let o := st t r
  ⟨f o.val, o.n, o.err, o.rd⟩

/-- `encoding.ReadFrom`, encoding.go:90-113. -/
def readFrom : List (Step σ) → Step σ
  | [] => fun s r => ⟨s, 0, none, r⟩
  | st :: t => fun s r =>
    match st s r with
    | ⟨s', n, some e, r'⟩ => ⟨s', n, some e, r'⟩
    | ⟨s', n, none, r'⟩ =>
      let o := readFrom t s' r'
      ⟨o.val, n + o.n, o.err, o.rd⟩

/-- Two calls in sequence, the second depending on the count reported by the first. -/
def andThen (st : Step σ) (f : Nat → Step σ) : Step σ := fun s r =>
  match st s r with
  | ⟨s', n, some e, r'⟩ => ⟨s', n, some e, r'⟩
  | ⟨s', n, none, r'⟩ =>
    let o := f n s' r'
    ⟨o.val, n + o.n, o.err, o.rd⟩

/-- A step computed from the current receiver (lengths read earlier, ...). -/
def dyn (f : σ → Step σ) : Step σ := fun s r => f s s r

/-- A step with local variables `l`. -/
def withLocal {l : Type} (init : l) (st : Step (σ × l)) : Step σ := fun s r =>
  let o := st (s, init) r
  ⟨o.val.1, o.n, o.err, o.rd⟩

/-- Assignment. -/
def assign (f : σ → σ) : Step σ := fun s r => ⟨f s, 0, none, r⟩

/-- Run on `io.LimitReader(r, n)` and continue with `r`. -/
def limited (n : Nat) (st : Step σ) : Step σ := fun s r =>
  let o := st s (.lim n r)
  ⟨o.val, o.n, o.err, o.rd.unlimit⟩

/-- Code that runs after the step whether or not it failed. -/
def always (f : σ → σ) (st : Step σ) : Step σ := fun s r =>
  let o := st s r
  ⟨f o.val, o.n, o.err, o.rd⟩

/-- A call whose error is overwritten before it is looked at. -/
def ignoreErr (st : Step σ) : Step σ := fun s r =>
  let o := st s r
  ⟨o.val, o.n, none, o.rd⟩

/-- `ioutil.ReadAll(r)` into a field. -/
def rest (set : Bytes → σ → σ) : Step σ := fun s r =>
  match readAll r with
  | (o, e, r') => ⟨set o s, o.length, e, r'⟩

/-- As `rest`, for the callers that report nothing of the rest when `ReadAll` fails. -/
def rest0 (set : Bytes → σ → σ) : Step σ := fun s r =>
  match readAll r with
  | (o, some e, r') => ⟨set o s, 0, some e, r'⟩
  | (o, none, r') => ⟨set o s, o.length, none, r'⟩

/-- `encoding.ReadFunc`, encoding.go:160-178: decode fresh elements until an error;
`io.EOF` is success.  Returns the elements passed to the callback.  `fuel` is never
exhausted when every element consumes at least one byte. -/
def readFuncLoop (zero : τ) (st : Step τ) : Nat → List τ → Nat → Rd → Out (List τ)
  | 0, acc, n, r => ⟨acc, n, some .noProgress, r⟩
  | fuel + 1, acc, n, r =>
    match st zero r with
    | ⟨_, k, some e, r'⟩ => ⟨acc, n + k, skipEOF e, r'⟩
    | ⟨x, k, none, r'⟩ => readFuncLoop zero st fuel (acc ++ [x]) (n + k) r'

def readFunc (zero : τ) (st : Step τ) (r : Rd) : Out (List τ) :=
  readFuncLoop zero st (r.content.length + 1) [] 0 r

/-- `encoding.ReadSliceFrom`, encoding.go:148-154: `reflect.Append` returns the grown
slice and the result is *discarded*, so the caller's slice is unchanged.  (Spare
capacity of the slice is overwritten, which is not observable through the slice but
through others: `Enc.readSliceInto` in Verif/Heap.lean.) -/
def readSliceFrom (zero : τ) (st : Step τ) : Step (List τ) := fun s r =>
  let o := readFunc zero st r
  ⟨s, o.n, o.err, o.rd⟩

/-- The loop of `encoding.ScanFrom`, encoding.go:217-244, on the `bufio.Reader`.
`mk` is the reader maker: it returns the fresh element for a type code (the callers
append it to the list before it is decoded, so it stays there when decoding fails). -/
def scanLoop (mk : UInt16 → Except Err τ) (st : Step τ) : Nat → List τ → Nat → Rd → Out (List τ)
  | 0, acc, n, r => ⟨acc, n, some .noProgress, r⟩
  | fuel + 1, acc, n, r =>
    match r.peek2 with
    | (_, some e, r1) => ⟨acc, n, skipEOF e, r1⟩
    | (b, none, r1) =>
      match mk (ofBE UInt16 b) with
      | .error e => ⟨acc, n, some e, r1⟩
      | .ok z =>
        match st z r1 with
        | ⟨x, k, some e, r2⟩ => ⟨acc ++ [x], n + k, skipEOF e, r2⟩
        | ⟨x, k, none, r2⟩ => scanLoop mk st fuel (acc ++ [x]) (n + k) r2

/-- `encoding.ScanFrom`, encoding.go:204-245, for two-byte type codes. -/
def scanFrom (mk : UInt16 → Except Err τ) (st : Step τ) : Step (List τ) := fun s r =>
  let o := scanLoop mk st (r.content.length + 1) s 0 r.wrapBuf
  ⟨o.val, o.n, o.err, r.unwrapBuf o.rd⟩

end Enc

/-! ## Specifications of steps -/

/-- The reader holds `bs`, or breaks (other than at a legitimate end) within `bs`. -/
def Rd.Fits (bs : Bytes) (r : Rd) : Prop := bs <+: r.content ∨ (r.content <+: bs ∧ ¬ r.Ends)

/-- The reader holds exactly `bs` and ends legitimately, or breaks within or after `bs`. -/
def Rd.FitsAll (bs : Bytes) (r : Rd) : Prop := (r.content = bs ∧ r.Ends) ∨ (r.content <+: bs ∧ ¬ r.Ends)

/-- The outcome of decoding `bs` from `r`, over a stream that ends with `F`: the value `s'`,
with `bs` consumed and counted, or the error of a stream that broke. -/
def Out.Gets {σ : Type} (F : Err) (r : Rd) (bs : Bytes) (s' : σ) (o : Out σ) : Prop :=
  (F ≠ .eof ∧ o.err = some F) ∨
    ∃ r', o = ⟨s', bs.length, none, r'⟩ ∧ Rd.Adv bs.length r r' ∧ r'.OkB F

/-- `Reads st s bs s'`: on *any* reader (any fragmentation, any nesting) whose content
starts with `bs`, the step started with receiver `s` succeeds with receiver `s'`,
reports `bs.length`, and consumes exactly `bs`; on a reader over a stream that breaks within
`bs` it returns the error of the stream. -/
structure Reads {σ : Type} (st : Step σ) (s : σ) (bs : Bytes) (s' : σ) : Prop where
  run : ∀ F r, r.OkB F → r.Fits bs → (st s r).Gets F r bs s'

/-- As `Reads`, but for steps that read to the end of the input. -/
structure ReadsAll {σ : Type} (st : Step σ) (s : σ) (bs : Bytes) (s' : σ) : Prop where
  run : ∀ F r, r.OkB F → r.FitsAll bs → (st s r).Gets F r bs s'

/-- `Counts st`: whatever the input, the reported count is exactly the number of bytes
taken from the reader. -/
def Counts {σ : Type} (st : Step σ) : Prop :=
  ∀ s r, r.Ok .eof → Rd.Adv (st s r).n r (st s r).rd ∧ (st s r).rd.Ok .eof

section
variable {σ τ : Type}

theorem Rd.Fits.of {bs tail : Bytes} {r : Rd} (h : r.content = bs ++ tail) : r.Fits bs :=
  .inl ⟨tail, h.symm⟩

theorem Rd.FitsAll.of {bs : Bytes} {r : Rd} (hr : r.Ok .eof) (h : r.content = bs) : r.FitsAll bs :=
  .inl ⟨h, hr.okB.ends⟩

theorem Rd.FitsAll.fits {bs : Bytes} {r : Rd} (h : r.FitsAll bs) : r.Fits bs :=
  h.imp (fun h => ⟨[], by simp [h.1]⟩) id

theorem Rd.Fits.left {a b : Bytes} {r : Rd} (h : r.Fits (a ++ b)) : r.Fits a := by
  rcases h with h | ⟨h, he⟩
  · exact .inl ((List.prefix_append a b).trans h)
  · rcases List.prefix_or_prefix_of_prefix h (List.prefix_append a b) with h | h
    · exact .inr ⟨h, he⟩
    · exact .inl h

theorem Rd.Fits.right {a b : Bytes} {r r' : Rd} (h : r.Fits (a ++ b)) (ha : Rd.Adv a.length r r') :
    r'.Fits b := by
  unfold Rd.Fits
  rw [ha.content.2, ha.ends]
  rcases h with ⟨t, h⟩ | ⟨⟨t, h⟩, he⟩
  · left; exact ⟨t, by rw [← h]; simp⟩
  · right
    refine ⟨⟨t, ?_⟩, he⟩
    have := congrArg (List.drop a.length) h
    rw [List.drop_append_of_le_length ha.content.1] at this
    simpa using this

theorem Rd.FitsAll.right {a b : Bytes} {r r' : Rd} (h : r.FitsAll (a ++ b)) (ha : Rd.Adv a.length r r') :
    r'.FitsAll b := by
  unfold Rd.FitsAll
  rcases h with ⟨h, he⟩ | h
  · left
    rw [ha.content.2, ha.ends]
    exact ⟨by rw [h]; simp, he⟩
  · right
    have := Rd.Fits.right (.inr h) ha
    rw [ha.content.2, ha.ends]
    refine ⟨?_, h.2⟩
    obtain ⟨t, h⟩ := h.1
    refine ⟨t, ?_⟩
    have := congrArg (List.drop a.length) h
    rw [List.drop_append_of_le_length ha.content.1] at this
    simpa using this

theorem Rd.FitsAll.adv {bs : Bytes} {r r' : Rd} (h : r.FitsAll bs) (ha : Rd.Adv bs.length r r') :
    r.content = bs := by
  rcases h with h | h
  · exact h.1
  · exact h.1.eq_of_length_le ha.content.1

theorem Rd.MayEnd.error {F e : Err} {r : Rd} (h : r.MayEnd F e) (he : ¬ r.Ends) : e = F :=
  h.resolve_right fun h => he h.2

theorem Rd.Fits.error {F : Err} {bs : Bytes} {r : Rd} (hr : r.OkB F) (h : r.Fits bs)
    (hl : r.content.length < bs.length) : ¬ r.Ends ∧ F ≠ .eof := by
  have : ¬ r.Ends := by
    rcases h with h | h
    · have := h.length_le; omega
    · exact h.2
  exact ⟨this, fun h => this (by subst h; exact hr.ends)⟩

theorem Out.Gets.clean {r : Rd} {bs : Bytes} {s' : σ} {o : Out σ} (h : o.Gets .eof r bs s') :
    ∃ r', o = ⟨s', bs.length, none, r'⟩ ∧ Rd.Adv bs.length r r' ∧ r'.Ok .eof := by
  rcases h with h | ⟨r', h1, h2, h3⟩
  · exact absurd rfl h.1
  · exact ⟨r', h1, h2, h3.ok⟩

theorem Reads.clean {st : Step σ} {s s' : σ} {bs : Bytes} (h : Reads st s bs s') (r : Rd) (tail : Bytes)
    (hr : r.Ok .eof) (hc : r.content = bs ++ tail) :
    ∃ r', st s r = ⟨s', bs.length, none, r'⟩ ∧ Rd.Adv bs.length r r' ∧ r'.Ok .eof :=
  (h.run .eof r hr.okB (.of hc)).clean

theorem ReadsAll.clean {st : Step σ} {s s' : σ} {bs : Bytes} (h : ReadsAll st s bs s') (r : Rd)
    (hr : r.Ok .eof) (hc : r.content = bs) :
    ∃ r', st s r = ⟨s', bs.length, none, r'⟩ ∧ Rd.Adv bs.length r r' ∧ r'.Ok .eof :=
  (h.run .eof r hr.okB (.of hr hc)).clean

/-- On a stream that does not break, `Reads` is a statement about the value. -/
instance {st : Step σ} {s s' : σ} {bs : Bytes} : CoeFun (Reads st s bs s') (fun _ => ∀ r tail, r.Ok .eof →
    r.content = bs ++ tail →
    ∃ r', st s r = ⟨s', bs.length, none, r'⟩ ∧ Rd.Adv bs.length r r' ∧ r'.Ok .eof) := ⟨Reads.clean⟩

instance {st : Step σ} {s s' : σ} {bs : Bytes} : CoeFun (ReadsAll st s bs s') (fun _ => ∀ r, r.Ok .eof →
    r.content = bs →
    ∃ r', st s r = ⟨s', bs.length, none, r'⟩ ∧ Rd.Adv bs.length r r' ∧ r'.Ok .eof) := ⟨ReadsAll.clean⟩

theorem Reads.all {st : Step σ} {s s' : σ} {bs : Bytes} (h : Reads st s bs s') :
    ReadsAll st s bs s' := ⟨fun F r hr hf => h.run F r hr hf.fits⟩

theorem Out.Gets.nil {F : Err} {r : Rd} {s : σ} (hr : r.OkB F) : Out.Gets F r [] s ⟨s, 0, none, r⟩ :=
  .inr ⟨r, rfl, Rd.Adv.refl _, hr⟩

theorem Reads.nil {s : σ} : Reads (Enc.readFrom []) s [] s := ⟨fun _ _ hr _ => .nil hr⟩

/-- The step maps the outcome of another one. -/
theorem Out.Gets.map {F : Err} {r : Rd} {bs : Bytes} {x : τ} {f : τ → σ} {o : Out τ} (h : o.Gets F r bs x) :
    Out.Gets F r bs (f x) ⟨f o.val, o.n, o.err, o.rd⟩ := by
  rcases h with h | ⟨r', h1, h2, h3⟩
  · exact .inl h
  · exact .inr ⟨r', by rw [h1], h2, h3⟩

/-- One outcome after another. -/
theorem Out.Gets.seq {F : Err} {r : Rd} {a b : Bytes} {s1 s2 : σ} {o : Out σ} {p : Nat → σ → Rd → Out σ}
    (h1 : o.Gets F r a s1)
    (h2 : ∀ r1, Rd.Adv a.length r r1 → r1.OkB F → (p a.length s1 r1).Gets F r1 b s2) :
    Out.Gets F r (a ++ b) s2 (match (generalizing := false) o with
      | ⟨s', n, some e, r'⟩ => ⟨s', n, some e, r'⟩
      | ⟨s', n, none, r'⟩ => ⟨(p n s' r').val, n + (p n s' r').n, (p n s' r').err, (p n s' r').rd⟩) := by
  rcases h1 with h | ⟨r1, e1, a1, o1⟩
  · rcases o with ⟨v, n, e, r1⟩
    obtain ⟨hF, h⟩ := h
    simp only at h; subst h
    exact .inl ⟨hF, rfl⟩
  · subst e1
    rcases h2 r1 a1 o1 with h | ⟨r2, e2, a2, o2⟩
    · exact .inl h
    · refine .inr ⟨r2, by simp [e2], ?_, o2⟩
      rw [List.length_append]; exact a1.trans a2

theorem Reads.cons {st : Step σ} {t : List (Step σ)} {s s1 s2 : σ} {b1 b2 : Bytes}
    (h1 : Reads st s b1 s1) (h2 : Reads (Enc.readFrom t) s1 b2 s2) :
    Reads (Enc.readFrom (st :: t)) s (b1 ++ b2) s2 :=
  ⟨fun F r hr hf => Out.Gets.seq (p := fun _ => Enc.readFrom t) (h1.run F r hr hf.left)
    fun r1 a1 o1 => h2.run F r1 o1 (hf.right a1)⟩

theorem ReadsAll.cons {st : Step σ} {t : List (Step σ)} {s s1 s2 : σ} {b1 b2 : Bytes}
    (h1 : Reads st s b1 s1) (h2 : ReadsAll (Enc.readFrom t) s1 b2 s2) :
    ReadsAll (Enc.readFrom (st :: t)) s (b1 ++ b2) s2 :=
  ⟨fun F r hr hf => Out.Gets.seq (p := fun _ => Enc.readFrom t) (h1.run F r hr hf.fits.left)
    fun r1 a1 o1 => h2.run F r1 o1 (hf.right a1)⟩

theorem Reads.last {st : Step σ} {s s1 : σ} {b1 : Bytes}
    (h1 : Reads st s b1 s1) : Reads (Enc.readFrom [st]) s b1 s1 := by
  have := Reads.cons (t := []) h1 Reads.nil
  simpa using this

theorem ReadsAll.last {st : Step σ} {s s1 : σ} {b1 : Bytes}
    (h1 : ReadsAll st s b1 s1) : ReadsAll (Enc.readFrom [st]) s b1 s1 := by
  refine ⟨fun F r hr hf => ?_⟩
  have := Out.Gets.seq (p := fun _ => Enc.readFrom []) (b := []) (s2 := s1) (h1.run F r hr hf)
    fun r1 _ o1 => .nil o1
  rw [List.append_nil] at this
  exact this

theorem Reads.bin {k : Nat} {set : Bytes → σ → σ} {s : σ} {b : Bytes} (hb : b.length = k) :
    Reads (Enc.bin k set) s b (set b s) := by
  refine ⟨fun F r hr hf => ?_⟩
  rcases readFull_specB F k r hr with ⟨hk, r', h1, h2, h3⟩ | ⟨hk, e, r', h1, h2, h3⟩
  · have ht : r.content.take k = b := by
      rcases hf with ⟨t, h⟩ | ⟨h, _⟩
      · rw [← h, ← hb]; simp
      · rw [← hb, ← h.eq_of_length_le (by omega)]; simp
    exact .inr ⟨r', by simp [Enc.bin, h1, ht, hb], by rw [hb]; exact h2, h3⟩
  · obtain ⟨he, hF⟩ := hf.error hr (by omega)
    have := h2.error he
    subst this
    exact .inl ⟨hF, by simp [Enc.bin, h1, shortErr, hF]⟩

theorem Reads.num {α : Type} [Wire α] {set : α → σ → σ} {s : σ} (x : α) :
    Reads (Enc.num set) s (be x) (set x s) := by
  have := Reads.bin (k := Wire.size α) (set := fun b s => set (ofBE α b) s) (s := s)
    (b := be x) (by simp)
  simpa [Enc.num] using this

theorem Reads.skip {k : Nat} {s : σ} {b : Bytes} (hb : b.length = k) :
    Reads (Enc.skip k) s b s := Reads.bin (set := fun _ s => s) hb

theorem Reads.sub {get : σ → τ} {set : τ → σ → σ} {st : Step τ} {s : σ} {x : τ} {b : Bytes}
    (h : Reads st (get s) b x) : Reads (Enc.sub get set st) s b (set x s) :=
  ⟨fun F r hr hf => (h.run F r hr hf).map (f := fun x => set x s)⟩

theorem ReadsAll.sub {get : σ → τ} {set : τ → σ → σ} {st : Step τ} {s : σ} {x : τ} {b : Bytes}
    (h : ReadsAll st (get s) b x) : ReadsAll (Enc.sub get set st) s b (set x s) :=
  ⟨fun F r hr hf => (h.run F r hr hf).map (f := fun x => set x s)⟩

theorem Reads.subVal {get : σ → τ} {st : Step τ} {s : σ} {x : τ} {b : Bytes}
    (h : Reads st (get s) b x) : Reads (Enc.subVal get st) s b s :=
  ⟨fun F r hr hf => (h.run F r hr hf).map (f := fun _ => s)⟩

theorem ReadsAll.subVal {get : σ → τ} {st : Step τ} {s : σ} {x : τ} {b : Bytes}
    (h : ReadsAll st (get s) b x) : ReadsAll (Enc.subVal get st) s b s :=
  ⟨fun F r hr hf => (h.run F r hr hf).map (f := fun _ => s)⟩

theorem Reads.andThen {st : Step σ} {f : Nat → Step σ} {s s1 s2 : σ} {b1 b2 : Bytes}
    (h1 : Reads st s b1 s1) (h2 : Reads (f b1.length) s1 b2 s2) :
    Reads (Enc.andThen st f) s (b1 ++ b2) s2 :=
  ⟨fun F r hr hf => Out.Gets.seq (p := f) (h1.run F r hr hf.left)
    fun r1 a1 o1 => h2.run F r1 o1 (hf.right a1)⟩

theorem Reads.dyn {f : σ → Step σ} {s s' : σ} {b : Bytes} (h : Reads (f s) s b s') :
    Reads (Enc.dyn f) s b s' := ⟨h.run⟩

theorem ReadsAll.dyn {f : σ → Step σ} {s s' : σ} {b : Bytes} (h : ReadsAll (f s) s b s') :
    ReadsAll (Enc.dyn f) s b s' := ⟨h.run⟩

theorem Reads.assign {f : σ → σ} {s : σ} : Reads (Enc.assign f) s [] (f s) := ⟨fun _ _ hr _ => .nil hr⟩

theorem Reads.assignCons {f : σ → σ} {t : List (Step σ)} {s s' : σ} {b : Bytes}
    (h : Reads (Enc.readFrom t) (f s) b s') : Reads (Enc.readFrom (Enc.assign f :: t)) s b s' := by
  have := Reads.cons (t := t) (Reads.assign (f := f) (s := s)) h
  simpa using this

theorem ReadsAll.assignCons {f : σ → σ} {t : List (Step σ)} {s s' : σ} {b : Bytes}
    (h : ReadsAll (Enc.readFrom t) (f s) b s') :
    ReadsAll (Enc.readFrom (Enc.assign f :: t)) s b s' := by
  have := ReadsAll.cons (t := t) (Reads.assign (f := f) (s := s)) h
  simpa using this

/-- A trailing step followed by steps that consume nothing. -/
theorem Reads.consNil {st : Step σ} {t : List (Step σ)} {s s1 s2 : σ} {b : Bytes}
    (h1 : Reads st s b s1) (h2 : Reads (Enc.readFrom t) s1 [] s2) :
    Reads (Enc.readFrom (st :: t)) s b s2 := by
  have := Reads.cons (t := t) h1 h2
  simpa using this

theorem Reads.withLocal {l : Type} {init l' : l} {st : Step (σ × l)} {s s' : σ} {b : Bytes}
    (h : Reads st (s, init) b (s', l')) : Reads (Enc.withLocal init st) s b s' :=
  ⟨fun F r hr hf => (h.run F r hr hf).map (f := fun x => x.1)⟩

theorem ReadsAll.withLocal {l : Type} {init l' : l} {st : Step (σ × l)} {s s' : σ} {b : Bytes}
    (h : ReadsAll st (s, init) b (s', l')) : ReadsAll (Enc.withLocal init st) s b s' :=
  ⟨fun F r hr hf => (h.run F r hr hf).map (f := fun x => x.1)⟩

theorem Reads.always {f : σ → σ} {st : Step σ} {s s' : σ} {b : Bytes} (h : Reads st s b s') :
    Reads (Enc.always f st) s b (f s') := ⟨fun F r hr hf => (h.run F r hr hf).map⟩

/-- What `Reads` says about streams that do not break.  Some decoders do not report that a
stream broke. -/
def ReadsC (st : Step σ) (s : σ) (bs : Bytes) (s' : σ) : Prop :=
  ∀ r tail, r.Ok .eof → r.content = bs ++ tail →
    ∃ r', st s r = ⟨s', bs.length, none, r'⟩ ∧ Rd.Adv bs.length r r' ∧ r'.Ok .eof

/-- What `ReadsAll` says about streams that do not break. -/
def ReadsAllC (st : Step σ) (s : σ) (bs : Bytes) (s' : σ) : Prop :=
  ∀ r, r.Ok .eof → r.content = bs →
    ∃ r', st s r = ⟨s', bs.length, none, r'⟩ ∧ Rd.Adv bs.length r r' ∧ r'.Ok .eof

theorem ReadsC.withLocal {l : Type} {init l' : l} {st : Step (σ × l)} {s s' : σ} {b : Bytes}
    (h : ReadsC st (s, init) b (s', l')) : ReadsC (Enc.withLocal init st) s b s' := by
  intro r tail hr hc
  obtain ⟨r1, e1, a1, o1⟩ := h r tail hr hc
  exact ⟨r1, by simp [Enc.withLocal, e1], a1, o1⟩

theorem ReadsAllC.withLocal {l : Type} {init l' : l} {st : Step (σ × l)} {s s' : σ} {b : Bytes}
    (h : ReadsAllC st (s, init) b (s', l')) : ReadsAllC (Enc.withLocal init st) s b s' := by
  intro r hr hc
  obtain ⟨r1, e1, a1, o1⟩ := h r hr hc
  exact ⟨r1, by simp [Enc.withLocal, e1], a1, o1⟩

theorem readFrom_ignoreErr {st : Step σ} {t : List (Step σ)} {s : σ} {r : Rd}
    (h : (Enc.readFrom (st :: t) s r).err = none) :
    Enc.readFrom (Enc.ignoreErr st :: t) s r = Enc.readFrom (st :: t) s r := by
  rcases ho : st s r with ⟨v, n, e, r1⟩
  cases e with
  | none => simp [Enc.readFrom, Enc.ignoreErr, ho]
  | some e => simp [Enc.readFrom, ho] at h

/-- The error of a step that succeeds may be ignored. -/
theorem ReadsC.ignoreErr {st : Step σ} {t : List (Step σ)} {s s' : σ} {b : Bytes}
    (h : Reads (Enc.readFrom (st :: t)) s b s') : ReadsC (Enc.readFrom (Enc.ignoreErr st :: t)) s b s' := by
  intro r tail hr hc
  obtain ⟨r1, e1, a1, o1⟩ := h.clean r tail hr hc
  exact ⟨r1, by rw [readFrom_ignoreErr (by rw [e1]), e1], a1, o1⟩

theorem ReadsAllC.ignoreErr {st : Step σ} {t : List (Step σ)} {s s' : σ} {b : Bytes}
    (h : ReadsAll (Enc.readFrom (st :: t)) s b s') :
    ReadsAllC (Enc.readFrom (Enc.ignoreErr st :: t)) s b s' := by
  intro r hr hc
  obtain ⟨r1, e1, a1, o1⟩ := h.clean r hr hc
  exact ⟨r1, by rw [readFrom_ignoreErr (by rw [e1]), e1], a1, o1⟩

theorem Reads.wrap {f : τ → σ} {st : Step τ} {dec : Step σ} {s : σ} {t t' : τ} {b : Bytes}
    (h : Reads st t b t') (he : ∀ r, dec s r = Enc.wrap f st t r) : Reads dec s b (f t') :=
  ⟨fun F r hr hf => by rw [he]; exact (h.run F r hr hf).map⟩

theorem Rd.Adv.unlimit {k n : Nat} {r r' : Rd} (h : Rd.Adv k (.lim n r) r') :
    Rd.Adv k r r'.unlimit := by
  cases r' <;> simp only [Rd.Adv] at h
  exact h.2.2

theorem Rd.Ok.unlimit {F : Err} {k n : Nat} {r r' : Rd} (ha : Rd.Adv k (.lim n r) r')
    (h : r'.Ok F) : r'.unlimit.Ok F := by
  cases r' <;> simp only [Rd.Adv] at ha
  simp only [Rd.Ok] at h; exact h.2

theorem Rd.OkB.unlimit {F : Err} {k n : Nat} {r r' : Rd} (ha : Rd.Adv k (.lim n r) r')
    (h : r'.OkB F) : r'.unlimit.OkB F := by
  cases r' <;> simp only [Rd.Adv] at ha
  exact h

theorem Rd.Fits.lim {bs : Bytes} {r : Rd} (h : r.Fits bs) : (Rd.lim bs.length r).FitsAll bs := by
  by_cases hl : bs.length ≤ r.content.length
  · left
    refine ⟨?_, .inl hl⟩
    simp only [Rd.content]
    rcases h with ⟨t, h⟩ | h
    · rw [← h]; simp
    · rw [h.1.eq_of_length_le hl]; simp
  · right
    rcases h with h | h
    · exact absurd h.length_le hl
    · refine ⟨?_, fun he => he.elim hl h.2⟩
      simp only [Rd.content]
      rw [List.take_of_length_le (by omega)]; exact h.1

theorem Out.Gets.unlimit {F : Err} {n : Nat} {r : Rd} {bs : Bytes} {s' : σ} {o : Out σ}
    (h : o.Gets F (.lim n r) bs s') : Out.Gets F r bs s' ⟨o.val, o.n, o.err, o.rd.unlimit⟩ := by
  rcases h with h | ⟨r', h1, h2, h3⟩
  · exact .inl h
  · exact .inr ⟨r'.unlimit, by rw [h1], h2.unlimit, h3.unlimit h2⟩

theorem Reads.limited {n : Nat} {st : Step σ} {s s' : σ} {b : Bytes} (h : ReadsAll st s b s')
    (hn : n = b.length) : Reads (Enc.limited n st) s b s' := by
  subst hn
  exact ⟨fun F r hr hf => (h.run F (.lim b.length r) hr hf.lim).unlimit⟩

theorem Rd.FitsAll.end {F e : Err} {bs : Bytes} {r : Rd} (h : r.FitsAll bs) (hr : r.OkB F)
    (hm : r.MayEnd F e) : (F ≠ .eof ∧ skipEOF e = some F) ∨ (r.content = bs ∧ skipEOF e = none) := by
  by_cases hF : F = .eof
  · subst hF
    right
    rcases h with h | h
    · exact ⟨h.1, by rcases hm with h | h <;> simp [h, skipEOF]⟩
    · exact absurd hr.ends h.2
  · rcases hm with rfl | ⟨rfl, he⟩
    · left; exact ⟨hF, by simp [skipEOF]⟩
    · right
      rcases h with h | h
      · exact ⟨h.1, rfl⟩
      · exact absurd he h.2

theorem ReadsAll.rest {set : Bytes → σ → σ} {s : σ} (b : Bytes) :
    ReadsAll (Enc.rest set) s b (set b s) := by
  refine ⟨fun F r hr hf => ?_⟩
  obtain ⟨e, r', h1, h2, h3, h4⟩ := readAll_specB F r hr
  rcases hf.end hr h2 with ⟨hF, he⟩ | ⟨hc, he⟩
  · exact .inl ⟨hF, by simp [Enc.rest, h1, he]⟩
  · subst hc; exact .inr ⟨r', by simp [Enc.rest, h1, he], h3, h4⟩

theorem ReadsAll.rest0 {set : Bytes → σ → σ} {s : σ} (b : Bytes) :
    ReadsAll (Enc.rest0 set) s b (set b s) := by
  refine ⟨fun F r hr hf => ?_⟩
  obtain ⟨e, r', h1, h2, h3, h4⟩ := readAll_specB F r hr
  rcases hf.end hr h2 with ⟨hF, he⟩ | ⟨hc, he⟩
  · exact .inl ⟨hF, by simp [Enc.rest0, h1, he]⟩
  · subst hc; exact .inr ⟨r', by simp [Enc.rest0, h1, he], h3, h4⟩

/-! ### ReadFunc -/

/-- On a reader that has nothing left, the step fails with an error the reader can end with. -/
def EndsEmpty (st : Step τ) (zero : τ) : Prop := ∀ F (r : Rd), r.OkB F → r.content = [] →
  ∃ s e r', st zero r = ⟨s, 0, some e, r'⟩ ∧ r.MayEnd F e ∧ Rd.Adv 0 r r' ∧ r'.OkB F

theorem EndsEmpty.clean {st : Step τ} {zero : τ} (h : EndsEmpty st zero) (r : Rd) (hr : r.Ok .eof)
    (hc : r.content = []) : ∃ s r', st zero r = ⟨s, 0, some .eof, r'⟩ ∧ Rd.Adv 0 r r' ∧ r'.Ok .eof := by
  obtain ⟨s, e, r', h1, h2, h3, h4⟩ := h .eof r hr.okB hc
  have : e = .eof := h2.elim id (·.1)
  subst this
  exact ⟨s, r', h1, h3, h4.ok⟩

theorem readFuncLoop_reads {ι : Type} {zero : τ} {st : Step τ} {enc : ι → Bytes} {val : ι → τ} (xs : List ι)
    (h : ∀ x ∈ xs, Reads st zero (enc x) (val x)) (hpos : ∀ x ∈ xs, 0 < (enc x).length)
    (hend : EndsEmpty st zero) (F : Err) :
    ∀ (fuel : Nat) (acc : List τ) (n : Nat) (r : Rd), r.OkB F →
      r.FitsAll (xs.flatMap enc) → r.content.length < fuel →
      (F ≠ .eof ∧ (Enc.readFuncLoop zero st fuel acc n r).err = some F) ∨
      ∃ r', Enc.readFuncLoop zero st fuel acc n r =
          ⟨acc ++ xs.map val, n + (xs.flatMap enc).length, none, r'⟩ ∧
        Rd.Adv (xs.flatMap enc).length r r' ∧ r'.OkB F := by
  induction xs with
  | nil =>
    intro fuel acc n r hr hf hl
    cases fuel with
    | zero => omega
    | succ fuel =>
      have hc : r.content = [] := by
        rcases hf with h | h
        · exact h.1
        · simpa using h.1
      obtain ⟨s, e, r', h1, h2, h3, h4⟩ := hend F r hr hc
      rcases hf.end hr h2 with ⟨hF, he⟩ | ⟨_, he⟩
      · exact .inl ⟨hF, by simp [Enc.readFuncLoop, h1, he]⟩
      · exact .inr ⟨r', by simp [Enc.readFuncLoop, h1, he], by simpa using h3, h4⟩
  | cons x xs ih =>
    intro fuel acc n r hr hf hl
    cases fuel with
    | zero => omega
    | succ fuel =>
      have hx := hpos x (by simp)
      rw [List.flatMap_cons] at hf
      rcases (h x (by simp)).run F r hr hf.fits.left with ⟨hF, he⟩ | ⟨r1, e1, a1, o1⟩
      · rcases hst : st zero r with ⟨v, k, e, r1⟩
        rw [hst] at he
        simp only at he; subst he
        exact .inl ⟨hF, by simp [Enc.readFuncLoop, hst, skipEOF]⟩
      · have hl1 : r1.content.length < fuel := by
          have := a1.content.1
          rw [a1.content.2, List.length_drop]; omega
        rcases ih (fun y hy => h y (by simp [hy])) (fun y hy => hpos y (by simp [hy])) fuel
          (acc ++ [val x]) (n + (enc x).length) r1 o1 (hf.right a1) hl1 with ⟨hF, he⟩ | ⟨r2, e2, a2, o2⟩
        · exact .inl ⟨hF, by simp [Enc.readFuncLoop, e1, he]⟩
        · refine .inr ⟨r2, ?_, ?_, o2⟩
          · simp [Enc.readFuncLoop, e1, e2, Nat.add_assoc]
          · simpa using a1.trans a2

/-- `encoding.ReadFunc` decodes a sequence of element encodings, on any reader. -/
theorem readFunc_reads' {ι : Type} {zero : τ} {st : Step τ} {enc : ι → Bytes} {val : ι → τ} (xs : List ι)
    (h : ∀ x ∈ xs, Reads st zero (enc x) (val x)) (hpos : ∀ x ∈ xs, 0 < (enc x).length)
    (hend : EndsEmpty st zero) (F : Err)
    (r : Rd) (hr : r.OkB F) (hf : r.FitsAll (xs.flatMap enc)) :
    (Enc.readFunc zero st r).Gets F r (xs.flatMap enc) (xs.map val) := by
  have := readFuncLoop_reads xs h hpos hend F (r.content.length + 1) [] 0 r hr hf (by omega)
  simpa [Enc.readFunc, Out.Gets] using this

theorem readFunc_reads {zero : τ} {st : Step τ} {enc : τ → Bytes} (xs : List τ)
    (h : ∀ x ∈ xs, Reads st zero (enc x) x) (hpos : ∀ x ∈ xs, 0 < (enc x).length)
    (hend : EndsEmpty st zero) (F : Err)
    (r : Rd) (hr : r.OkB F) (hf : r.FitsAll (xs.flatMap enc)) :
    (Enc.readFunc zero st r).Gets F r (xs.flatMap enc) xs := by
  simpa using readFunc_reads' (val := fun x => x) xs h hpos hend F r hr hf

/-- `encoding.ReadSliceFrom` reads the elements and keeps none of them. -/
theorem ReadsAll.readSliceFrom {ι : Type} {zero : τ} {st : Step τ} {enc : ι → Bytes} {val : ι → τ}
    (s : List τ) (xs : List ι)
    (h : ∀ x ∈ xs, Reads st zero (enc x) (val x)) (hpos : ∀ x ∈ xs, 0 < (enc x).length)
    (hend : EndsEmpty st zero) :
    ReadsAll (Enc.readSliceFrom zero st) s (xs.flatMap enc) s :=
  ⟨fun F r hr hf => (readFunc_reads' xs h hpos hend F r hr hf).map (f := fun _ => s)⟩

/-- A record that begins with a fixed-size field reports the end of an empty input. -/
theorem readFrom_eof {k : Nat} {set : Bytes → σ → σ} {t : List (Step σ)} (hk : 0 < k) (s : σ) :
    EndsEmpty (Enc.readFrom (Enc.bin k set :: t)) s := by
  intro F r hr hc
  rcases readFull_specB F k r hr with ⟨h, _⟩ | ⟨_, e, r', h1, h0, h2, h3⟩
  · rw [hc] at h; simp at h; omega
  · refine ⟨s, e, r', ?_, h0, by simpa [hc] using h2, h3⟩
    simp [Enc.readFrom, Enc.bin, h1, hc, shortErr]

theorem EndsEmpty.always {f : σ → σ} {st : Step σ} {s : σ} (h : EndsEmpty st s) :
    EndsEmpty (Enc.always f st) s := by
  intro F r hr hc
  obtain ⟨s', e, r', h1, h2, h3, h4⟩ := h F r hr hc
  exact ⟨f s', e, r', by simp [Enc.always, h1], h2, h3, h4⟩

theorem EndsEmpty.assignCons {f : σ → σ} {t : List (Step σ)} {s : σ} (h : EndsEmpty (Enc.readFrom t) (f s)) :
    EndsEmpty (Enc.readFrom (Enc.assign f :: t)) s := by
  intro F r hr hc
  obtain ⟨s', e, r', h1, h2, h3, h4⟩ := h F r hr hc
  exact ⟨s', e, r', by simp [Enc.readFrom, Enc.assign, h1], h2, h3, h4⟩

theorem EndsEmpty.withLocal {l : Type} {init : l} {st : Step (σ × l)} {s : σ} (h : EndsEmpty st (s, init)) :
    EndsEmpty (Enc.withLocal init st) s := by
  intro F r hr hc
  obtain ⟨s', e, r', h1, h2, h3, h4⟩ := h F r hr hc
  exact ⟨s'.1, e, r', by simp [Enc.withLocal, h1], h2, h3, h4⟩

/-! ### ScanFrom -/

theorem Rd.Adv.isBuf {k : Nat} {b : Bytes} {e : Option Err} {r r' : Rd}
    (h : Rd.Adv k (.buf b e r) r') : ∃ b' e' r0, r' = .buf b' e' r0 := by
  cases r' <;> simp only [Rd.Adv] at h
  exact ⟨_, _, _, rfl⟩

theorem Rd.FitsAll.adv0 {bs : Bytes} {r r' : Rd} (h : r.FitsAll bs) (ha : Rd.Adv 0 r r') : r'.FitsAll bs :=
  Rd.FitsAll.right (a := []) h ha

theorem scanLoop_reads {ι : Type} {mk : UInt16 → Except Err τ} {st : Step τ} {enc : ι → Bytes}
    {val zero : ι → τ} {code : ι → UInt16} (xs : List ι)
    (h : ∀ x ∈ xs, Reads st (zero x) (enc x) (val x))
    (hmk : ∀ x ∈ xs, mk (code x) = .ok (zero x))
    (hcode : ∀ x ∈ xs, ∃ t, enc x = be (code x) ++ t) (F : Err) :
    ∀ (fuel : Nat) (acc : List τ) (n : Nat) (b : Bytes) (e : Option Err) (r0 : Rd),
      (Rd.buf b e r0).OkB F → (Rd.buf b e r0).FitsAll (xs.flatMap enc) →
      (Rd.buf b e r0).content.length < fuel →
      (F ≠ .eof ∧ (Enc.scanLoop mk st fuel acc n (.buf b e r0)).err = some F) ∨
      ∃ r', Enc.scanLoop mk st fuel acc n (.buf b e r0) =
          ⟨acc ++ xs.map val, n + (xs.flatMap enc).length, none, r'⟩ ∧
        Rd.Adv (xs.flatMap enc).length (.buf b e r0) r' ∧ r'.OkB F := by
  induction xs with
  | nil =>
    intro fuel acc n b e r0 hr hf hl
    cases fuel with
    | zero => omega
    | succ fuel =>
      have hc0 : (Rd.buf b e r0).content = [] := by
        rcases hf with h | h
        · exact h.1
        · simpa using h.1
      obtain ⟨b', e', r', h1, h2, h3 | ⟨_, e0, h3, h4⟩⟩ := peek2_specB F b e r0 hr
      · rw [hc0] at h3; simp at h3
      · rcases hf.end hr h3 with ⟨hF, he⟩ | ⟨_, he⟩
        · exact .inl ⟨hF, by simp [Enc.scanLoop, h4, he]⟩
        · exact .inr ⟨.buf b' e' r', by simp [Enc.scanLoop, h4, he], by simpa using h1, h2⟩
  | cons x xs ih =>
    intro fuel acc n b e r0 hr hf hl
    cases fuel with
    | zero => omega
    | succ fuel =>
      obtain ⟨t, ht⟩ := hcode x (by simp)
      have hlen : 2 ≤ (enc x).length := by rw [ht]; simp
      rw [List.flatMap_cons] at hf
      obtain ⟨b', e', r', h1, h2, h3 | ⟨h5, e0, h3, h4⟩⟩ := peek2_specB F b e r0 hr
      · have htk : (Rd.buf b e r0).content.take 2 = be (code x) := by
          have hp : (Rd.buf b e r0).content.take 2 = (enc x ++ xs.flatMap enc).take 2 := by
            rcases hf with hf | ⟨⟨u, hf⟩, _⟩
            · rw [hf.1]
            · rw [← hf, List.take_append_of_le_length h3.1]
          rw [hp, ht]
          simp only [List.append_assoc]
          rw [List.take_append_of_le_length (by simp), List.take_of_length_le (by simp)]
        have hf' := hf.adv0 h1
        rcases (h x (by simp)).run F (.buf b' e' r') h2 hf'.fits.left with ⟨hF, he⟩ | ⟨r1, e1, a1, o1⟩
        · rcases hst : st (zero x) (.buf b' e' r') with ⟨v, k, e1, r1⟩
          rw [hst] at he
          simp only at he; subst he
          refine .inl ⟨hF, ?_⟩
          simp only [Enc.scanLoop, h3.2, htk, ofBE_be, hmk x (by simp), hst]
          simp [skipEOF]
        · obtain ⟨b2, e2, r2, hb2⟩ := a1.isBuf
          subst hb2
          have hl2 : (Rd.buf b2 e2 r2).content.length < fuel := by
            rw [(h1.trans a1).content.2, List.length_drop]; omega
          rcases ih (fun y hy => h y (by simp [hy]))
            (fun y hy => hmk y (by simp [hy])) (fun y hy => hcode y (by simp [hy]))
            fuel (acc ++ [val x]) (n + (enc x).length) b2 e2 r2 o1 (hf'.right a1) hl2
            with ⟨hF, he⟩ | ⟨r3, e3, a3, o3⟩
          · refine .inl ⟨hF, ?_⟩
            simp only [Enc.scanLoop, h3.2, htk, ofBE_be, hmk x (by simp), e1, he]
          · refine .inr ⟨r3, ?_, ?_, o3⟩
            · simp only [Enc.scanLoop, h3.2, htk, ofBE_be, hmk x (by simp), e1, e3]
              simp [Nat.add_assoc]
            · have := (h1.trans a1).trans a3
              simpa using this
      · obtain ⟨he, hF⟩ := hf.fits.error hr (by rw [List.length_append]; omega)
        have := h3.error he
        subst this
        exact .inl ⟨hF, by simp [Enc.scanLoop, h4, skipEOF]⟩

theorem unwrapBuf_all {k : Nat} {r r' : Rd} (h : Rd.Adv k r.wrapBuf r') (hk : k = r.content.length) :
    Rd.Adv k r (r.unwrapBuf r') := by
  have aux : ∀ (q : Rd), (∀ b e r0, q ≠ .buf b e r0) → Rd.Adv q.content.length (.buf [] none q) r' →
      ∃ b' e' r0', r' = .buf b' e' r0' ∧ Rd.Adv q.content.length q r0' := by
    intro q _ h
    cases r' <;> simp only [Rd.Adv] at h
    obtain ⟨h1, h2, j, h3⟩ := h
    simp at h2
    have hj := h3.content
    rw [h2.2] at hj
    have : q.content.length ≤ j := by
      have h0 := congrArg List.length hj.2
      simp at h0; omega
    have hj' : j = q.content.length := by omega
    subst hj'
    exact ⟨_, _, _, rfl, h3⟩
  cases r with
  | buf b e r0 =>
    obtain ⟨b', e', r1, hr'⟩ := Rd.Adv.isBuf h
    subst hr'; exact h
  | src d s f t =>
    subst hk
    obtain ⟨b', e', r0', h1, h2⟩ := aux (.src d s f t) (by simp) h
    subst h1; exact h2
  | lim n r =>
    subst hk
    obtain ⟨b', e', r0', h1, h2⟩ := aux (.lim n r) (by simp) h
    subst h1; exact h2

theorem Rd.Ok.wrapBuf {F : Err} {r : Rd} (h : r.Ok F) : r.wrapBuf.Ok F := by
  cases r with
  | lim n r => exact ⟨h, .inl rfl⟩
  | src => simpa [Rd.wrapBuf, Rd.Ok] using h
  | buf => exact h

theorem Rd.content_wrapBuf (r : Rd) : r.wrapBuf.content = r.content := by
  cases r <;> simp [Rd.wrapBuf, Rd.content]

theorem Rd.wrapBuf_isBuf (r : Rd) : ∃ b e r0, r.wrapBuf = .buf b e r0 := by
  cases r <;> simp [Rd.wrapBuf]

theorem Rd.Ok.unwrapBuf {F : Err} {r r' : Rd} (h : r'.Ok F) : (r.unwrapBuf r').Ok F := by
  cases r' with
  | buf b e r0 =>
    cases r <;> simp_all [Rd.unwrapBuf, Rd.Ok]
  | src => simpa [Rd.unwrapBuf] using h
  | lim => simpa [Rd.unwrapBuf] using h

theorem Rd.OkB.wrapBuf {F : Err} {r : Rd} (h : r.OkB F) : r.wrapBuf.OkB F := by
  cases r with
  | lim n r => exact ⟨h, .inl rfl⟩
  | src => simpa [Rd.wrapBuf, Rd.OkB] using h
  | buf => exact h

theorem Rd.OkB.unwrapBuf {F : Err} {r r' : Rd} (h : r'.OkB F) : (r.unwrapBuf r').OkB F := by
  cases r' with
  | buf b e r0 =>
    cases r <;> simp_all [Rd.unwrapBuf, Rd.OkB]
  | src => simpa [Rd.unwrapBuf] using h
  | lim => simpa [Rd.unwrapBuf] using h

theorem Rd.ends_wrapBuf (r : Rd) : r.wrapBuf.Ends ↔ r.Ends := by
  cases r <;> simp [Rd.wrapBuf, Rd.Ends]

theorem Rd.FitsAll.wrapBuf {bs : Bytes} {r : Rd} (h : r.FitsAll bs) : r.wrapBuf.FitsAll bs := by
  unfold Rd.FitsAll
  rw [Rd.content_wrapBuf, Rd.ends_wrapBuf]; exact h

/-- `encoding.ScanFrom` decodes a sequence of typed element encodings, on any reader, and
leaves the underlying reader exhausted. -/
theorem ReadsAll.scanFrom' {ι : Type} {mk : UInt16 → Except Err τ} {st : Step τ} {enc : ι → Bytes}
    {val zero : ι → τ} {code : ι → UInt16} (s : List τ) (xs : List ι)
    (h : ∀ x ∈ xs, Reads st (zero x) (enc x) (val x))
    (hmk : ∀ x ∈ xs, mk (code x) = .ok (zero x))
    (hcode : ∀ x ∈ xs, ∃ t, enc x = be (code x) ++ t) :
    ReadsAll (Enc.scanFrom mk st) s (xs.flatMap enc) (s ++ xs.map val) := by
  refine ⟨fun F r hr hf => ?_⟩
  obtain ⟨b, e, r0, hw⟩ := Rd.wrapBuf_isBuf r
  have hcw := Rd.content_wrapBuf r
  have how := hr.wrapBuf
  have hfw := hf.wrapBuf
  rw [hw] at hcw how hfw
  rcases scanLoop_reads xs h hmk hcode F (r.content.length + 1) s 0 b e r0 how hfw (by rw [hcw]; omega)
    with ⟨hF, he⟩ | ⟨r', e1, a1, o1⟩
  · exact .inl ⟨hF, by simp [Enc.scanFrom, hw, he]⟩
  · refine .inr ⟨r.unwrapBuf r', by simp [Enc.scanFrom, hw, e1], ?_, o1.unwrapBuf⟩
    have hc := hfw.adv a1
    rw [hcw] at hc
    rw [← hw] at a1
    exact unwrapBuf_all a1 (by rw [hc])

theorem ReadsAll.scanFrom {mk : UInt16 → Except Err τ} {st : Step τ} {enc : τ → Bytes}
    {zero : τ → τ} {code : τ → UInt16} (s : List τ) (xs : List τ)
    (h : ∀ x ∈ xs, Reads st (zero x) (enc x) x)
    (hmk : ∀ x ∈ xs, mk (code x) = .ok (zero x))
    (hcode : ∀ x ∈ xs, ∃ t, enc x = be (code x) ++ t) :
    ReadsAll (Enc.scanFrom mk st) s (xs.flatMap enc) (s ++ xs) := by
  simpa using ReadsAll.scanFrom' (val := fun x => x) s xs h hmk hcode

end

end Verif
