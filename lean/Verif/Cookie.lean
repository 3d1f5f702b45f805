import Verif.Mux
import Verif.Ofp.Flow
import Verif.Ofp.Packet

/-!
# cookie.go, and the cookie jars of ofp
-/

namespace Verif

/-! ## Model -/

/-- A message type that implements `CookieJar` (cookie.go:13-16) and `io.ReaderFrom`.
`zero` is the value made by `reflect.New` (cookie.go:107). -/
structure Jar (α : Type) where
  zero : α
  readFrom : Step α
  cookies : α → UInt64
  setCookies : UInt64 → α → α

/-- `CookieMatcher`, cookie.go:38-46.  `Reader` is `CookieReaderOf` of a jar; a
`CookieReader` supplied by the user is not modelled. -/
structure CookieMatcher (α : Type) where
  cookies : UInt64
  jar : Jar α

/-- `NewCookieMatcher`, cookie.go:50-65: returns the jar as it is left and the matcher.
`lo` and `hi` are the next two values of `rand.Uint32`. -/
def newCookieMatcher {α : Type} (lo hi : UInt32) (j : Jar α) (v : α) : α × CookieMatcher α :=
  let cookies : UInt64 := (hi.toUInt64 <<< 32) ||| lo.toUInt64
  (j.setCookies cookies v, ⟨cookies, j⟩)

/-- A `bytes.Buffer` with contents `b`, as a reader. -/
def bufferRd (b : Bytes) : Rd := .src b [] .eof false

/-- The function built by `CookieReaderOf`, cookie.go:103-123, applied to a buffer.  The
jar types of ofp all implement `io.ReaderFrom`, so the error of cookie.go:112-115 does not
occur.  The buffer as the decoder leaves it is dropped: the caller resets or forgets it. -/
def Jar.readCookie {α : Type} (j : Jar α) (b : Bytes) : α × Option Err :=
  let o := j.readFrom j.zero (bufferRd b)
  (o.val, o.err)

/-- `ioutil.ReadAll` on a `copyReader`: `Read` calls with room for 512 bytes until an error;
`io.EOF` is not an error.  `fuel` bounds the number of calls and is never exhausted. -/
def CopyReader.readAllLoop : Nat → CopyReader → Bytes × Option Err × CopyReader
  | 0, c => ([], some .noProgress, c)
  | fuel + 1, c =>
    match c.read 512 with
    | (o, some e, c') => (o, skipEOF e, c')
    | (o, none, c') =>
      let (o2, e2, c2) := CopyReader.readAllLoop fuel c'
      (o ++ o2, e2, c2)

def CopyReader.readAll (c : CopyReader) : Bytes × Option Err × CopyReader :=
  CopyReader.readAllLoop (c.init.rbuf.length + 2) c

/-- `ioutil.ReadAll(r.Body)`, cookie.go:81.  A nil body is a nil pointer dereference. -/
def Body.readAll : Body → Bytes × Option Err
  | .nil => ([], some .panic)
  | .buffer b => (b, none)
  | .copy c => let (o, e, _) := c.readAll; (o, e)
  | .reader r => let (o, e, _) := Verif.readAll r; (o, e)

/-- The end of `Match`, cookie.go:90-97: `none` is a panic of the decoder. -/
def CookieMatcher.decide {α : Type} (m : CookieMatcher α) (b : Bytes) : Option Bool :=
  match m.jar.readCookie b with
  | (_, some .panic) => none
  | (_, some _) => some false
  | (v, none) => some (m.jar.cookies v == m.cookies)

/-- `(f *CookieMatcher) Match`, cookie.go:72-98: `none` is a panic.  A `bytes.Buffer` body
is reset by a deferred call (cookie.go:75-78); any other body is replaced, by a deferred
call too, by a buffer with what could be read of it (cookie.go:80-88). -/
def CookieMatcher.run {α : Type} (m : CookieMatcher α) (r : Request) : Option Bool × Request :=
  match r.body with
  | .nil => (none, r)
  | .buffer b => (m.decide b, { r with body := .buffer [] })
  | body =>
    match body.readAll with
    | (b, some _) => (some false, { r with body := .buffer b })
    | (b, none) => (m.decide b, { r with body := .buffer b })

/-- The matcher as the multiplexers call it; a call that panics has no result, here it is
treated as a rejection. -/
def CookieMatcher.fn {α : Type} (m : CookieMatcher α) : MatchFn := fun r =>
  ((m.run r).1 == some true, (m.run r).2)

/-- `(p *PacketIn) Cookies`, `SetCookies`, ofp/packet.go:94-101. -/
def PacketIn.jar : Jar PacketIn :=
  ⟨⟨0, 0, 0, 0, 0, Match.zero, []⟩, PacketIn.readFrom, fun p => p.cookie,
    fun c p => { p with cookie := c }⟩

/-- `(f *FlowMod) Cookies`, `SetCookies`, ofp/flow.go:214-221. -/
def FlowMod.jar : Jar FlowMod :=
  ⟨⟨0, 0, 0, 0, 0, 0, 0, 0, 0, 0, 0, Match.zero, []⟩, FlowMod.readFrom, fun f => f.cookie,
    fun c f => { f with cookie := c }⟩

/-- `(f *FlowRemoved) Cookies`, `SetCookies`, ofp/flow.go:310-317. -/
def FlowRemoved.jar : Jar FlowRemoved :=
  ⟨⟨0, 0, 0, 0, 0, 0, 0, 0, 0, 0, Match.zero⟩, FlowRemoved.readFrom, fun f => f.cookie,
    fun c f => { f with cookie := c }⟩

/-- `(f *FlowStatsRequest) Cookies`, `SetCookies`, ofp/flow.go:381-389. -/
def FlowStatsRequest.jar : Jar FlowStatsRequest :=
  ⟨⟨0, 0, 0, 0, 0, Match.zero⟩, FlowStatsRequest.readFrom, fun f => f.cookie,
    fun c f => { f with cookie := c }⟩

/-- `(f *FlowStats) Cookies`, `SetCookies`, ofp/flow.go:450-458. -/
def FlowStats.jar : Jar FlowStats :=
  ⟨⟨0, 0, 0, 0, 0, 0, 0, 0, 0, 0, Match.zero, []⟩, FlowStats.readFrom, fun f => f.cookie,
    fun c f => { f with cookie := c }⟩

/-- `(a *AggregateStatsRequest) Cookies`, `SetCookies`, ofp/aggregate.go:54-62. -/
def AggregateStatsRequest.jar : Jar AggregateStatsRequest :=
  ⟨⟨0, 0, 0, 0, 0, Match.zero⟩, AggregateStatsRequest.readFrom, fun f => f.cookie,
    fun c f => { f with cookie := c }⟩

/-! ## Helper lemmas -/

theorem bufferRd_ok (b : Bytes) : (bufferRd b).Ok .eof := rfl

theorem CopyReader.readAllLoop_done (fuel : Nat) (c : CopyReader) (ho : c.once = true)
    (he : c.rerr = none) (hf : c.rbuf.length < fuel) :
    ∃ c', c.readAllLoop fuel = (c.rbuf, none, c') := by
  induction fuel generalizing c with
  | zero => omega
  | succ fuel ih =>
    have hi : c.init = c := by simp [CopyReader.init, ho]
    by_cases hb : c.rbuf = []
    · refine ⟨c, ?_⟩
      cases c
      simp only at *
      subst ho he hb
      simp [CopyReader.readAllLoop, CopyReader.read, CopyReader.init, bufRead, skipEOF]
    · have hr : c.read 512 = (c.rbuf.take 512, none, { c with rbuf := c.rbuf.drop 512 }) := by
        simp [CopyReader.read, he, hi, bufRead, hb]
      have hl : 0 < c.rbuf.length := List.length_pos_iff.mpr hb
      obtain ⟨c', hc⟩ := ih { c with rbuf := c.rbuf.drop 512 } ho he (by simp; omega)
      exact ⟨c', by simp [CopyReader.readAllLoop, hr, hc]⟩

/-- `ReadAll` on a fresh body of `NewRequest`: what the serialiser writes, if it does not
fail. -/
theorem CopyReader.readAll_fresh (f : Nat → Wr) (b : Bytes) (hf : (f 0).out = b)
    (he : (f 0).err = none) :
    ∃ c', (CopyReader.mk (some f) 0 [] none false).readAll = (b, none, c') := by
  have hi : (CopyReader.mk (some f) 0 [] none false).init = ⟨some f, 1, b, none, true⟩ := by
    simp [CopyReader.init, CopyReader.writeTo, hf, he]
  unfold CopyReader.readAll
  rw [hi]
  have hstep : (CopyReader.mk (some f) 0 [] none false).readAllLoop (b.length + 2) =
      (CopyReader.mk (some f) 1 b none true).readAllLoop (b.length + 2) := by
    have hr : ∀ k, (CopyReader.mk (some f) 0 [] none false).read k =
        (CopyReader.mk (some f) 1 b none true).read k := by
      intro k; unfold CopyReader.read; simp only [hi]; simp [CopyReader.init]
    simp only [CopyReader.readAllLoop, hr]
  rw [hstep]
  exact CopyReader.readAllLoop_done _ _ rfl rfl (by simp only; omega)

/-- If the step succeeds, the input had at least `off` plus the size of the number many
bytes, and the field `f` is the number at offset `off`. -/
def NumAt {σ α : Type} [Wire α] (f : σ → α) (st : Step σ) (off : Nat) : Prop :=
  ∀ s r, r.Ok .eof → (st s r).err = none → off + Wire.size α ≤ r.content.length ∧
    f (st s r).val = ofBE α ((r.content.drop off).take (Wire.size α))

theorem NumAt.here {σ α : Type} [Wire α] {f : σ → α} {set : α → σ → σ} {t : List (Step σ)}
    (h : ∀ v s, f (set v s) = v) (hk : Keeps f (Enc.readFrom t)) :
    NumAt f (Enc.readFrom (Enc.num set :: t)) 0 := by
  intro s r hr he
  rcases num_spec set .eof s r hr with ⟨hl, r', h1, h2⟩ | ⟨hl, r', h1, h2⟩
  · refine ⟨by omega, ?_⟩
    have hk' := hk (set (ofBE α (r.content.take (Wire.size α))) s) r'
    simp only [Enc.readFrom, h1] at he ⊢
    rcases ht : Enc.readFrom t (set (ofBE α (r.content.take (Wire.size α))) s) r' with ⟨v, n, e, rd⟩
    rw [ht] at hk'
    simp only at hk' ⊢
    rw [hk', h]; simp
  · simp [Enc.readFrom, h1] at he

theorem NumAt.cons {σ α : Type} [Wire α] {f : σ → α} {st : Step σ} {t : List (Step σ)} {k off : Nat}
    (hs : Flat st k) (h : NumAt f (Enc.readFrom t) off) :
    NumAt f (Enc.readFrom (st :: t)) (k + off) := by
  intro s r hr he
  obtain ⟨h1, h2, h3, h4⟩ := hs s r hr
  rcases hst : st s r with ⟨v, n, e, rd⟩
  rw [hst] at h1 h2 h3 h4
  simp only at h1 h2 h3 h4
  cases e with
  | some e => simp [Enc.readFrom, hst] at he
  | none =>
    have hl : k ≤ r.content.length := by
      apply Classical.byContradiction
      intro hn
      obtain ⟨⟨e, h5, _⟩, _⟩ := h4 (by omega)
      simp at h5
    have hn := (h3 hl).2
    subst hn
    have hc : rd.content = r.content.drop n := h2.content.2
    have := h v rd h1 (by
      simp only [Enc.readFrom, hst] at he
      rcases ht : Enc.readFrom t v rd with ⟨v', n', e', rd'⟩
      rw [ht] at he; simpa using he)
    rw [hc] at this
    simp only [List.length_drop, List.drop_drop] at this
    refine ⟨by omega, ?_⟩
    have hv : (Enc.readFrom (st :: t) s r).val = (Enc.readFrom t v rd).val := by
      simp only [Enc.readFrom, hst]
    rw [hv, this.2]

theorem NumAt.assignCons {σ α : Type} [Wire α] {f : σ → α} {g : σ → σ} {t : List (Step σ)} {off : Nat}
    (h : NumAt f (Enc.readFrom t) off) : NumAt f (Enc.readFrom (Enc.assign g :: t)) off := by
  have := NumAt.cons (Flat.assign (f := g)) h
  rwa [Nat.zero_add] at this

theorem NumAt.withLocal {σ α l : Type} [Wire α] {f : σ → α} {init : l} {st : Step (σ × l)} {off : Nat}
    (h : NumAt (fun s => f s.1) st off) : NumAt f (Enc.withLocal init st) off := fun s r hr he =>
  h (s, init) r hr he

theorem NumAt.andThen {σ α : Type} [Wire α] {f : σ → α} {st : Step σ} {g : Nat → Step σ} {off : Nat}
    (h : NumAt f st off) (hk : ∀ n, Keeps f (g n)) : NumAt f (Enc.andThen st g) off := by
  intro s r hr he
  have h' := h s r hr
  simp only [Enc.andThen] at he ⊢
  rcases hst : st s r with ⟨v, n, e, rd⟩
  rw [hst] at he h'
  cases e with
  | some e => simp at he
  | none =>
    have := hk n v rd
    obtain ⟨h1, h2⟩ := h' rfl
    refine ⟨h1, ?_⟩
    simp only at h2 ⊢
    rw [← h2, ← this]

theorem PacketIn.cookie_at : NumAt (fun p : PacketIn => p.cookie) PacketIn.readFrom 8 := by
  unfold PacketIn.readFrom
  show NumAt _ _ (4 + (2 + (1 + (1 + 0))))
  exact
  NumAt.cons (k := 4) Flat.num <| NumAt.cons (k := 2) Flat.num <| NumAt.cons (k := 1) Flat.num <|
  NumAt.cons (k := 1) (off := 0) Flat.num <| NumAt.here (fun _ _ => rfl) <|
  Keeps.cons (Keeps.sub fun _ _ => rfl) <| Keeps.cons Keeps.skip <|
  Keeps.cons (fun _ _ => rfl) Keeps.nil

theorem FlowMod.cookie_at : NumAt (fun p : FlowMod => p.cookie) FlowMod.readFrom 0 :=
  NumAt.assignCons <| NumAt.here (fun _ _ => rfl) <|
  Keeps.cons (Keeps.num fun _ _ => rfl) <| Keeps.cons (Keeps.num fun _ _ => rfl) <|
  Keeps.cons (Keeps.num fun _ _ => rfl) <| Keeps.cons (Keeps.num fun _ _ => rfl) <|
  Keeps.cons (Keeps.num fun _ _ => rfl) <| Keeps.cons (Keeps.num fun _ _ => rfl) <|
  Keeps.cons (Keeps.num fun _ _ => rfl) <| Keeps.cons (Keeps.num fun _ _ => rfl) <|
  Keeps.cons (Keeps.num fun _ _ => rfl) <| Keeps.cons (Keeps.num fun _ _ => rfl) <|
  Keeps.cons Keeps.skip <| Keeps.cons (Keeps.sub fun _ _ => rfl) <|
  Keeps.cons (Keeps.sub fun _ _ => rfl) Keeps.nil

theorem FlowRemoved.cookie_at : NumAt (fun p : FlowRemoved => p.cookie) FlowRemoved.readFrom 0 :=
  NumAt.here (fun _ _ => rfl) <|
  Keeps.cons (Keeps.num fun _ _ => rfl) <| Keeps.cons (Keeps.num fun _ _ => rfl) <|
  Keeps.cons (Keeps.num fun _ _ => rfl) <| Keeps.cons (Keeps.num fun _ _ => rfl) <|
  Keeps.cons (Keeps.num fun _ _ => rfl) <| Keeps.cons (Keeps.num fun _ _ => rfl) <|
  Keeps.cons (Keeps.num fun _ _ => rfl) <| Keeps.cons (Keeps.num fun _ _ => rfl) <|
  Keeps.cons (Keeps.num fun _ _ => rfl) <| Keeps.cons (Keeps.sub fun _ _ => rfl) Keeps.nil

theorem FlowStatsRequest.cookie_at :
    NumAt (fun p : FlowStatsRequest => p.cookie) FlowStatsRequest.readFrom 16 := by
  unfold FlowStatsRequest.readFrom
  show NumAt _ _ (1 + (3 + (4 + (4 + (4 + 0)))))
  exact
  NumAt.cons (k := 1) Flat.num <| NumAt.cons (k := 3) Flat.skip <| NumAt.cons (k := 4) Flat.num <|
  NumAt.cons (k := 4) Flat.num <| NumAt.cons (k := 4) (off := 0) Flat.skip <|
  NumAt.here (fun _ _ => rfl) <|
  Keeps.cons (Keeps.num fun _ _ => rfl) <| Keeps.cons (Keeps.sub fun _ _ => rfl) Keeps.nil

theorem AggregateStatsRequest.cookie_at :
    NumAt (fun p : AggregateStatsRequest => p.cookie) AggregateStatsRequest.readFrom 16 := by
  unfold AggregateStatsRequest.readFrom
  show NumAt _ _ (1 + (3 + (4 + (4 + (4 + 0)))))
  exact
  NumAt.cons (k := 1) Flat.num <| NumAt.cons (k := 3) Flat.skip <| NumAt.cons (k := 4) Flat.num <|
  NumAt.cons (k := 4) Flat.num <| NumAt.cons (k := 4) (off := 0) Flat.skip <|
  NumAt.here (fun _ _ => rfl) <|
  Keeps.cons (Keeps.num fun _ _ => rfl) <| Keeps.cons (Keeps.sub fun _ _ => rfl) Keeps.nil

theorem FlowStats.cookie_at : NumAt (fun p : FlowStats => p.cookie) FlowStats.readFrom 24 := by
  unfold FlowStats.readFrom
  show NumAt _ _ (2 + (1 + (1 + (4 + (4 + (2 + (2 + (2 + (2 + (4 + 0))))))))))
  exact
  NumAt.withLocal <| NumAt.andThen
    (NumAt.cons (k := 2) Flat.num <| NumAt.cons (k := 1) Flat.num <| NumAt.cons (k := 1) Flat.skip <|
      NumAt.cons (k := 4) Flat.num <| NumAt.cons (k := 4) Flat.num <| NumAt.cons (k := 2) Flat.num <|
      NumAt.cons (k := 2) Flat.num <| NumAt.cons (k := 2) Flat.num <| NumAt.cons (k := 2) Flat.num <|
      NumAt.cons (k := 4) (off := 0) Flat.skip <| NumAt.here (fun _ _ => rfl) <|
      Keeps.cons (Keeps.num fun _ _ => rfl) <| Keeps.cons (Keeps.num fun _ _ => rfl) <|
      Keeps.cons (Keeps.sub fun _ _ => rfl) Keeps.nil)
    (fun _ => Keeps.cons (fun _ _ => rfl) <|
      Keeps.cons (Keeps.dyn fun _ => Keeps.limited (Keeps.sub fun _ _ => rfl)) Keeps.nil)

end Verif
