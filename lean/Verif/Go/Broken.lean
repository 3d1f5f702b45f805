import Verif.Go.Reader

/-!
# Readers below which the stream may break

`Rd.Ok F` describes readers that end with the error `F` and with nothing else.  An
`io.LimitedReader` over a stream that breaks ends with `io.EOF` when the limit is reached
first, and with the error of the stream otherwise; and when the stream returns its error
together with the last bytes before the limit, either of the two.  `Rd.OkB F` describes all
readers over a stream that ends with `F`.
-/

namespace Verif

/-- `io.EOF` is a legitimate end of this reader: the stream ends with it, or a limit is reached
before the stream ends. -/
def Rd.Ends : Rd → Prop
  | .src _ _ fin _ => fin = .eof
  | .lim n r => n ≤ r.content.length ∨ r.Ends
  | .buf _ _ r => r.Ends

/-- Well-formed reader over a stream that ends with the error `F`. -/
def Rd.OkB (F : Err) : Rd → Prop
  | .src _ _ fin _ => fin = F
  | .lim _ r => r.OkB F
  | .buf _ e r => r.OkB F ∧ (e = none ∨ r.content = [] ∧ (e = some F ∨ e = some .eof ∧ r.Ends))

theorem Rd.Ok.okB {F : Err} : ∀ {r : Rd}, r.Ok F → r.OkB F
  | .src .., h => h
  | .lim _ r, h => Rd.Ok.okB (r := r) h.2
  | .buf _ _ r, h => ⟨Rd.Ok.okB (r := r) h.1, h.2.imp id fun ⟨h1, h2⟩ => ⟨h2, .inl h1⟩⟩

theorem Rd.OkB.ok : ∀ {r : Rd}, r.OkB .eof → r.Ok .eof
  | .src .., h => h
  | .lim .., h => ⟨rfl, Rd.OkB.ok h⟩
  | .buf .., h => ⟨Rd.OkB.ok h.1, h.2.imp id fun ⟨h1, h2⟩ => ⟨h2.elim id (·.1), h1⟩⟩

theorem Rd.OkB.ends : ∀ {r : Rd}, r.OkB .eof → r.Ends
  | .src .., h => h
  | .lim _ r, h => .inr (Rd.OkB.ends (r := r) h)
  | .buf _ _ r, h => Rd.OkB.ends (r := r) h.1

/-- A stream that breaks does not end with `io.EOF`. -/
theorem Rd.Ok.not_ends {F : Err} (hF : F ≠ .eof) : ∀ {r : Rd}, r.Ok F → ¬ r.Ends
  | .src .., h => fun h' => hF (h.symm.trans h')
  | .lim .., h => absurd h.1 hF
  | .buf _ _ r, h => Rd.Ok.not_ends (r := r) hF h.1

theorem Rd.Adv.ends {k : Nat} {r r' : Rd} (h : Rd.Adv k r r') : r'.Ends ↔ r.Ends := by
  induction r generalizing k r' with
  | src d s f t =>
    cases r' <;> simp only [Rd.Adv] at h
    simp only [Rd.Ends, h.2.2.1]
  | lim n r ih =>
    cases r' <;> simp only [Rd.Adv] at h
    obtain ⟨h1, h2, h3⟩ := h
    have hc := h3.content
    have hl := congrArg List.length hc.2
    simp only [List.length_drop] at hl
    simp only [Rd.Ends, ih h3, hl, h2]
    constructor
    · rintro (h | h)
      · left; omega
      · exact .inr h
    · rintro (h | h)
      · left; omega
      · exact .inr h
  | buf b e r ih =>
    cases r' <;> simp only [Rd.Adv] at h
    obtain ⟨_, _, j, h3⟩ := h
    simpa only [Rd.Ends] using ih h3

/-- `e` is an error the reader can end with. -/
def Rd.MayEnd (F : Err) (r : Rd) (e : Err) : Prop := e = F ∨ e = .eof ∧ r.Ends

/-- The specification of one `Read` call on a reader over a stream that ends with `F`. -/
theorem Rd.read_specB (F : Err) (k : Nat) (r : Rd) (hk : 0 < k) (hr : r.OkB F) :
    ∃ o e r', r.read k = (o, e, r') ∧ o.length ≤ k ∧
      r.content = o ++ r'.content ∧ Rd.Adv o.length r r' ∧ r'.OkB F ∧
      (o = [] → e ≠ none) ∧
      (∀ e', e = some e' → r.MayEnd F e' ∧ r'.content = []) := by
  induction r generalizing k with
  | src d s f t =>
    simp only [Rd.OkB] at hr; subst hr
    obtain ⟨o, e, r', h1, h2, h3, h4, h5, h6, h7⟩ := Rd.read_spec f k (.src d s f t) hk rfl
    exact ⟨o, e, r', h1, h2, h3, h4, h5.okB, fun h => by simp [(h6 h).1],
      fun e' he => ⟨.inl (h7 e' he).1, (h7 e' he).2⟩⟩
  | lim n r ih =>
    simp only [Rd.OkB] at hr
    by_cases hn : n = 0
    · subst hn
      refine ⟨[], some .eof, .lim 0 r, by simp [Rd.read], by simp, by simp [Rd.content],
        Rd.Adv.refl _, hr, by simp, ?_⟩
      intro e' he; simp at he; subst he
      exact ⟨.inr ⟨rfl, by simp [Rd.Ends]⟩, by simp [Rd.content]⟩
    · obtain ⟨o, e, r', h1, h2, h3, h4, h5, h6, h7⟩ := ih (min k n) (by omega) hr
      refine ⟨o, e, .lim (n - o.length) r', ?_, by omega, ?_, ?_, h5, h6, ?_⟩
      · simp [Rd.read, hn, h1]
      · have hon : o.length ≤ n := by omega
        simp only [Rd.content, h3, List.take_append, List.take_of_length_le hon]
      · simp only [Rd.Adv]; exact ⟨by omega, trivial, h4⟩
      · intro e' he
        have := h7 e' he
        refine ⟨this.1.imp id fun h => ⟨h.1, .inr h.2⟩, by simp [Rd.content, this.2]⟩
  | buf b e r ih =>
    simp only [Rd.OkB] at hr
    obtain ⟨hr, he⟩ := hr
    have hk0 : k ≠ 0 := by omega
    by_cases hb : b = []
    · subst hb
      cases e with
      | some e =>
        simp at he
        obtain ⟨hc, he⟩ := he
        refine ⟨[], some e, .buf [] none r, by simp [Rd.read, hk0], by simp,
          by simp [Rd.content], ?_, ⟨hr, .inl rfl⟩, by simp, ?_⟩
        · simp only [Rd.Adv]; exact ⟨by simp, by simp, 0, Rd.Adv.refl _⟩
        · intro e' h; simp at h; subst h
          exact ⟨he, by simp [Rd.content, hc]⟩
      | none =>
        by_cases hbig : bufSize ≤ k
        · obtain ⟨o, e, r', h1, h2, h3, h4, h5, h6, h7⟩ := ih k hk hr
          refine ⟨o, e, .buf [] none r', by simp [Rd.read, hk0, hbig, h1], h2, ?_, ?_,
            ⟨h5, .inl rfl⟩, h6, ?_⟩
          · simpa [Rd.content] using h3
          · simp only [Rd.Adv]
            refine ⟨?_, ?_, _, h4⟩
            · rw [h3]; simp
            · simp [h3]
          · intro e' h
            have := h7 e' h
            exact ⟨this.1, by simp [Rd.content, this.2]⟩
        · obtain ⟨o, e, r', h1, h2, h3, h4, h5, h6, h7⟩ :=
            ih bufSize (by simp [bufSize]) hr
          by_cases ho : o = []
          · refine ⟨[], e, .buf [] none r', by simp [Rd.read, hk0, hbig, h1, ho], by simp, ?_, ?_,
              ⟨h5, .inl rfl⟩, fun _ => h6 ho, ?_⟩
            · simpa [Rd.content, ho] using h3
            · simp only [Rd.Adv]
              refine ⟨by simp, ?_, _, h4⟩
              simp [h3, ho]
            · intro e' h
              have := h7 e' h
              exact ⟨this.1, by simp [Rd.content, this.2]⟩
          · refine ⟨o.take k, none, .buf (o.drop k) e r', by simp [Rd.read, hk0, hbig, h1, ho],
              by rw [List.length_take]; omega, ?_, ?_, ?_, ?_, ?_⟩
            · simp [Rd.content, h3, ← List.append_assoc]
            · simp only [Rd.Adv]
              have hmin : (o.take k).length ≤ o.length := by rw [List.length_take]; omega
              refine ⟨?_, ?_, _, h4⟩
              · simp [h3]; omega
              · simp only [List.nil_append, h3]
                rw [List.drop_append_of_le_length hmin]
                congr 1
                by_cases hl : k ≤ o.length
                · rw [List.length_take, Nat.min_eq_left hl]
                · rw [List.length_take, Nat.min_eq_right (by omega), List.drop_length,
                    List.drop_eq_nil_of_le (by omega)]
            · simp only [Rd.OkB]
              refine ⟨h5, ?_⟩
              cases e with
              | none => simp
              | some e =>
                right
                have := h7 e rfl
                refine ⟨this.2, ?_⟩
                rw [h4.ends]
                rcases this.1 with h | h
                · left; rw [h]
                · right; exact ⟨by rw [h.1], h.2⟩
            · intro h
              have hl : (o.take k).length = 0 := by rw [h]; rfl
              rw [List.length_take] at hl
              have : o.length ≠ 0 := by simpa using ho
              omega
            · simp
    · refine ⟨b.take k, none, .buf (b.drop k) e r, by simp [Rd.read, hk0, hb],
        by rw [List.length_take]; omega, ?_, ?_, ⟨hr, he⟩, ?_, by simp⟩
      · simp [Rd.content, ← List.append_assoc]
      · simp only [Rd.Adv]
        have hmin : (b.take k).length ≤ b.length := by rw [List.length_take]; omega
        refine ⟨?_, ?_, 0, Rd.Adv.refl _⟩
        · simp; omega
        · rw [List.drop_append_of_le_length hmin]
          congr 1
          by_cases hl : k ≤ b.length
          · rw [List.length_take, Nat.min_eq_left hl]
          · rw [List.length_take, Nat.min_eq_right (by omega), List.drop_length,
              List.drop_eq_nil_of_le (by omega)]
      · intro h
        have hl : (b.take k).length = 0 := by rw [h]; rfl
        rw [List.length_take] at hl
        have : b.length ≠ 0 := by simpa using hb
        omega

theorem Rd.Adv.mayEnd {F e : Err} {k : Nat} {r r' : Rd} (h : Rd.Adv k r r') :
    r'.MayEnd F e ↔ r.MayEnd F e := by
  simp only [Rd.MayEnd, h.ends]

theorem readLoop_specB (F : Err) (fuel need : Nat) (r : Rd) (hf : need < fuel) (hr : r.OkB F) :
    ∃ o e r', readLoop fuel need r = (o, e, r') ∧ Rd.Adv o.length r r' ∧ r'.OkB F ∧
      r.content = o ++ r'.content ∧ o.length ≤ need ∧
      (o.length < need → ∃ e', e = some e' ∧ r.MayEnd F e' ∧ r'.content = []) := by
  induction fuel generalizing need r with
  | zero => omega
  | succ fuel ih =>
    by_cases hn : need = 0
    · subst hn
      exact ⟨[], none, r, by simp [readLoop], Rd.Adv.refl _, hr, by simp, by simp, by simp⟩
    · obtain ⟨o, e, r', h1, h2, h3, h4, h5, h6, h7⟩ := Rd.read_specB F need r (by omega) hr
      cases e with
      | some e =>
        exact ⟨o, some e, r', by simp [readLoop, hn, h1], h4, h5, h3, h2, fun _ => ⟨e, rfl, h7 e rfl⟩⟩
      | none =>
        have ho : o ≠ [] := fun h => h6 h rfl
        have hol : 0 < o.length := List.length_pos_iff.mpr ho
        obtain ⟨o2, e2, r2, g1, g2, g3, g4, g5, g6⟩ := ih (need - o.length) r' (by omega) h5
        refine ⟨o ++ o2, e2, r2, by simp [readLoop, hn, h1, g1], ?_, g3, ?_, ?_, ?_⟩
        · rw [List.length_append]; exact h4.trans g2
        · rw [h3, g4, List.append_assoc]
        · rw [List.length_append]; omega
        · rw [List.length_append]; intro h
          obtain ⟨e', g7, g8, g9⟩ := g6 (by omega)
          exact ⟨e', g7, h4.mayEnd.mp g8, g9⟩

theorem readFull_specB (F : Err) (k : Nat) (r : Rd) (hr : r.OkB F) :
    (k ≤ r.content.length ∧ ∃ r', readFull k r = (r.content.take k, none, r') ∧
        Rd.Adv k r r' ∧ r'.OkB F) ∨
    (r.content.length < k ∧ ∃ e r', readFull k r = (r.content, some (shortErr e r.content), r') ∧
        r.MayEnd F e ∧ Rd.Adv r.content.length r r' ∧ r'.OkB F) := by
  obtain ⟨o, e, r', h1, h2, h3, h4, h5, h6⟩ := readLoop_specB F (k + 1) k r (by omega) hr
  by_cases hk : k ≤ o.length
  · left
    have hlen : o.length = k := by omega
    have ho : r.content.take k = o := by rw [h4, ← hlen]; simp
    refine ⟨by rw [h4, List.length_append]; omega, r', ?_, by rw [← hlen]; exact h2, h3⟩
    simp [readFull, h1, hk, ho]
  · right
    obtain ⟨e', he, hm, hc⟩ := h6 (by omega)
    have ho : r.content = o := by rw [h4, hc]; simp
    refine ⟨by rw [ho]; omega, e', r', ?_, hm, by rw [ho]; exact h2, h3⟩
    simp only [readFull, h1, hk, if_false, ho, shortErr, he]
    by_cases h : o ≠ [] ∧ e' = .eof
    · rw [if_pos h, if_pos ⟨h.1, by rw [h.2]⟩]
    · rw [if_neg h, if_neg (by intro h'; apply h; simpa using h')]

theorem readAllLoop_specB (F : Err) (fuel : Nat) (r : Rd) (hf : r.content.length < fuel)
    (hr : r.OkB F) :
    ∃ e r', readAllLoop fuel r = (r.content, skipEOF e, r') ∧ r.MayEnd F e ∧
      Rd.Adv r.content.length r r' ∧ r'.OkB F := by
  induction fuel generalizing r with
  | zero => omega
  | succ fuel ih =>
    obtain ⟨o, e, r', h1, h2, h3, h4, h5, h6, h7⟩ := Rd.read_specB F 512 r (by omega) hr
    cases e with
    | some e =>
      have := h7 e rfl
      have hc : r.content = o := by rw [h3, this.2]; simp
      exact ⟨e, r', by simp [readAllLoop, h1, hc], this.1, by rw [hc]; exact h4, h5⟩
    | none =>
      have ho : o ≠ [] := fun h => h6 h rfl
      have hol : 0 < o.length := List.length_pos_iff.mpr ho
      have hl : r.content.length = o.length + r'.content.length := by
        rw [h3, List.length_append]
      obtain ⟨e, r2, g1, g0, g2, g3⟩ := ih r' (by omega) h5
      refine ⟨e, r2, by simp [readAllLoop, h1, g1, h3], h4.mayEnd.mp g0, ?_, g3⟩
      rw [hl]; exact h4.trans g2

theorem readAll_specB (F : Err) (r : Rd) (hr : r.OkB F) :
    ∃ e r', readAll r = (r.content, skipEOF e, r') ∧ r.MayEnd F e ∧
      Rd.Adv r.content.length r r' ∧ r'.OkB F :=
  readAllLoop_specB F _ r (by omega) hr

theorem peekFill_specB (F : Err) (fuel : Nat) (b : Bytes) (e : Option Err) (r : Rd)
    (hf : 2 ≤ fuel + b.length) (hr : r.OkB F)
    (he : e = none ∨ r.content = [] ∧ (e = some F ∨ e = some .eof ∧ r.Ends)) :
    ∃ b' e' r', peekFill fuel b e r = (b', e', r') ∧ b' ++ r'.content = b ++ r.content ∧
      r'.OkB F ∧ (e' = none ∨ r'.content = [] ∧ (e' = some F ∨ e' = some .eof ∧ r'.Ends)) ∧
      (∃ j, Rd.Adv j r r') ∧ (b'.length < 2 → e' ≠ none) := by
  induction fuel generalizing b e r with
  | zero =>
    exact ⟨b, e, r, rfl, rfl, hr, he, ⟨0, Rd.Adv.refl _⟩, by omega⟩
  | succ fuel ih =>
    by_cases hc : b.length < 2 ∧ e = none
    · obtain ⟨o, e1, r1, h1, h2, h3, h4, h5, h6, h7⟩ :=
        Rd.read_specB F (bufSize - b.length) r (by simp [bufSize]; omega) hr
      have he1 : e1 = none ∨ r1.content = [] ∧ (e1 = some F ∨ e1 = some .eof ∧ r1.Ends) := by
        cases e1 with
        | none => simp
        | some e1 =>
          right
          have := h7 e1 rfl
          refine ⟨this.2, ?_⟩
          rw [h4.ends]
          rcases this.1 with h | h
          · left; rw [h]
          · right; exact ⟨by rw [h.1], h.2⟩
      by_cases ho : o = []
      · have hE := h6 ho
        refine ⟨b, e1, r1, ?_, ?_, h5, he1, ⟨_, h4⟩, fun _ => hE⟩
        · simp only [peekFill, hc, and_self, if_true, h1, ho, List.append_nil]
          cases fuel with
          | zero => simp [peekFill]
          | succ n => simp only [peekFill]; rw [if_neg (fun h => hE h.2)]
        · rw [h3, ho]; simp
      · have hol : 0 < o.length := List.length_pos_iff.mpr ho
        obtain ⟨b', e', r', g1, g2, g3, g4, ⟨j, g5⟩, g6⟩ :=
          ih (b ++ o) e1 r1 (by rw [List.length_append]; omega) h5 he1
        refine ⟨b', e', r', ?_, ?_, g3, g4, ⟨_, h4.trans g5⟩, g6⟩
        · simp only [peekFill, hc, and_self, if_true, h1, g1]
        · rw [g2, h3, List.append_assoc]
    · refine ⟨b, e, r, by simp only [peekFill, hc, if_false], rfl, hr, he, ⟨0, Rd.Adv.refl _⟩, ?_⟩
      intro hb h
      exact hc ⟨hb, h⟩

/-- `Peek(2)` over a stream that ends with `F`. -/
theorem peek2_specB (F : Err) (b : Bytes) (e : Option Err) (r : Rd) (hr : (Rd.buf b e r).OkB F) :
    ∃ b' e' r', Rd.Adv 0 (.buf b e r) (.buf b' e' r') ∧ (Rd.buf b' e' r').OkB F ∧
     ((2 ≤ (Rd.buf b e r).content.length ∧
        (Rd.buf b e r).peek2 = ((Rd.buf b e r).content.take 2, none, .buf b' e' r')) ∨
      ((Rd.buf b e r).content.length < 2 ∧ ∃ e0, (Rd.buf b e r).MayEnd F e0 ∧
        (Rd.buf b e r).peek2 = ((Rd.buf b e r).content, some e0, .buf b' e' r'))) := by
  simp only [Rd.OkB] at hr
  obtain ⟨b', e', r', h1, h2, h3, h4, ⟨j, h5⟩, h6⟩ := peekFill_specB F 2 b e r (by omega) hr.1 hr.2
  by_cases hb : 2 ≤ b'.length
  · refine ⟨b', e', r', ?_, ?_, ?_⟩
    · simp only [Rd.Adv]; exact ⟨by simp, by simp [h2], j, h5⟩
    · simp only [Rd.OkB]; exact ⟨h3, h4⟩
    · left
      simp only [Rd.content, ← h2, Rd.peek2, h1, hb, if_true]
      refine ⟨by rw [List.length_append]; omega, ?_⟩
      rw [List.take_append_of_le_length hb]
  · have he' := h6 (by omega)
    have hc : r'.content = [] ∧ (e' = some F ∨ e' = some .eof ∧ r'.Ends) := h4.resolve_left he'
    refine ⟨b', none, r', ?_, ?_, ?_⟩
    · simp only [Rd.Adv]; exact ⟨by simp, by simp [h2], j, h5⟩
    · simp only [Rd.OkB]; exact ⟨h3, .inl trivial⟩
    · right
      obtain ⟨e0, he0⟩ := Option.ne_none_iff_exists'.mp he'
      have hm : (Rd.buf b e r).MayEnd F e0 := by
        rcases hc.2 with h | h
        · left; rw [he0] at h; simpa using h
        · right; rw [he0] at h
          exact ⟨by simpa using h.1, h5.ends.mp h.2⟩
      refine ⟨?_, e0, hm, ?_⟩
      · simp only [Rd.content, ← h2, hc.1, List.append_nil]; omega
      · simp only [Rd.content, ← h2, Rd.peek2, h1, hb, if_false, hc.1, List.append_nil, he0]

end Verif
