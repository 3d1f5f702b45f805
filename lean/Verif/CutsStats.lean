import Verif.CutsMore
import Verif.Ofp.Table

/-!
# Where the decoders of statistics and of table features stop on a truncated input
-/

namespace Verif

variable {σ τ : Type} {d : Nat}

/-- What is known of the elements of a list, for the element in which the list is cut. -/
def listCut (sz : τ → Nat) (cut : τ → Nat → Option Err) : List τ → Nat → Option Err
  | [], _ => none
  | x :: xs, k => if k < sz x then cut x k else listCut sz cut xs (k - sz x)

theorem listCut_append (sz : τ → Nat) (cut : τ → Nat → Option Err) (xs1 : List τ) (x : τ) (xs2 : List τ) (j : Nat)
    (hj : j < sz x) : listCut sz cut (xs1 ++ x :: xs2) ((xs1.map sz).sum + j) = cut x j := by
  induction xs1 with
  | nil => simp [listCut, hj]
  | cons y ys ih =>
    simp only [List.cons_append, listCut, List.map_cons, List.sum_cons]
    rw [if_neg (by omega), show sz y + (ys.map sz).sum + j - sz y = (ys.map sz).sum + j from by omega, ih]

/-- A length within a list is a length within one of its elements. -/
theorem list_split (sz : τ → Nat) (xs : List τ) (k : Nat) (hk : k < (xs.map sz).sum) :
    ∃ xs1 x xs2 j, xs = xs1 ++ x :: xs2 ∧ k = (xs1.map sz).sum + j ∧ j < sz x := by
  induction xs generalizing k with
  | nil => simp at hk
  | cons y ys ih =>
    simp only [List.map_cons, List.sum_cons] at hk
    by_cases h : k < sz y
    · exact ⟨[], y, ys, k, rfl, by simp, h⟩
    · obtain ⟨xs1, x, xs2, j, h1, h2, h3⟩ := ih (k - sz y) (by omega)
      exact ⟨y :: xs1, x, xs2, j, by rw [h1]; rfl, by simp; omega, h3⟩

theorem take_split {enc : τ → Bytes} {sz : τ → Nat} (xs1 : List τ) (x : τ) (xs2 : List τ) (j : Nat)
    (hsz : ∀ y ∈ xs1 ++ x :: xs2, (enc y).length = sz y) (hj : j ≤ sz x) :
    ((xs1 ++ x :: xs2).flatMap enc).take ((xs1.map sz).sum + j) = xs1.flatMap enc ++ (enc x).take j := by
  have hl : (xs1.flatMap enc).length = (xs1.map sz).sum := by
    have : ∀ ys : List τ, (∀ y ∈ ys, (enc y).length = sz y) → (ys.flatMap enc).length = (ys.map sz).sum := by
      intro ys
      induction ys with
      | nil => intro _; rfl
      | cons y ys ih =>
        intro h
        simp only [List.flatMap_cons, List.length_append, List.map_cons, List.sum_cons]
        rw [h y (by simp), ih fun z hz => h z (by simp [hz])]
    exact this xs1 fun y hy => hsz y (by simp [hy])
  rw [List.flatMap_append, take_append_ge (by omega), hl, List.flatMap_cons,
    show (xs1.map sz).sum + j - (xs1.map sz).sum = j from by omega,
    take_append_lt (by rw [hsz x (by simp)]; exact hj)]

/-- Fixed fields, then something else. -/
theorem Stops.headTail {head tail : List (Step σ)} {ks : List Nat} {s s1 : σ} {hb rest : Bytes}
    {cut : Option Err} {k : Nat} (hF : Fields (Enc.readFrom head) ks) (hR : Reads (Enc.readFrom head) s hb s1)
    (hl : hb.length = ks.sum)
    (hT : ks.sum ≤ k → Stops (Enc.readFrom tail) s1 (rest.take (k - ks.sum)) cut (fun _ => True) d) :
    Stops (Enc.readFrom (head ++ tail)) s ((hb ++ rest).take k)
      (if k < ks.sum then some (eofIn (cuts ks) k) else cut) (fun _ => True) d := by
  by_cases h : k < ks.sum
  · rw [if_pos h]
    have hlen : ((hb ++ rest).take k).length = k := by rw [List.length_take, List.length_append]; omega
    have h1 := hF.stops (d := d) (s := s) (b := (hb ++ rest).take k) (by rw [hlen]; exact h)
    rw [hlen] at h1
    exact Stops.pre h1
  · rw [if_neg h, take_append_ge (by omega), hl]
    exact Stops.append hR (hT (by omega))

theorem Stops.ignoreErr {st : Step σ} {s : σ} {b : Bytes} {eo : Option Err} {V : σ → Prop}
    (h : Stops st s b eo V d) : Stops (Enc.ignoreErr st) s b none V d := fun r hr hc =>
  let h := h r hr hc
  ⟨rfl, h.2⟩

theorem Reads.ignoreErrC {st : Step σ} {s s' : σ} {b : Bytes} (h : Reads st s b s') :
    ReadsC (Enc.ignoreErr st) s b s' := by
  intro r tail hr hc
  obtain ⟨r1, e1, a1, o1⟩ := h r tail hr hc
  exact ⟨r1, by simp [Enc.ignoreErr, e1], a1, o1⟩

theorem Stops.consC {st : Step σ} {t : List (Step σ)} {s s1 : σ} {b1 b2 : Bytes} {eo : Option Err}
    {V : σ → Prop} (h1 : ReadsC st s b1 s1) (h2 : Stops (Enc.readFrom t) s1 b2 eo V d) :
    Stops (Enc.readFrom (st :: t)) s (b1 ++ b2) eo V d := by
  intro r hr hc
  obtain ⟨r1, e1, a1, o1⟩ := h1 r b2 hr hc
  obtain ⟨h3, h4, h5, m, h6, h7, h8⟩ := h2 r1 o1 (by rw [a1.content.2, hc]; simp)
  simp only [Enc.readFrom, e1]
  refine ⟨h3, h4, h5, _, a1.trans h6, by rw [List.length_append]; omega, fun hn => ?_⟩
  have := h8 (hn.adv a1)
  rw [List.length_append]; omega

theorem Stops.andThenSome {st : Step σ} {f : Nat → Step σ} {s : σ} {b : Bytes} {e : Err} {V : σ → Prop}
    (h : Stops st s b (some e) V d) : Stops (Enc.andThen st f) s b (some e) V d := by
  intro r hr hc
  obtain ⟨h1, h2, h3, h4⟩ := h r hr hc
  rcases hst : st s r with ⟨v, n, e', r1⟩
  rw [hst] at h1 h2 h3 h4; simp only at h1 h2 h3 h4; subst h1
  simp only [Enc.andThen, hst]
  exact ⟨trivial, h2, h3, h4⟩

/-- The first part takes everything and reports nothing. -/
theorem Stops.andThenNone {st : Step σ} {f : Nat → Step σ} {s : σ} {b : Bytes} {eo : Option Err} {V W : σ → Prop}
    (h : Stops st s b none V 0) (h2 : ∀ n s1, V s1 → Stops (f n) s1 [] eo W d) :
    Stops (Enc.andThen st f) s b eo W d := by
  intro r hr hc
  obtain ⟨h1, hv, h3, m, h4, h5, h6⟩ := h r hr hc
  rcases hst : st s r with ⟨v, n, e', r1⟩
  rw [hst] at h1 hv h3 h4; simp only at h1 hv h3 h4; subst h1
  have hc1 : r1.content = [] := by
    rw [h4.content.2, hc]; exact List.drop_eq_nil_of_le (by omega)
  obtain ⟨g1, g2, g3, m', g4, g5, g6⟩ := h2 n v hv r1 h3 hc1
  simp only [Enc.andThen, hst]
  exact ⟨g1, g2, g3, _, h4.trans g4, by omega, fun hn => by omega⟩

theorem Stops.andThen {st : Step σ} {f : Nat → Step σ} {s s1 : σ} {b1 b2 : Bytes} {eo : Option Err}
    {V : σ → Prop} (h1 : Reads st s b1 s1) (h2 : Stops (f b1.length) s1 b2 eo V d) :
    Stops (Enc.andThen st f) s (b1 ++ b2) eo V d := by
  intro r hr hc
  obtain ⟨r1, e1, a1, o1⟩ := h1 r b2 hr hc
  obtain ⟨h3, h4, h5, m, h6, h7, h8⟩ := h2 r1 o1 (by rw [a1.content.2, hc]; simp)
  simp only [Enc.andThen, e1]
  refine ⟨h3, h4, h5, _, a1.trans h6, by rw [List.length_append]; omega, fun hn => ?_⟩
  have := h8 (hn.adv a1)
  rw [List.length_append]; omega

section
variable {zero : τ} {st : Step τ} {enc : τ → Bytes} {val : τ → τ}

/-- `ReadSliceFrom` goes through well-formed elements. -/
theorem readFuncLoop_through (xs : List τ) (h : ∀ x ∈ xs, Reads st zero (enc x) (val x))
    (hpos : ∀ x ∈ xs, 0 < (enc x).length) (b0 : Bytes) : ∀ (fuel : Nat) (acc : List τ) (n : Nat) (r : Rd),
    r.Ok .eof → r.content = xs.flatMap enc ++ b0 → r.content.length < fuel →
    ∃ fuel' acc' n' r', r'.Ok .eof ∧ r'.content = b0 ∧ b0.length < fuel' ∧ Rd.Adv (xs.flatMap enc).length r r' ∧
      Enc.readFuncLoop zero st fuel acc n r = Enc.readFuncLoop zero st fuel' acc' n' r' := by
  induction xs with
  | nil =>
    intro fuel acc n r hr hc hf
    refine ⟨fuel, acc, n, r, hr, by simpa using hc, ?_, by simpa using Rd.Adv.refl r, rfl⟩
    simpa [hc] using hf
  | cons x xs ih =>
    intro fuel acc n r hr hc hf
    cases fuel with
    | zero => omega
    | succ fuel =>
      obtain ⟨r1, e1, a1, o1⟩ := h x (by simp) r (xs.flatMap enc ++ b0) hr (by rw [hc]; simp)
      have hc1 : r1.content = xs.flatMap enc ++ b0 := by rw [a1.content.2, hc]; simp
      have := hpos x (by simp)
      have hl : r.content.length = (enc x).length + r1.content.length := by
        rw [hc1, hc]; simp
      obtain ⟨fuel', acc', n', r', g1, g2, g3, g4, g5⟩ := ih (fun y hy => h y (by simp [hy]))
        (fun y hy => hpos y (by simp [hy])) fuel (acc ++ [val x]) (n + (enc x).length) r1 o1 hc1 (by omega)
      refine ⟨fuel', acc', n', r', g1, g2, g3, ?_, ?_⟩
      · have := a1.trans g4
        simpa using this
      · simp only [Enc.readFuncLoop, e1, g5]

/-- The list of `ReadSliceFrom` ends where the decoder of an element stops. -/
theorem Stops.slice {sz : τ → Nat} {cut : τ → Nat → Option Err} (xs : List τ)
    (hsz : ∀ x ∈ xs, (enc x).length = sz x) (h : ∀ x ∈ xs, Reads st zero (enc x) (val x))
    (hS : ∀ x ∈ xs, ∀ j < sz x, Stops st zero ((enc x).take j) (cut x j) (fun _ => True) 0)
    (h0 : EndsEmpty st zero) (k : Nat) (hk : k < (xs.map sz).sum) (hpos : ∀ x ∈ xs, 0 < sz x) (s : List τ) :
    Stops (Enc.readSliceFrom zero st) s ((xs.flatMap enc).take k)
      (listCut sz (fun x j => (cut x j).bind skipEOF) xs k) (· = s) d := by
  obtain ⟨xs1, x, xs2, j, rfl, rfl, hj⟩ := list_split sz xs k hk
  rw [listCut_append _ _ _ _ _ _ hj, take_split xs1 x xs2 j hsz (by omega)]
  have hlen : ((enc x).take j).length = j := by rw [List.length_take, hsz x (by simp)]; omega
  intro r hr hc
  obtain ⟨fuel', acc', n', r', g1, g2, g3, g4, g5⟩ := readFuncLoop_through xs1 (fun y hy => h y (by simp [hy]))
    (fun y hy => by rw [hsz y (by simp [hy])]; exact hpos y (by simp [hy]))
    ((enc x).take j) (r.content.length + 1) [] 0 r hr hc (by omega)
  simp only [Enc.readSliceFrom, Enc.readFunc, g5]
  cases fuel' with
  | zero => omega
  | succ fuel' =>
    obtain ⟨k1, -, k3, m, k4, k5, -⟩ := hS x (by simp) j hj r' g1 g2
    rcases hst : st zero r' with ⟨v, n1, ee, r1⟩
    rw [hst] at k1 k3 k4; simp only at k1 k3 k4
    cases ee with
    | some e =>
      rw [← k1]
      simp only [Enc.readFuncLoop, hst, Option.bind_some]
      exact ⟨trivial, trivial, k3, _, g4.trans k4, by rw [List.length_append]; omega,
        fun _ => by rw [List.length_append]; omega⟩
    | none =>
      rw [← k1]
      by_cases hj0 : j = 0
      · subst hj0
        obtain ⟨s2, r2, e2, -, -⟩ := h0.clean r' g1 (by rw [g2]; simp)
        rw [e2] at hst; simp at hst
      · have hc1 : r1.content = [] := by
          rw [k4.content.2, g2]; exact List.drop_eq_nil_of_le (by omega)
        obtain ⟨s2, r2, e2, a2, o2⟩ := h0.clean r1 k3 hc1
        cases fuel' with
        | zero => omega
        | succ fuel' =>
          simp only [Enc.readFuncLoop, hst, e2, skipEOF, Option.bind_none]
          refine ⟨trivial, trivial, o2, _, (g4.trans k4).trans a2, by rw [List.length_append]; omega,
            fun _ => by rw [List.length_append]; omega⟩

/-- Nothing left: an empty list. -/
theorem Stops.sliceNil (h0 : EndsEmpty st zero) (s : List τ) :
    Stops (Enc.readSliceFrom zero st) s [] none (· = s) d :=
  (ReadsAll.readSliceFrom (zero := zero) (st := st) (enc := fun _ => []) (val := fun x => x)
    s [] (by simp) (by simp) h0).stops

end

/-- The list of `ScanFrom` ends where the decoder of an element stops. -/
theorem Stops.scanList {mk : UInt16 → Except Err τ} {st : Step τ} {enc : τ → Bytes} {zero : τ → τ}
    {code : τ → UInt16} {sz : τ → Nat} {cut : τ → Nat → Option Err} (xs : List τ)
    (hsz : ∀ x ∈ xs, (enc x).length = sz x) (h : ∀ x ∈ xs, Reads st (zero x) (enc x) x)
    (hmk : ∀ x, mk (code x) = .ok (zero x)) (hcode : ∀ x, ∃ t, enc x = be (code x) ++ t)
    (hS : ∀ x ∈ xs, ∀ j < sz x, Stops st (zero x) ((enc x).take j) (cut x j) (fun _ => True) 0)
    (k : Nat) (hk : k < (xs.map sz).sum) (s : List τ) :
    Stops (Enc.scanFrom mk st) s ((xs.flatMap enc).take k)
      (listCut sz (fun x j => if j < 2 then none else (cut x j).bind skipEOF) xs k) (fun _ => True) := by
  obtain ⟨xs1, x, xs2, j, rfl, rfl, hj⟩ := list_split sz xs k hk
  rw [listCut_append _ _ _ _ _ _ hj, take_split xs1 x xs2 j hsz (by omega)]
  exact (Stops.scanCut s xs1 (fun y hy => h y (by simp [hy])) hmk hcode
    (hS x (by simp) j hj)).mono fun _ _ => trivial

/-- As `headTail`: the first `n` steps read the fixed fields. -/
theorem Stops.first {l : List (Step σ)} (n : Nat) {ks : List Nat} {s s1 : σ} {hb rest : Bytes}
    {cut : Option Err} {k : Nat} (hF : Fields (Enc.readFrom (l.take n)) ks)
    (hR : Reads (Enc.readFrom (l.take n)) s hb s1) (hl : hb.length = ks.sum)
    (hT : ks.sum ≤ k → Stops (Enc.readFrom (l.drop n)) s1 (rest.take (k - ks.sum)) cut (fun _ => True) d) :
    Stops (Enc.readFrom l) s ((hb ++ rest).take k)
      (if k < ks.sum then some (eofIn (cuts ks) k) else cut) (fun _ => True) d := by
  have := Stops.headTail hF hR hl hT
  rwa [List.take_append_drop] at this

/-- Fixed fields, one by one. -/
macro "fields" : tactic => `(tactic| (
  simp only [List.take_succ_cons, List.take_zero]
  repeat (first
    | exact Fields.nil
    | refine Fields.cons Fields.num ?_
    | refine Fields.cons Fields.skip ?_
    | refine Fields.cons Fields.bin ?_
    | refine Fields.cons Fields.assign ?_)))

/-! ## Messages with a match -/

/-- The error of a decoder that reads fixed fields and a match. -/
def matchCut (ks : List Nat) (m : Match) (k : Nat) : Option Err :=
  if k < ks.sum then some (eofIn (cuts ks) k) else m.cut (k - ks.sum)

theorem FlowRemoved.stops (f : FlowRemoved) (hm : f.mtch.Valid) (s : FlowRemoved) (k : Nat)
    (hk : k < f.writeTo.out.length) :
    Stops FlowRemoved.readFrom s (f.writeTo.out.take k) (matchCut [8, 2, 1, 1, 4, 4, 2, 2, 8, 8] f.mtch k)
      (fun _ => True) d := by
  have ho : f.writeTo.out = (be f.cookie ++ (be f.priority ++ (be f.reason ++ (be f.table ++ (be f.durationSec ++
      (be f.durationNSec ++ (be f.idleTimeout ++ (be f.hardTimeout ++ (be f.packetCount ++ be f.byteCount))))))))) ++
      f.mtch.bytes := by simp [FlowRemoved.writeTo, Enc.writeTo, Enc.gather, Match.writeTo_eq]
  rw [ho] at hk ⊢
  refine Stops.first 10 (s1 := { f with mtch := s.mtch }) (by fields) ?_ (by simp) ?_
  · simp only [List.take_succ_cons, List.take_zero]
    reads
  · intro h
    exact (Stops.last (Stops.sub (f.mtch.stops hm _ _ (by simp at hk h ⊢; omega)))).mono fun _ _ => trivial

theorem FlowStatsRequest.stops (f : FlowStatsRequest) (hm : f.mtch.Valid) (s : FlowStatsRequest) (k : Nat)
    (hk : k < f.writeTo.out.length) :
    Stops FlowStatsRequest.readFrom s (f.writeTo.out.take k) (matchCut [1, 3, 4, 4, 4, 8, 8] f.mtch k)
      (fun _ => True) d := by
  have ho : f.writeTo.out = (be f.table ++ (zeros 3 ++ (be f.outPort ++ (be f.outGroup ++ (zeros 4 ++
      (be f.cookie ++ be f.cookieMask)))))) ++ f.mtch.bytes := by
    simp [FlowStatsRequest.writeTo, Enc.writeTo, Enc.gather, Match.writeTo_eq]
  rw [ho] at hk ⊢
  refine Stops.first 7 (s1 := { f with mtch := s.mtch }) (by fields) ?_ (by simp) ?_
  · simp only [List.take_succ_cons, List.take_zero]
    reads
  · intro h
    exact (Stops.last (Stops.sub (f.mtch.stops hm _ _ (by simp at hk h ⊢; omega)))).mono fun _ _ => trivial

theorem AggregateStatsRequest.stops (f : AggregateStatsRequest) (hm : f.mtch.Valid) (s : AggregateStatsRequest)
    (k : Nat) (hk : k < f.writeTo.out.length) :
    Stops AggregateStatsRequest.readFrom s (f.writeTo.out.take k) (matchCut [1, 3, 4, 4, 4, 8, 8] f.mtch k)
      (fun _ => True) d := by
  have ho : f.writeTo.out = (be f.table ++ (zeros 3 ++ (be f.outPort ++ (be f.outGroup ++ (zeros 4 ++
      (be f.cookie ++ be f.cookieMask)))))) ++ f.mtch.bytes := by
    simp [AggregateStatsRequest.writeTo, Enc.writeTo, Enc.gather, Match.writeTo_eq]
  rw [ho] at hk ⊢
  refine Stops.first 7 (s1 := { f with mtch := s.mtch }) (by fields) ?_ (by simp) ?_
  · simp only [List.take_succ_cons, List.take_zero]
    reads
  · intro h
    exact (Stops.last (Stops.sub (f.mtch.stops hm _ _ (by simp at hk h ⊢; omega)))).mono fun _ _ => trivial

/-- The error of the decoder of a flow statistics entry on the first `k` bytes. -/
def FlowStats.cut (f : FlowStats) (k : Nat) : Option Err :=
  if k < 48 + f.mtch.bytes.length then matchCut [2, 1, 1, 4, 4, 2, 2, 2, 2, 4, 8, 8, 8] f.mtch k
  else Instructions.cut f.instructions (k - (48 + f.mtch.bytes.length))

theorem FlowStats.stops (f : FlowStats) (hm : f.mtch.Valid) (hi : ∀ i ∈ f.instructions, i.Valid)
    (hs : f.size ≤ 65535) (s : FlowStats) (k : Nat) (hk : k < f.writeTo.out.length) :
    Stops FlowStats.readFrom s (f.writeTo.out.take k) (f.cut k) (fun _ => True) d := by
  have ho : f.writeTo.out = ((be f.len ++ (be f.table ++ (zeros 1 ++ (be f.durationSec ++ (be f.durationNSec ++
      (be f.priority ++ (be f.idleTimeout ++ (be f.hardTimeout ++ (be f.flags ++ (zeros 4 ++
        (be f.cookie ++ (be f.packetCount ++ be f.byteCount)))))))))))) ++ f.mtch.bytes) ++
        Instructions.bytes f.instructions := by rw [FlowStats.out_eq]; simp
  have hlen : ((be f.len ++ (be f.table ++ (zeros 1 ++ (be f.durationSec ++ (be f.durationNSec ++
      (be f.priority ++ (be f.idleTimeout ++ (be f.hardTimeout ++ (be f.flags ++ (zeros 4 ++
        (be f.cookie ++ (be f.packetCount ++ be f.byteCount)))))))))))) ++ f.mtch.bytes).length =
      48 + f.mtch.bytes.length := by simp; omega
  rw [ho] at hk ⊢
  unfold FlowStats.readFrom
  refine (Stops.withLocal (V := fun _ => True) ?_).mono fun _ _ => trivial
  unfold FlowStats.cut
  by_cases h : k < 48 + f.mtch.bytes.length
  · rw [if_pos h, take_append_lt (by omega)]
    have hH : Stops (Enc.readFrom [
      Enc.num (fun v s => (s.1, v)), Enc.num (fun v s => ({ s.1 with table := v }, s.2)),
      Enc.skip 1, Enc.num (fun v s => ({ s.1 with durationSec := v }, s.2)),
      Enc.num (fun v s => ({ s.1 with durationNSec := v }, s.2)),
      Enc.num (fun v s => ({ s.1 with priority := v }, s.2)),
      Enc.num (fun v s => ({ s.1 with idleTimeout := v }, s.2)),
      Enc.num (fun v s => ({ s.1 with hardTimeout := v }, s.2)),
      Enc.num (fun v s => ({ s.1 with flags := v }, s.2)), Enc.skip 4,
      Enc.num (fun v s => ({ s.1 with cookie := v }, s.2)),
      Enc.num (fun v s => ({ s.1 with packetCount := v }, s.2)),
      Enc.num (fun v s => ({ s.1 with byteCount := v }, s.2)),
      Enc.sub (fun s : FlowStats × UInt16 => s.1.mtch) (fun v s => ({ s.1 with mtch := v }, s.2)) Match.readFrom])
        (s, 0) (((be f.len ++ (be f.table ++ (zeros 1 ++ (be f.durationSec ++ (be f.durationNSec ++
      (be f.priority ++ (be f.idleTimeout ++ (be f.hardTimeout ++ (be f.flags ++ (zeros 4 ++
        (be f.cookie ++ (be f.packetCount ++ be f.byteCount)))))))))))) ++ f.mtch.bytes).take k)
        (matchCut [2, 1, 1, 4, 4, 2, 2, 2, 2, 4, 8, 8, 8] f.mtch k) (fun _ => True) 0 := by
      refine Stops.first 13 (s1 := ({ f with mtch := s.mtch, instructions := s.instructions }, f.len))
        (by fields) ?_ (by simp) ?_
      · simp only [List.take_succ_cons, List.take_zero]
        reads
      · intro h'
        exact (Stops.last (Stops.sub (f.mtch.stops hm _ _ (by simp at hk h h' ⊢; omega)))).mono fun _ _ => trivial
    cases hc : matchCut [2, 1, 1, 4, 4, 2, 2, 2, 2, 4, 8, 8, 8] f.mtch k with
    | some e =>
      rw [hc] at hH
      exact Stops.andThenSome fun r hr hcc => by
        obtain ⟨a, b, c, m, e1, e2, e3⟩ := hH r hr hcc
        exact ⟨a, b, c, m, e1, by omega, e3⟩
    | none =>
      rw [hc] at hH
      refine Stops.andThenNone hH fun n s1 _ => ?_
      refine Stops.assignCons (Stops.last (Stops.dyn ?_))
      have := Stops.scanOne (mk := instructionMake) (st := Instruction.readFrom) (enc := Instruction.bytes)
        (zero := Instruction.zero) (code := Instruction.type) [] (by simp) [] []
        (by simp) (by simp) (by simp)
      simp only [List.flatMap_nil, List.append_nil] at this
      exact (Stops.limited (Stops.sub (get := fun s : FlowStats × UInt16 => s.1.instructions)
        (set := fun v s => ({ s.1 with instructions := v }, s.2))
        (s := ({ s1.1 with instructions := [] }, s1.2)) this) (by simp)).mono fun _ _ => trivial
  · rw [if_neg h, take_append_ge (by omega), hlen]
    refine Stops.andThen (s1 := ({ f with instructions := s.instructions }, f.len)) ?_ ?_
    · simp only [List.append_assoc]
      reads
      exact Reads.last (Reads.sub (f.mtch.reads hm _))
    · refine Stops.assignCons (Stops.last (Stops.dyn ?_))
      refine (Stops.limited (Stops.sub (Instructions.stops_take f.instructions hi _ ?_ [])) ?_).mono
        fun _ _ => trivial
      · rw [List.length_append, hlen] at hk; omega
      · have hl : f.len.toNat = f.size := u16_ofNat_toNat hs
        simp only [hl, hlen, FlowStats.size, Match.writeTo_eq, Instructions.writeTo_eq, List.length_take]
        omega

/-! ## Groups -/

theorem BucketCounter.fields : Fields BucketCounter.readFrom [8, 8] :=
  Fields.cons Fields.num (Fields.cons Fields.num Fields.nil)

theorem BucketCounter.out_length (b : BucketCounter) : b.writeTo.out.length = 16 := by
  simp [BucketCounter.writeTo, Enc.writeTo, Enc.gather]

/-- A list of pairs of 64-bit numbers. -/
theorem Stops.slice16 {zero : τ} {st : Step τ} {enc : τ → Bytes} (hl : ∀ x, (enc x).length = 16)
    (hR : ∀ x, Reads st zero (enc x) x) (hF : Fields st [8, 8]) (h0 : EndsEmpty st zero) (xs : List τ) (k : Nat)
    (hk : k < 16 * xs.length) (s : List τ) :
    Stops (Enc.readSliceFrom zero st) s ((xs.flatMap enc).take k) (skipEOF (eofIn [0, 8] (k % 16))) (· = s) d := by
  have hsum : ∀ xs : List τ, (xs.map fun _ => 16).sum = 16 * xs.length := by
    intro xs; induction xs with
    | nil => rfl
    | cons b bs ih => simp only [List.map_cons, List.sum_cons, List.length_cons, ih]; omega
  have h := Stops.slice (d := d) (zero := zero) (st := st) (enc := enc)
    (val := fun b => b) (sz := fun _ => 16) (cut := fun _ j => some (eofIn [0, 8] j)) xs
    (fun b _ => hl b) (fun b _ => hR b) (fun b _ j hj => by
      have hl : ((enc b).take j).length = j := by rw [List.length_take, hl]; omega
      have := hF.stops (d := 0) (s := zero) (b := (enc b).take j) (by rw [hl]; exact hj)
      rw [hl] at this; exact this) h0 k (by rw [hsum]; exact hk) (by simp) s
  obtain ⟨xs1, x, xs2, j, rfl, rfl, hj⟩ := list_split (fun _ => 16) xs k (by rw [hsum]; exact hk)
  rw [listCut_append (fun _ => 16) _ xs1 x xs2 j hj] at h
  rw [hsum, Nat.mul_add_mod, Nat.mod_eq_of_lt hj]
  rw [hsum] at h
  exact h

theorem BucketCounters.stops (bs : List BucketCounter) (k : Nat) (hk : k < 16 * bs.length) (s : List BucketCounter) :
    Stops (Enc.readSliceFrom ⟨0, 0⟩ BucketCounter.readFrom) s ((BucketCounters.bytes bs).take k)
      (skipEOF (eofIn [0, 8] (k % 16))) (· = s) d :=
  Stops.slice16 (fun b => b.out_length) (fun b => b.reads _) BucketCounter.fields BucketCounter.eof bs k hk s

theorem GroupStats.stops (g : GroupStats) (hs : 40 + 16 * g.bucketStats.length ≤ 65535) (s : GroupStats) (k : Nat)
    (hk : k < 40 + 16 * g.bucketStats.length) :
    Stops GroupStats.readFrom s (g.writeTo.out.take k)
      (if k < 40 then some (eofIn [0, 2, 4, 8, 12, 16, 24, 32, 36] k) else skipEOF (eofIn [0, 8] ((k - 40) % 16)))
      (fun _ => True) d := by
  have ho : g.writeTo.out = (be (UInt16.ofNat (40 + (BucketCounters.bytes g.bucketStats).length)) ++ (zeros 2 ++
      (be g.group ++ (be g.refCount ++ (zeros 4 ++ (be g.packetCount ++ (be g.byteCount ++
        (be g.durationSec ++ be g.durationNSec)))))))) ++ BucketCounters.bytes g.bucketStats := by
    rw [GroupStats.out_eq]; simp
  rw [ho]
  unfold GroupStats.readFrom
  refine (Stops.withLocal (V := fun _ => True) ?_).mono fun _ _ => trivial
  refine Stops.first (ks := [2, 2, 4, 4, 4, 8, 8, 4, 4]) 9 (s1 := ({ g with bucketStats := s.bucketStats },
    UInt16.ofNat (40 + (BucketCounters.bytes g.bucketStats).length))) (by fields) ?_ (by simp) ?_
  · simp only [List.take_succ_cons, List.take_zero]
    reads
  · intro h
    refine (Stops.last (Stops.dyn (Stops.limited (Stops.sub (BucketCounters.stops _ _ ?_ _)) ?_))).mono
      fun _ _ => trivial
    · simp at h ⊢; omega
    · have hb := BucketCounters.bytes_length g.bucketStats
      have := u16_ofNat_sub (c := 40) (L := (BucketCounters.bytes g.bucketStats).length) (by simpa [hb] using hs)
      simp only [List.length_take]
      simp only [show (40 : UInt16).toNat = 40 from rfl] at this
      rw [this]; omega

theorem Buckets.stops_take (bs : List Bucket) (hv : ∀ b ∈ bs, b.Valid) (k : Nat)
    (hk : k < (Buckets.bytes bs).length) (s : List Bucket) :
    Stops (Enc.readSliceFrom Bucket.zero Bucket.readFrom) s ((Buckets.bytes bs).take k)
      (listCut Bucket.size (fun b j => (b.cut j).bind skipEOF) bs k) (· = s) d :=
  Stops.slice (val := fun b => b) bs (fun b _ => b.bytes_length) (fun b hb => b.reads (hv b hb) _)
    (fun b hb j hj => b.stops (hv b hb) _ j (by rw [b.bytes_length]; exact hj)) Bucket.eof k
    (by rw [← Buckets.bytes_length]; exact hk) (fun b _ => by rw [Bucket.size]; omega) s

theorem GroupMod.stops (g : GroupMod) (hv : ∀ b ∈ g.buckets, b.Valid) (s : GroupMod) (k : Nat)
    (hk : k < g.writeTo.out.length) :
    Stops GroupMod.readFrom s (g.writeTo.out.take k)
      (if k < 8 then some (eofIn [0, 2, 3, 4] k) else
        listCut Bucket.size (fun b j => (b.cut j).bind skipEOF) g.buckets (k - 8)) (fun _ => True) d := by
  have ho : g.writeTo.out = (be g.command ++ (be g.type ++ (zeros 1 ++ be g.group))) ++ Buckets.bytes g.buckets := by
    rw [GroupMod.out_eq]; simp
  rw [ho] at hk ⊢
  refine Stops.first (ks := [2, 1, 1, 4]) 4 (s1 := { g with buckets := s.buckets }) (by fields) ?_ (by simp) ?_
  · simp only [List.take_succ_cons, List.take_zero]
    reads
  · intro h
    exact (Stops.last (Stops.sub (Buckets.stops_take _ hv _ (by simp at hk h ⊢; omega) _))).mono fun _ _ => trivial

theorem GroupDescStats.stops (g : GroupDescStats) (hv : ∀ b ∈ g.buckets, b.Valid)
    (hs : 8 + (g.buckets.map Bucket.size).sum ≤ 65535) (s : GroupDescStats) (k : Nat)
    (hk : k < g.writeTo.out.length) :
    Stops GroupDescStats.readFrom s (g.writeTo.out.take k)
      (if k < 8 then none else
        listCut Bucket.size (fun b j => (b.cut j).bind skipEOF) g.buckets (k - 8)) (fun _ => True) d := by
  rw [← Buckets.bytes_length] at hs
  rw [GroupDescStats.out_eq] at hk ⊢
  have hl : (be (UInt16.ofNat (8 + (Buckets.bytes g.buckets).length)) ++ (be g.type ++ (zeros 1 ++
      be g.group))).length = 8 := by simp
  simp only at hk ⊢
  rw [List.length_append, hl] at hk
  unfold GroupDescStats.readFrom
  refine (Stops.withLocal (V := fun _ => True) ?_).mono fun _ _ => trivial
  by_cases h : k < 8
  · rw [if_pos h, take_append_lt (by omega)]
    have hF : Fields (Enc.readFrom [
      Enc.num (fun v s => (s.1, v)), Enc.num (fun v s => ({ s.1 with type := v }, s.2)),
      Enc.skip 1, Enc.num (fun v s => ({ s.1 with group := v }, s.2))] : Step (GroupDescStats × UInt16))
      [2, 1, 1, 4] := by fields
    refine Stops.consNone (Stops.ignoreErr (hF.stops (d := 0) ?_)) fun s1 b1 _ hb => ?_
    · rw [List.length_take, hl]; simp; omega
    · have : b1 = [] := List.length_eq_zero_iff.mp (by omega)
      subst this
      exact (Stops.last (Stops.dyn (Stops.limited (Stops.sub (Stops.sliceNil Bucket.eof _)) (by simp)))).mono
        fun _ _ => trivial
  · rw [if_neg h, take_append_ge (by omega), hl]
    refine Stops.consC (s1 := ({ g with buckets := s.buckets }, UInt16.ofNat (8 + (Buckets.bytes g.buckets).length)))
      (Reads.ignoreErrC ?_) ?_
    · reads
    · refine (Stops.last (Stops.dyn (Stops.limited (Stops.sub (Buckets.stops_take _ hv _ ?_ _)) ?_))).mono
        fun _ _ => trivial
      · omega
      · have := u16_ofNat_sub (c := 8) (L := (Buckets.bytes g.buckets).length) hs
        simp only [List.length_take]
        simp only [show (8 : UInt16).toNat = 8 from rfl] at this
        rw [this]; omega

/-! ## Meters -/

theorem MeterBandStats.fields : Fields MeterBandStats.readFrom [8, 8] :=
  Fields.cons Fields.num (Fields.cons Fields.num Fields.nil)

theorem MeterBandStatss.stops (bs : List MeterBandStats) (k : Nat) (hk : k < 16 * bs.length)
    (s : List MeterBandStats) :
    Stops (Enc.readSliceFrom ⟨0, 0⟩ MeterBandStats.readFrom) s ((MeterBandStatss.bytes bs).take k)
      (skipEOF (eofIn [0, 8] (k % 16))) (· = s) d :=
  Stops.slice16 (fun b => by simp [MeterBandStats.writeTo, Enc.writeTo, Enc.gather]) (fun b => b.reads _)
    MeterBandStats.fields MeterBandStats.eof bs k hk s

theorem MeterStats.header_fields : Fields MeterStats.header [4, 2, 6, 4, 8, 8, 4, 4] :=
  Fields.cons Fields.num (Fields.cons Fields.num (Fields.cons Fields.skip (Fields.cons Fields.num
    (Fields.cons Fields.num (Fields.cons Fields.num (Fields.cons Fields.num (Fields.cons Fields.num
      Fields.nil)))))))

theorem MeterStats.stops (m : MeterStats) (hs : 40 + 16 * m.bandStats.length ≤ 65535) (s : MeterStats) (k : Nat)
    (hk : k < 40 + 16 * m.bandStats.length) :
    Stops MeterStats.readFrom s (m.writeTo.out.take k)
      (if k < 40 then none else skipEOF (eofIn [0, 8] ((k - 40) % 16))) (fun _ => True) d := by
  have hb := MeterBandStatss.bytes_length m.bandStats
  rw [MeterStats.out_eq]
  have hl : (be m.meter ++ (be (UInt16.ofNat (40 + (MeterBandStatss.bytes m.bandStats).length)) ++ (zeros 6 ++
      (be m.flowCount ++ (be m.packetInCount ++ (be m.byteInCount ++ (be m.durationSec ++
        be m.durationNSec))))))).length = 40 := by simp
  simp only
  unfold MeterStats.readFrom
  refine (Stops.withLocal (V := fun _ => True) ?_).mono fun _ _ => trivial
  by_cases h : k < 40
  · rw [if_pos h, take_append_lt (by omega)]
    refine Stops.consNone (Stops.ignoreErr (MeterStats.header_fields.stops (d := 0) ?_)) fun s1 b1 _ hb => ?_
    · rw [List.length_take, hl]; simp; omega
    · have : b1 = [] := List.length_eq_zero_iff.mp (by omega)
      subst this
      exact (Stops.last (Stops.dyn (Stops.limited (Stops.sub (Stops.sliceNil MeterBandStats.eof _)) (by simp)))).mono
        fun _ _ => trivial
  · rw [if_neg h, take_append_ge (by omega), hl]
    refine Stops.consC (s1 := ({ m with bandStats := s.bandStats },
      UInt16.ofNat (40 + (MeterBandStatss.bytes m.bandStats).length))) (Reads.ignoreErrC ?_) ?_
    · unfold MeterStats.header
      reads
    · refine (Stops.last (Stops.dyn (Stops.limited (Stops.sub (MeterBandStatss.stops _ _ ?_ _)) ?_))).mono
        fun _ _ => trivial
      · omega
      · have := u16_ofNat_sub (c := 40) (L := (MeterBandStatss.bytes m.bandStats).length) (by simpa [hb] using hs)
        simp only [List.length_take]
        simp only [show (40 : UInt16).toNat = 40 from rfl] at this
        rw [this]; omega

/-- The error of the decoder of a list of bands on the first `k` bytes. -/
def MeterBands.cut (bs : List MeterBand) (k : Nat) : Option Err :=
  listCut (fun _ => 16) (fun b j => if j < 2 then none else skipEOF (eofIn b.cuts j)) bs k

theorem MeterBands.stops_take (bs : List MeterBand) (k : Nat) (hk : k < 16 * bs.length) (s : List MeterBand) :
    Stops MeterBands.readFrom s ((MeterBands.bytes bs).take k) (MeterBands.cut bs k) (· = s) := by
  have hsum : (bs.map fun _ => 16).sum = 16 * bs.length := by
    clear hk; induction bs with
    | nil => rfl
    | cons b bs ih => simp only [List.map_cons, List.sum_cons, List.length_cons, ih]; omega
  exact Stops.subVal (get := id) (Stops.scanList (enc := MeterBand.bytes) (zero := MeterBand.zero)
    (code := MeterBand.type) (sz := fun _ => 16) (cut := fun b j => some (eofIn b.cuts j)) bs
    (fun b _ => b.bytes_length) (fun b _ => b.reads' _ (by cases b <;> rfl)) meterBandMake_type
    MeterBand.bytes_type (fun b _ j hj => b.stops j hj) k (by rw [hsum]; exact hk) s)

theorem MeterMod.stops (m : MeterMod) (s : MeterMod) (k : Nat) (hk : k < 8 + 16 * m.bands.length) :
    Stops MeterMod.readFrom s (m.writeTo.out.take k)
      (if k < 8 then some (eofIn [0, 2, 4] k) else MeterBands.cut m.bands (k - 8)) (fun _ => True) := by
  have ho : m.writeTo.out = (be m.command ++ (be m.flags ++ be m.meter)) ++ MeterBands.bytes m.bands := by
    rw [MeterMod.out_eq]; simp
  rw [ho]
  refine Stops.first (ks := [2, 2, 4]) 3 (s1 := { m with bands := s.bands }) (by fields) ?_ (by simp) ?_
  · simp only [List.take_succ_cons, List.take_zero]
    reads
  · intro h
    exact (Stops.last (Stops.sub (MeterBands.stops_take _ _ (by simp at h ⊢; omega) _))).mono fun _ _ => trivial

theorem MeterConfig.stops (m : MeterConfig) (hs : 8 + 16 * m.bands.length ≤ 65535) (s : MeterConfig) (k : Nat)
    (hk : k < 8 + 16 * m.bands.length) :
    Stops MeterConfig.readFrom s (m.writeTo.out.take k)
      (if k < 8 then some (eofIn [0, 2, 4] k) else MeterBands.cut m.bands (k - 8)) (fun _ => True) d := by
  have ho : m.writeTo.out = (be (UInt16.ofNat (8 + (MeterBands.bytes m.bands).length)) ++ (be m.flags ++
      be m.meter)) ++ MeterBands.bytes m.bands := by
    rw [MeterConfig.out_eq]; simp
  rw [ho]
  unfold MeterConfig.readFrom
  refine (Stops.withLocal (V := fun _ => True) ?_).mono fun _ _ => trivial
  refine Stops.first (ks := [2, 2, 4]) 3 (s1 := ({ m with bands := s.bands },
    UInt16.ofNat (8 + (MeterBands.bytes m.bands).length))) (by fields) ?_ (by simp) ?_
  · simp only [List.take_succ_cons, List.take_zero]
    reads
  · intro h
    refine (Stops.last (Stops.dyn (Stops.limited (Stops.sub (MeterBands.stops_take _ _ ?_ _)) ?_))).mono
      fun _ _ => trivial
    · simp at h ⊢; omega
    · have hb := MeterBands.bytes_length m.bands
      have := u16_ofNat_sub (c := 8) (L := (MeterBands.bytes m.bands).length) (by simpa [hb] using hs)
      simp only [List.length_take]
      simp only [show (8 : UInt16).toNat = 8 from rfl] at this
      rw [this]; omega

/-! ## Queues -/

/-- The error of the decoder of a list of queue properties on the first `k` bytes. -/
def QueueProps.cut (qs : List QueueProp) (k : Nat) : Option Err :=
  listCut QueueProp.size (fun q j => if j < 2 then none else
    (if 16 ≤ j then none else some (eofIn q.cuts j)).bind skipEOF) qs k

theorem QueueProps.stops_take (qs : List QueueProp) (hv : ∀ q ∈ qs, q.Valid) (k : Nat)
    (hk : k < (QueueProps.bytes qs).length) (s : List QueueProp) :
    Stops QueueProps.readFrom s ((QueueProps.bytes qs).take k) (QueueProps.cut qs k) (· = s) :=
  Stops.subVal (get := id) (Stops.scanList (enc := QueueProp.bytes) (zero := QueueProp.zero)
    (code := QueueProp.type) (sz := QueueProp.size) qs
    (fun b _ => b.bytes_length) (fun b hb => b.reads' _ (hv b hb) (by cases b <;> rfl)) queuePropMake_type
    QueueProp.bytes_type (fun b hb j hj => b.stops (hv b hb) j hj) k
    (by rw [← QueueProps.bytes_length]; exact hk) s)

/-- The error of the decoder of a queue on the first `k` bytes. -/
def PacketQueue.cut (q : PacketQueue) (k : Nat) : Option Err :=
  if k < 16 then some (eofIn [0, 4, 8, 10] k) else QueueProps.cut q.properties (k - 16)

theorem PacketQueue.stops (q : PacketQueue) (hv : q.Valid) (s : PacketQueue) (k : Nat) (hk : k < q.size) :
    Stops PacketQueue.readFrom s (q.bytes.take k) (q.cut k) (fun _ => True) d := by
  obtain ⟨h1, h2⟩ := hv
  rw [PacketQueue.size, ← QueueProps.bytes_length] at h2
  have ho : q.bytes = (be q.queue ++ (be q.port ++ (be (UInt16.ofNat (16 + (QueueProps.bytes q.properties).length)) ++
      zeros 6))) ++ QueueProps.bytes q.properties := by
    rw [PacketQueue.bytes_eq, Nat.add_comm 16]; simp
  rw [ho]
  unfold PacketQueue.readFrom
  refine (Stops.withLocal (V := fun _ => True) ?_).mono fun _ _ => trivial
  refine Stops.first (ks := [4, 4, 2, 6]) 4 (s1 := ({ q with properties := s.properties },
    UInt16.ofNat (16 + (QueueProps.bytes q.properties).length))) (by fields) ?_ (by simp) ?_
  · simp only [List.take_succ_cons, List.take_zero]
    reads
  · intro h
    rw [PacketQueue.size, ← QueueProps.bytes_length] at hk
    refine (Stops.last (Stops.dyn (Stops.limited (Stops.sub (QueueProps.stops_take _ h1 _ ?_ _)) ?_))).mono
      fun _ _ => trivial
    · simp at h ⊢; omega
    · have := u16_ofNat_sub (c := 16) (L := (QueueProps.bytes q.properties).length) h2
      simp only [List.length_take]
      simp only [show (16 : UInt16).toNat = 16 from rfl] at this
      rw [this]; omega

theorem QueueGetConfigReply.stops (q : QueueGetConfigReply) (hv : ∀ p ∈ q.queues, p.Valid) (s : QueueGetConfigReply)
    (k : Nat) (hk : k < 8 + (q.queues.map PacketQueue.size).sum) :
    Stops QueueGetConfigReply.readFrom s (q.writeTo.out.take k)
      (if k < 8 then some (eofIn [0, 4] k) else
        listCut PacketQueue.size (fun p j => (p.cut j).bind skipEOF) q.queues (k - 8)) (fun _ => True) d := by
  have ho : q.writeTo.out = (be q.port ++ zeros 4) ++ PacketQueues.bytes q.queues := by
    rw [QueueGetConfigReply.out_eq]; simp
  rw [ho]
  refine Stops.first (ks := [4, 4]) 2 (s1 := { q with queues := s.queues }) (by fields) ?_ (by simp) ?_
  · simp only [List.take_succ_cons, List.take_zero]
    reads
  · intro h
    refine (Stops.last (Stops.sub (Stops.slice (val := fun q => { q with properties := [] }) _
      (fun b _ => b.bytes_length) (fun b hb => b.reads PacketQueue.zero (hv b hb))
      (fun b hb j hj => b.stops (hv b hb) _ j hj) PacketQueue.eof _ ?_
      (fun b _ => by rw [PacketQueue.size]; omega) _))).mono fun _ _ => trivial
    simp at h ⊢; omega

end Verif
