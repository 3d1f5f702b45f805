import Verif.EncodingSafe

/-!
# `encoding.ScanFrom` on sequences that end badly
-/

namespace Verif

variable {τ : Type}

theorem scanLoop_unknown {mk : UInt16 → Except Err τ} {st : Step τ} {enc : τ → Bytes}
    {zero : τ → τ} {code : τ → UInt16} (c : UInt16) (err : Err) (tail : Bytes) (hc0 : mk c = .error err)
    (xs : List τ) (h : ∀ x ∈ xs, Reads st (zero x) (enc x) x)
    (hmk : ∀ x ∈ xs, mk (code x) = .ok (zero x))
    (hcode : ∀ x ∈ xs, ∃ t, enc x = be (code x) ++ t) :
    ∀ (fuel : Nat) (acc : List τ) (n : Nat) (b : Bytes) (e : Option Err) (r0 : Rd),
      (Rd.buf b e r0).Ok .eof → (Rd.buf b e r0).content = xs.flatMap enc ++ (be c ++ tail) →
      (Rd.buf b e r0).content.length < fuel →
      ∃ r', Enc.scanLoop mk st fuel acc n (.buf b e r0) =
        ⟨acc ++ xs, n + (xs.flatMap enc).length, some err, r'⟩ := by
  induction xs with
  | nil =>
    intro fuel acc n b e r0 hr hc hf
    cases fuel with
    | zero => omega
    | succ fuel =>
      have hl : (Rd.buf b e r0).content.length = 2 + tail.length := by rw [hc]; simp
      obtain ⟨b', e', r', h1, h2, h3 | h3⟩ := peek2_spec .eof b e r0 hr
      · have htk : (Rd.buf b e r0).content.take 2 = be c := by
          rw [hc, List.flatMap_nil, List.nil_append,
            List.take_append_of_le_length (by simp), List.take_of_length_le (by simp)]
        exact ⟨.buf b' e' r', by simp only [Enc.scanLoop, h3.2, htk, ofBE_be, hc0]; simp⟩
      · omega
  | cons x xs ih =>
    intro fuel acc n b e r0 hr hc hf
    cases fuel with
    | zero => omega
    | succ fuel =>
      obtain ⟨t, ht⟩ := hcode x (by simp)
      have hlen : 2 ≤ (enc x).length := by rw [ht]; simp
      have hcl : (Rd.buf b e r0).content.length =
          (enc x).length + (xs.flatMap enc ++ (be c ++ tail)).length := by
        rw [hc]; simp
      obtain ⟨b', e', r', h1, h2, h3 | h3⟩ := peek2_spec .eof b e r0 hr
      · have htk : (Rd.buf b e r0).content.take 2 = be (code x) := by
          rw [hc, List.flatMap_cons, ht]
          simp only [List.append_assoc]
          rw [List.take_append_of_le_length (by simp), List.take_of_length_le (by simp)]
        have hc' : (Rd.buf b' e' r').content = enc x ++ (xs.flatMap enc ++ (be c ++ tail)) := by
          rw [h1.content.2, hc]; simp
        obtain ⟨r1, e1, a1, o1⟩ := h x (by simp) (.buf b' e' r') _ h2 hc'
        obtain ⟨b2, e2, r2, hb2⟩ := a1.isBuf
        subst hb2
        have hc2 : (Rd.buf b2 e2 r2).content = xs.flatMap enc ++ (be c ++ tail) := by
          rw [a1.content.2, hc']; simp
        obtain ⟨r3, e3⟩ := ih (fun y hy => h y (by simp [hy]))
          (fun y hy => hmk y (by simp [hy])) (fun y hy => hcode y (by simp [hy]))
          fuel (acc ++ [x]) (n + (enc x).length) b2 e2 r2 o1 hc2 (by rw [hc2]; omega)
        refine ⟨r3, ?_⟩
        simp only [Enc.scanLoop, h3.2, htk, ofBE_be, hmk x (by simp), e1, e3]
        simp [Nat.add_assoc]
      · omega

/-- An element of an unregistered type, after any sequence of well-formed ones. -/
theorem scanFrom_unknown {mk : UInt16 → Except Err τ} {st : Step τ} {enc : τ → Bytes}
    {zero : τ → τ} {code : τ → UInt16} (c : UInt16) (err : Err) (tail : Bytes) (hc0 : mk c = .error err)
    (s xs : List τ) (h : ∀ x ∈ xs, Reads st (zero x) (enc x) x)
    (hmk : ∀ x ∈ xs, mk (code x) = .ok (zero x))
    (hcode : ∀ x ∈ xs, ∃ t, enc x = be (code x) ++ t) (r : Rd) (hr : r.Ok .eof)
    (hc : r.content = xs.flatMap enc ++ (be c ++ tail)) :
    (Enc.scanFrom mk st s r).val = s ++ xs ∧ (Enc.scanFrom mk st s r).err = some err ∧
      (Enc.scanFrom mk st s r).n = (xs.flatMap enc).length := by
  obtain ⟨b, e, r0, hw⟩ := Rd.wrapBuf_isBuf r
  have hcw := Rd.content_wrapBuf r
  have how := hr.wrapBuf
  rw [hw] at hcw how
  obtain ⟨r', e1⟩ := scanLoop_unknown c err tail hc0 xs h hmk hcode (r.content.length + 1) s 0 b e r0
    how (by rw [hcw, hc]) (by rw [hcw]; omega)
  simp [Enc.scanFrom, hw, e1]

end Verif
