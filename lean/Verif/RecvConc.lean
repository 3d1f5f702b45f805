import Verif.Request
import Verif.Mutex

/-!
# Concurrent use of the receiving half of a connection (net.go:131-148)

`conn.Read` takes no lock, and `Receive` makes several `Read` calls: one or more for each
field of the header (header.go:238-240) and one or more for the body (request.go:205-210).
One step is one `Read` call; that is charitable, since concurrent `bufio.Reader.Read` calls
are a data race of their own.
-/

namespace Verif

/-- The position of a goroutine inside `Receive`. -/
inductive RPos where
  /-- reading the header, with these bytes so far -/
  | hdr (got : Bytes)
  /-- reading the body -/
  | body (h : Header) (got : Bytes)
  | done (q : Option Request) (e : Option Err)

/-- The end of the header field that contains offset `n` (header.go:206-220: 1, 1, 2 and 4
bytes). -/
def fieldEnd (n : Nat) : Nat := if n < 1 then 1 else if n < 2 then 2 else if n < 4 then 4 else 8

/-- The start of that field. -/
def fieldStart (n : Nat) : Nat := if n < 1 then 0 else if n < 2 then 1 else if n < 4 then 2 else 4

/-- One step of `Receive`: net.go:136-148, request.go:178-216, header.go:238-240,
encoding.go:90-113 (`binary.Read` uses `io.ReadFull`). -/
def RPos.step : RPos → Rd → Option (RPos × Rd)
  | .done _ _, _ => none
  | .hdr got, r =>
    if 8 ≤ got.length then
      let h := Header.ofBytes got
      if h.len < headerlen then some (.done none (some .corruptedHeader), r)
      else some (.body h [], r)
    else
      match r.read (fieldEnd got.length - got.length) with
      | (o, none, r') => some (.hdr (got ++ o), r')
      | (o, some e, r') =>
        if fieldEnd got.length ≤ (got ++ o).length then some (.hdr (got ++ o), r')
        else if (got ++ o).length ≠ fieldStart got.length ∧ e = .eof then
          some (.done none (some .unexpectedEOF), r')
        else some (.done none (some e), r')
  | .body h got, r =>
    if h.len - headerlen - got.length = 0 then
      some (.done (some ⟨h, .buffer got, 1, (h.version - 1).toNat, h.len - headerlen⟩) none, r)
    else
      match r.read (h.len - headerlen - got.length) with
      | (_, some e, r') => some (.done none (some e), r')
      | (o, none, r') => some (.body h (got ++ o), r')

/-- The receiving half of a connection as an object with one method. -/
def recvMachine : Machine Rd RPos Unit (Option Request × Option Err) where
  start := fun _ => .hdr []
  step := RPos.step
  stop := fun m => match m with
    | .done q e => some (q, e)
    | _ => none

theorem recvStep (m : RPos) (r : Rd) : recvMachine.step m r = m.step r := rfl

/-- `Receive` executed alone. -/
def recvRun (r : Rd) (_ : Unit) : (Option Request × Option Err) × Rd :=
  (((Conn.receive r).1, (Conn.receive r).2.1), (Conn.receive r).2.2)

/-! ## `Receive` executed alone is `Conn.receive` -/

theorem Rd.read_length (k : Nat) (r : Rd) : (r.read k).1.length ≤ k := by
  induction r generalizing k with
  | src d s f t =>
    simp only [Rd.read]
    split
    · simp
    · split
      · simp
      · simp only [List.length_take]; omega
  | lim n r ih =>
    simp only [Rd.read]
    split
    · simp
    · have := ih (min k n); simp only; omega
  | buf b e r ih =>
    simp only [Rd.read]
    split
    · split <;> simp
    · split
      · simp only [List.length_take]; omega
      · split
        · simp
        · split
          · exact ih k
          · split
            · simp
            · simp only [List.length_take]; omega

theorem Rd.read_nonempty (k : Nat) (r : Rd) (hk : 0 < k) (h : (r.read k).2.1 = none) :
    (r.read k).1 ≠ [] := by
  induction r generalizing k with
  | src d s f t =>
    simp only [Rd.read] at h ⊢
    rw [if_neg (by omega)] at h ⊢
    by_cases hd : d = []
    · rw [if_pos hd] at h; simp at h
    · rw [if_neg hd]
      simp only [ne_eq, List.take_eq_nil_iff, hd, or_false]
      have : 0 < (match s with | [] => k | s :: _ => s + 1) := by split <;> omega
      exact Nat.pos_iff_ne_zero.mp (Nat.lt_min.mpr ⟨hk, this⟩)
  | lim n r ih =>
    simp only [Rd.read] at h ⊢
    by_cases hn : n = 0
    · rw [if_pos hn] at h; simp at h
    · rw [if_neg hn] at h ⊢
      exact ih (min k n) (by omega) h
  | buf b e r ih =>
    simp only [Rd.read] at h ⊢
    rw [if_neg (by omega)] at h ⊢
    by_cases hb : b = []
    · rw [if_neg (by simp [hb])] at h ⊢
      cases e with
      | some e => simp at h
      | none =>
        simp only at h ⊢
        by_cases hs : bufSize ≤ k
        · rw [if_pos hs] at h ⊢; exact ih k hk h
        · rw [if_neg hs] at h ⊢
          have := ih bufSize (by simp [bufSize])
          revert h this
          rcases r.read bufSize with ⟨o, e, r'⟩
          simp only
          intro h this
          by_cases ho : o = []
          · rw [if_pos ho] at h
            simp only at h
            exact absurd ho (this h)
          · rw [if_neg ho]
            simp only [ne_eq, List.take_eq_nil_iff, ho, or_false]; omega
    · rw [if_pos hb]
      simp only [ne_eq, List.take_eq_nil_iff, hb, or_false]; omega

/-- Reading one field. -/
theorem RPos.field_runs (got : Bytes) (k : Nat)
    (hk : ∀ j, j < k → fieldEnd (got.length + j) = got.length + k ∧
      fieldStart (got.length + j) = got.length) (h8 : got.length + k ≤ 8)
    (fuel : Nat) (p : Bytes) (r : Rd) (hp : p.length ≤ k) (hf : k - p.length < fuel) :
    ∀ o e r', readLoop fuel (k - p.length) r = (o, e, r') →
      ((p ++ o).length ≤ k) ∧ ((p ++ o).length < k → e ≠ none) ∧
      recvMachine.Runs (.hdr (got ++ p)) r
        (if k ≤ (p ++ o).length then .hdr (got ++ (p ++ o))
         else if p ++ o ≠ [] ∧ e = some .eof then .done none (some .unexpectedEOF)
         else .done none e) r' := by
  induction fuel generalizing p r with
  | zero => omega
  | succ fuel ih =>
    intro o e r' h
    unfold readLoop at h
    by_cases hn : k - p.length = 0
    · rw [if_pos hn] at h
      simp only [Prod.mk.injEq] at h
      obtain ⟨rfl, rfl, rfl⟩ := h
      simp only [List.append_nil]
      refine ⟨hp, fun h => by omega, ?_⟩
      rw [if_pos (by omega)]
      exact .refl _ _
    · rw [if_neg hn] at h
      obtain ⟨f1, f2⟩ := hk p.length (by omega)
      have hneed : fieldEnd (got ++ p).length - (got ++ p).length = k - p.length := by
        rw [List.length_append, f1]; omega
      have hlen := r.read_length (k - p.length)
      have hne := r.read_nonempty (k - p.length) (by omega)
      rcases hr : r.read (k - p.length) with ⟨o1, e1, r1⟩
      rw [hr] at h hlen hne
      simp only at h hlen hne
      have h8' : ¬ 8 ≤ (got ++ p).length := by rw [List.length_append]; omega
      cases e1 with
      | some e1 =>
        simp only [Prod.mk.injEq] at h
        obtain ⟨rfl, rfl, rfl⟩ := h
        refine ⟨by rw [List.length_append]; omega, fun _ => by simp, ?_⟩
        refine .head (m' := _) (b' := r1) ?_ (.refl _ _)
        simp only [recvStep, RPos.step]
        rw [if_neg h8', hneed, hr]
        have e1' : (fieldEnd (got ++ p).length ≤ (got ++ p ++ o1).length) ↔ k ≤ (p ++ o1).length := by
          simp only [List.length_append, f1]; omega
        have e2' : ((got ++ p ++ o1).length ≠ fieldStart (got ++ p).length ∧ e1 = .eof) ↔
            (p ++ o1 ≠ [] ∧ some e1 = some Err.eof) := by
          rw [← List.length_pos_iff]
          simp only [List.length_append, f2, Option.some.injEq]
          constructor <;> rintro ⟨h, h'⟩ <;> exact ⟨by omega, h'⟩
        simp only [e1', e2']
        by_cases hfull : k ≤ (p ++ o1).length
        · rw [if_pos hfull, if_pos hfull, List.append_assoc]
        · rw [if_neg hfull, if_neg hfull]
          by_cases hc : p ++ o1 ≠ [] ∧ some e1 = some Err.eof
          · rw [if_pos hc, if_pos hc]
          · rw [if_neg hc, if_neg hc]
      | none =>
        simp only at h
        have ho1 : 0 < o1.length := List.length_pos_iff.mpr (hne rfl)
        have hkk : k - p.length - o1.length = k - (p ++ o1).length := by
          rw [List.length_append]; omega
        rcases hl : readLoop fuel (k - p.length - o1.length) r1 with ⟨o2, e2, r2⟩
        rw [hl] at h
        simp only [Prod.mk.injEq] at h
        obtain ⟨rfl, rfl, rfl⟩ := h
        rw [hkk] at hl
        obtain ⟨i1, i2, i3⟩ := ih (p ++ o1) r1 (by rw [List.length_append]; omega)
          (by rw [List.length_append]; omega) o2 e2 r2 hl
        rw [List.append_assoc] at i1 i2 i3
        refine ⟨i1, i2, ?_⟩
        refine .head (m' := .hdr (got ++ (p ++ o1))) (b' := r1) ?_ i3
        simp only [recvStep, RPos.step]
        rw [if_neg h8', hneed, hr]
        simp only [List.append_assoc]

/-- Reading one field with `io.ReadFull`. -/
theorem RPos.full_runs (got : Bytes) (k : Nat)
    (hk : ∀ j, j < k → fieldEnd (got.length + j) = got.length + k ∧
      fieldStart (got.length + j) = got.length) (h8 : got.length + k ≤ 8) (r : Rd) :
    (∃ o r', readFull k r = (o, none, r') ∧ o.length = k ∧
      recvMachine.Runs (.hdr got) r (.hdr (got ++ o)) r') ∨
    (∃ o e r', readFull k r = (o, some e, r') ∧
      recvMachine.Runs (.hdr got) r (.done none (some e)) r') := by
  rcases hl : readLoop (k + 1) k r with ⟨o, e, r'⟩
  obtain ⟨h1, h2, h3⟩ := RPos.field_runs got k hk h8 (k + 1) [] r (by simp) (by simp) o e r' hl
  simp only [List.append_nil, List.nil_append] at h1 h2 h3
  unfold readFull
  rw [hl]
  simp only
  by_cases hf : k ≤ o.length
  · left
    rw [if_pos hf] at h3 ⊢
    exact ⟨o, r', rfl, by omega, h3⟩
  · right
    rw [if_neg hf] at h3 ⊢
    by_cases hc : o ≠ [] ∧ e = some .eof
    · rw [if_pos hc] at h3 ⊢
      exact ⟨o, _, r', rfl, h3⟩
    · rw [if_neg hc] at h3 ⊢
      cases e with
      | none => exact absurd rfl (h2 (by omega))
      | some e => exact ⟨o, e, r', rfl, h3⟩

theorem num_full {σ α : Type} [Wire α] {set : α → σ → σ} {s : σ} {r r' : Rd} {o : Bytes}
    (h : readFull (Wire.size α) r = (o, none, r')) :
    Enc.num set s r = ⟨set (ofBE α o) s, o.length, none, r'⟩ := by
  simp [Enc.num, Enc.bin, h]

theorem num_full_err {σ α : Type} [Wire α] {set : α → σ → σ} {s : σ} {r r' : Rd} {o : Bytes}
    {e : Err} (h : readFull (Wire.size α) r = (o, some e, r')) :
    Enc.num set s r = ⟨s, o.length, some e, r'⟩ := by
  simp [Enc.num, Enc.bin, h]

/-- Reading the header. -/
theorem RPos.header_runs (s : Header) (r : Rd) :
    (∃ got n r', got.length = 8 ∧ Header.readFrom s r = ⟨Header.ofBytes got, n, none, r'⟩ ∧
      recvMachine.Runs (.hdr []) r (.hdr got) r') ∨
    (∃ h n e r', Header.readFrom s r = ⟨h, n, some e, r'⟩ ∧
      recvMachine.Runs (.hdr []) r (.done none (some e)) r') := by
  unfold Header.readFrom
  rcases RPos.full_runs [] 1
    (fun j hj => by simp [fieldEnd, fieldStart]; omega) (by simp) r with
    ⟨o1, r1, a1, a2, a3⟩ | ⟨o1, e, r1, a1, a2⟩
  case inr =>
    right
    rw [readFrom_err (num_full_err (α := UInt8) a1)]
    exact ⟨_, _, _, _, rfl, a2⟩
  rw [readFrom_ok (num_full (α := UInt8) a1)]
  rcases RPos.full_runs ([] ++ o1) 1
    (fun j hj => by simp [fieldEnd, fieldStart, a2]; omega) (by simp [a2]) r1 with
    ⟨o2, r2, b1, b2, b3⟩ | ⟨o2, e, r2, b1, b2⟩
  case inr =>
    right
    rw [readFrom_err (num_full_err (α := UInt8) b1)]
    exact ⟨_, _, _, _, rfl, a3.trans b2⟩
  rw [readFrom_ok (num_full (α := UInt8) b1)]
  rcases RPos.full_runs ([] ++ o1 ++ o2) 2
    (fun j hj => by
      have : j = 0 ∨ j = 1 := by omega
      rcases this with rfl | rfl <;> simp [fieldEnd, fieldStart, a2, b2]) (by simp [a2, b2]) r2 with
    ⟨o3, r3, c1, c2, c3⟩ | ⟨o3, e, r3, c1, c2⟩
  case inr =>
    right
    rw [readFrom_err (num_full_err (α := UInt16) c1)]
    exact ⟨_, _, _, _, rfl, (a3.trans b3).trans c2⟩
  rw [readFrom_ok (num_full (α := UInt16) c1)]
  rcases RPos.full_runs ([] ++ o1 ++ o2 ++ o3) 4
    (fun j hj => by
      have : j = 0 ∨ j = 1 ∨ j = 2 ∨ j = 3 := by omega
      rcases this with rfl | rfl | rfl | rfl <;> simp [fieldEnd, fieldStart, a2, b2, c2])
    (by simp [a2, b2, c2]) r3 with
    ⟨o4, r4, d1, d2, d3⟩ | ⟨o4, e, r4, d1, d2⟩
  case inr =>
    right
    rw [readFrom_err (num_full_err (α := UInt32) d1)]
    exact ⟨_, _, _, _, rfl, ((a3.trans b3).trans c3).trans d2⟩
  rw [readFrom_ok (num_full (α := UInt32) d1)]
  left
  refine ⟨[] ++ o1 ++ o2 ++ o3 ++ o4, o1.length + (o2.length + (o3.length + o4.length)), r4, by simp [a2, b2, c2, d2], ?_,
    ((a3.trans b3).trans c3).trans d3⟩
  have t4 : ∀ n, 4 ≤ n → o4.take n = o4 := fun n h => List.take_of_length_le (by omega)
  have u1 : ∀ n, 1 ≤ n → o1.drop n = [] := fun n h => List.drop_eq_nil_of_le (by omega)
  have u2 : ∀ n, 1 ≤ n → o2.drop n = [] := fun n h => List.drop_eq_nil_of_le (by omega)
  simp [Enc.readFrom, Header.ofBytes, List.drop_append, t4, u1, u2,
    a2, b2, c2]

/-- Reading the body. -/
theorem RPos.body_runs (h : Header) (fuel : Nat) (got : Bytes) (r : Rd)
    (hg : got.length ≤ h.len - headerlen) (hf : h.len - headerlen - got.length < fuel) :
    ∀ o e r', bodyLoop fuel (h.len - headerlen - got.length) r = (o, e, r') →
      recvMachine.Runs (.body h got) r (match e with
        | some e => .done none (some e)
        | none => .done (some ⟨h, .buffer (got ++ o), 1, (h.version - 1).toNat, h.len - headerlen⟩) none)
        r' := by
  induction fuel generalizing got r with
  | zero => omega
  | succ fuel ih =>
    intro o e r' hb
    unfold bodyLoop at hb
    by_cases hn : h.len - headerlen - got.length = 0
    · rw [if_pos hn] at hb
      simp only [Prod.mk.injEq] at hb
      obtain ⟨rfl, rfl, rfl⟩ := hb
      refine .head (b' := r) ?_ (.refl _ _)
      simp only [recvStep, RPos.step]
      rw [if_pos hn]; simp
    · rw [if_neg hn] at hb
      have hlen := r.read_length (h.len - headerlen - got.length)
      have hne := r.read_nonempty (h.len - headerlen - got.length) (by omega)
      rcases hr : r.read (h.len - headerlen - got.length) with ⟨o1, e1, r1⟩
      rw [hr] at hb hlen hne
      simp only at hb hlen hne
      cases e1 with
      | some e1 =>
        simp only [Prod.mk.injEq] at hb
        obtain ⟨rfl, rfl, rfl⟩ := hb
        refine .head (b' := r1) ?_ (.refl _ _)
        simp only [recvStep, RPos.step]
        rw [if_neg hn, hr]
      | none =>
        have ho1 : 0 < o1.length := List.length_pos_iff.mpr (hne rfl)
        simp only at hb
        rcases hl : bodyLoop fuel (h.len - headerlen - got.length - o1.length) r1 with ⟨o2, e2, r2⟩
        rw [hl] at hb
        simp only [Prod.mk.injEq] at hb
        obtain ⟨rfl, rfl, rfl⟩ := hb
        have hkk : h.len - headerlen - got.length - o1.length =
            h.len - headerlen - (got ++ o1).length := by rw [List.length_append]; omega
        rw [hkk] at hl
        have := ih (got ++ o1) r1 (by rw [List.length_append]; omega)
          (by rw [List.length_append]; omega) o2 e2 r2 hl
        rw [List.append_assoc] at this
        refine .head (m' := .body h (got ++ o1)) (b' := r1) ?_ this
        simp only [recvStep, RPos.step]
        rw [if_neg hn, hr]

theorem recvMachine_sound : recvMachine.Sound recvRun where
  last m r s h := by
    cases m <;> simp [recvMachine] at h
    simp [recvMachine, RPos.step]
  runs k r := by
    show ∃ m, recvMachine.Runs (.hdr []) r m (recvRun r k).2 ∧ _
    unfold recvRun Conn.receive Request.readFrom
    rcases RPos.header_runs Request.zero.header r with ⟨got, n, r1, h1, h2, h3⟩ | ⟨h, n, e, r1, h1, h2⟩
    case inr => rw [h1]; exact ⟨_, h2, rfl⟩
    rw [h2]
    simp only
    by_cases hc : (Header.ofBytes got).len < headerlen
    · rw [if_pos hc]
      refine ⟨.done none (some .corruptedHeader), h3.snoc ?_, rfl⟩
      simp only [recvStep, RPos.step]
      rw [if_pos (by omega), if_pos hc]
    · rw [if_neg hc]
      have h4 : recvMachine.Runs (.hdr []) r (.body (Header.ofBytes got) []) r1 := by
        refine h3.snoc ?_
        simp only [recvStep, RPos.step]
        rw [if_pos (by omega), if_neg hc]
      rcases hb : bodyLoop ((Header.ofBytes got).len - headerlen + 1)
        ((Header.ofBytes got).len - headerlen) r1 with ⟨o, e, r2⟩
      have := RPos.body_runs (Header.ofBytes got) ((Header.ofBytes got).len - headerlen + 1) [] r1
        (by simp) (by simp) o e r2 hb
      cases e with
      | some e => exact ⟨_, h4.trans this, rfl⟩
      | none => exact ⟨_, h4.trans this, rfl⟩

theorem recvMachine_live (m : RPos) (s : Rd) (h : recvMachine.step m s = none) :
    ∃ r, recvMachine.stop m = some r := by
  have hs : m.step s = none := h
  cases m with
  | done q e => exact ⟨_, rfl⟩
  | hdr got =>
    simp only [RPos.step] at hs
    split at hs
    · split at hs <;> simp at hs
    · split at hs
      · simp at hs
      · split at hs
        · simp at hs
        · split at hs <;> simp at hs
  | body hd got =>
    simp only [RPos.step] at hs
    split at hs
    · simp at hs
    · split at hs <;> simp at hs

end Verif
