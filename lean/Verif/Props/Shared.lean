import Verif.Shared
import Verif.Props.Conn
import Verif.Props.Request

/-!
# C88: one request sent by several goroutines
-/

namespace Verif.Props
open Verif

/-- What `Conn.Send` of a request with header `h` and body `y` has to come to: one message with the right
length field, or the error. -/
def SendRight (h : Header) (y : Payload) : Except Err Bytes → Prop
  | .ok m => m.length ≤ 65535 ∧ match y with
    | .nil => Layout m [.num 1 h.version.toNat, .num 1 h.type.toNat, .num 2 m.length, .num 4 h.transaction.toNat]
    | .bytes b => Layout m [.num 1 h.version.toNat, .num 1 h.type.toNat, .num 2 m.length,
        .num 4 h.transaction.toNat, .raw b]
    | .fails _ => False
  | .error e => match y with
    | .nil => False
    | .bytes b => e = .bodyTooLong ∧ 65535 < 8 + b.length
    | .fails e' => e = e'

/-- The bytes of a body. -/
def Payload.data : Payload → Bytes
  | .bytes b => b
  | _ => []

/-- As `SendRight`, with a length field that is too small or too large by a multiple of the size of the
body. -/
def SendShape (h : Header) (y : Payload) : Except Err Bytes → Prop
  | .ok m => (∀ e, y ≠ .fails e) ∧ ∃ k, Layout m [.num 1 h.version.toNat, .num 1 h.type.toNat,
      .num 2 ((8 + k * (Payload.data y).length) % 65536), .num 4 h.transaction.toNat, .raw (Payload.data y)]
  | .error e => SendRight h y (.error e)

/-- While a goroutine is sending a request, no other goroutine is sending the same one. -/
def SendAlone (s : SendSys) : Prop :=
  ∀ i j x d t d' t', i ≠ j → s.todo i = (x, d) :: t → s.todo j = (x, d') :: t' → s.pc i ≠ .idle → s.pc j = .idle

/-- Reachable without sending a request twice at the same time. -/
inductive SendReachAlone (E : SendEnv) (progs : Nat → List (Nat × Nat)) : SendSys → Prop where
  | init : SendReachAlone E progs (.init E progs)
  | step {s s'} (h : SendReachAlone E progs s) (st : SendSys.Step E s s') (ha : SendAlone s') : SendReachAlone E progs s'

private theorem layout_msg (h : Header) (l : UInt16) (b : Bytes) (v : Nat) (hv : l.toNat = v) :
    Layout (({ h with length := l } : Header).writeTo.out ++ b) [.num 1 h.version.toNat, .num 1 h.type.toNat,
      .num 2 v, .num 4 h.transaction.toNat, .raw b] := by
  subst hv
  simp [Header.writeTo_eq, Header.bytes, List.append_assoc]

private theorem msg_length (h : Header) (b : Bytes) : (h.writeTo.out ++ b).length = 8 + b.length := by
  simp [Header.writeTo_eq, Header.bytes_length]

/-- Every goroutine sends what its program says, in this order. -/
theorem send_order (E : SendEnv) (progs : Nat → List (Nat × Nat)) (s : SendSys) (h : SendSys.Reach E progs s) (i : Nat) :
    (s.log.filter (fun ev => ev.go == i)).map (fun ev => (ev.var, ev.conn)) ++ s.todo i = progs i := by
  have fin : ∀ (s : SendSys) (j x d : Nat) (t : List (Nat × Nat)) (res : Except Err Bytes), s.todo j = (x, d) :: t →
      ((s.finish j x d t res).log.filter (fun ev => ev.go == i)).map (fun ev => (ev.var, ev.conn)) ++
        (s.finish j x d t res).todo i =
      (s.log.filter (fun ev => ev.go == i)).map (fun ev => (ev.var, ev.conn)) ++ s.todo i := by
    intro s j x d t res ht
    by_cases hj : j = i
    · subst hj; simp [SendSys.finish, List.filter_append, ht]
    · have hij : i ≠ j := fun h => hj h.symm
      simp [SendSys.finish, List.filter_append, hj, setAt_other _ _ hij]
  induction h with
  | init => rfl
  | step h st ih =>
    cases st with
    | set => exact ih
    | nilBody => exact ih
    | load => exact ih
    | store => exact ih
    | emit => exact ih
    | fail j x d t e hp ht hb => rw [fin _ j x d t _ ht]; exact ih
    | tooLong j x d t b hp ht hb hl => rw [fin _ j x d t _ ht]; exact ih
    | write j x d t m hp ht => rw [fin _ j x d t _ ht]; exact ih

/-- What holds of a goroutine that is sending variable `x` by itself. -/
private def PcRight (E : SendEnv) (len : Nat → UInt16) (x : Nat) : SendPc → Prop
  | .idle => True
  | .set => len x = 8
  | .loaded v => v = 8 ∧ ∃ b, E.body x = .bytes b ∧ b.length + 8 ≤ 65535
  | .stored => ∃ b, E.body x = .bytes b ∧ b.length + 8 ≤ 65535 ∧ (len x).toNat = 8 + b.length
  | .copied m => SendRight (E.hdr x) (E.body x) (.ok m)

private theorem PcRight.frame {E : SendEnv} {len len' : Nat → UInt16} {x : Nat} {pc : SendPc}
    (h : PcRight E len x pc) (hl : len' x = len x) : PcRight E len' x pc := by
  cases pc <;> simp_all [PcRight]

private def SendInv (E : SendEnv) (s : SendSys) : Prop :=
  (∀ i x d t, s.todo i = (x, d) :: t → PcRight E s.len x (s.pc i)) ∧
  (∀ i, s.todo i = [] → s.pc i = .idle) ∧
  ∀ ev ∈ s.log, SendRight (E.hdr ev.var) (E.body ev.var) ev.res

private theorem send_inv_finish {E : SendEnv} {s : SendSys} (h : SendInv E s) (i x d : Nat) (t : List (Nat × Nat))
    (res : Except Err Bytes) (hr : SendRight (E.hdr x) (E.body x) res) : SendInv E (s.finish i x d t res) := by
  refine ⟨fun j y e u hu => ?_, fun j hu => ?_, fun ev hev => ?_⟩
  · by_cases hj : j = i
    · subst hj; simp [SendSys.finish, PcRight]
    · simp only [SendSys.finish, setAt_other _ _ hj] at hu ⊢; exact h.1 j y e u hu
  · by_cases hj : j = i
    · subst hj; simp [SendSys.finish]
    · simp only [SendSys.finish, setAt_other _ _ hj] at hu ⊢; exact h.2.1 j hu
  · simp only [SendSys.finish, List.mem_append, List.mem_singleton] at hev
    rcases hev with hev | rfl
    · exact h.2.2 ev hev
    · exact hr

private theorem send_inv {E : SendEnv} {progs : Nat → List (Nat × Nat)} {s : SendSys}
    (h : SendReachAlone E progs s) : SendInv E s := by
  induction h with
  | init => exact ⟨fun _ _ _ _ _ => trivial, fun _ _ => rfl, fun ev hev => by cases hev⟩
  | @step s s' h st ha ih =>
    have keep : ∀ (i x d : Nat) (t : List (Nat × Nat)) (len : Nat → UInt16) (p : SendPc), s.todo i = (x, d) :: t →
        (∀ y, y ≠ x → len y = s.len y) → PcRight E len x p →
        (∀ j y e u, j ≠ i → s.todo j = (y, e) :: u → y = x → s.pc j = .idle ∨ len x = s.len x) →
        SendInv E { s with len := len, pc := setAt s.pc i p } := by
      intro i x d t len p ht hl hp ho
      refine ⟨fun j y e u hu => ?_, fun j hu => ?_, ih.2.2⟩
      · by_cases hj : j = i
        · subst hj
          simp only at hu
          rw [ht] at hu
          simp only [List.cons.injEq, Prod.mk.injEq] at hu
          obtain ⟨⟨rfl, rfl⟩, rfl⟩ := hu
          simpa using hp
        · simp only [setAt_other _ _ hj]
          by_cases hy : y = x
          · rcases ho j y e u hj hu hy with h1 | h1
            · rw [h1]; trivial
            · subst hy; exact (ih.1 j y e u hu).frame h1
          · exact (ih.1 j y e u hu).frame (hl y hy)
      · by_cases hj : j = i
        · subst hj; simp only at hu; rw [ht] at hu; cases hu
        · simp only [setAt_other _ _ hj]; exact ih.2.1 j hu
    cases st with
    | set i x d t hp ht =>
      refine keep i x d t _ _ ht (fun y hy => setAt_other _ _ hy) (by simp [PcRight, headerlen]) ?_
      intro j y e u hj hu hy
      subst hy
      refine .inl ?_
      have := ha i j y d t e u (fun h => hj h.symm) ht hu (by simp)
      simpa [setAt_other _ _ hj] using this
    | nilBody i x d t hp ht hb =>
      have h1 := ih.1 i x d t ht
      rw [hp] at h1
      refine keep i x d t s.len _ ht (fun _ _ => rfl) ?_ (fun _ _ _ _ _ _ _ => .inr rfl)
      have hl := msg_length (s.header E x) []
      rw [List.append_nil] at hl
      have := layout_msg (E.hdr x) (s.len x) [] 8 (by rw [h1]; rfl)
      simp only [PcRight, SendRight, hb, SendSys.header, List.append_nil] at hl this ⊢
      refine ⟨by rw [hl]; simp, ?_⟩
      rw [hl]
      simpa [Layout] using this
    | load i x d t b hp ht hb hl =>
      have h1 := ih.1 i x d t ht
      rw [hp] at h1
      exact keep i x d t s.len _ ht (fun _ _ => rfl) ⟨h1, b, hb, by simp [headerlen] at hl; omega⟩
        (fun _ _ _ _ _ _ _ => .inr rfl)
    | store i x d t b v hp ht hb =>
      have h1 := ih.1 i x d t ht
      rw [hp] at h1
      obtain ⟨h1, b', hb', hl⟩ := h1
      rw [hb] at hb'; cases hb'
      refine keep i x d t _ _ ht (fun y hy => setAt_other _ _ hy) ⟨b, hb, hl, ?_⟩ ?_
      · rw [setAt_same, h1, UInt16.toNat_add]
        simp only [UInt16.toNat_ofNat']
        rw [show (8 : UInt16).toNat = 8 from rfl]
        omega
      · intro j y e u hj hu hy
        subst hy
        refine .inl ?_
        have := ha i j y d t e u (fun h => hj h.symm) ht hu (by simp)
        simpa [setAt_other _ _ hj] using this
    | emit i x d t b hp ht hb =>
      have h1 := ih.1 i x d t ht
      rw [hp] at h1
      obtain ⟨b', hb', hl, hlen⟩ := h1
      rw [hb] at hb'; cases hb'
      refine keep i x d t s.len _ ht (fun _ _ => rfl) ?_ (fun _ _ _ _ _ _ _ => .inr rfl)
      have hm := msg_length (s.header E x) b
      have := layout_msg (E.hdr x) (s.len x) b (8 + b.length) hlen
      simp only [PcRight, SendRight, hb, SendSys.header] at hm this ⊢
      refine ⟨by rw [hm]; omega, ?_⟩
      rw [hm]
      exact this
    | fail i x d t e hp ht hb => exact send_inv_finish ih i x d t _ (by simp [SendRight, hb])
    | tooLong i x d t b hp ht hb hl =>
      exact send_inv_finish ih i x d t _ (by simp only [SendRight, hb]; simp only [headerlen] at hl; exact ⟨trivial, by omega⟩)
    | write i x d t m hp ht =>
      have h1 := ih.1 i x d t ht
      rw [hp] at h1
      exact send_inv_finish ih i x d t _ h1

/-- C88, the part that holds: as long as no request is being sent by two goroutines at once, every
`Conn.Send` transmits one message with the header, the right length and the body, or returns the error. -/
theorem shared_send_partial (E : SendEnv) (progs : Nat → List (Nat × Nat)) (s : SendSys)
    (h : SendReachAlone E progs s) (ev : SendEv) (hev : ev ∈ s.log) :
    SendRight (E.hdr ev.var) (E.body ev.var) ev.res := (send_inv h).2.2 ev hev

/-- C88.  In particular for goroutines that have requests of their own, on whatever connections, in every
interleaving. -/
theorem own_send_partial (E : SendEnv) (progs : Nat → List (Nat × Nat)) (s : SendSys)
    (ho : ∀ i j, i ≠ j → ∀ p ∈ progs i, ∀ q ∈ progs j, p.1 ≠ q.1)
    (h : SendSys.Reach E progs s) (ev : SendEv) (hev : ev ∈ s.log) :
    SendRight (E.hdr ev.var) (E.body ev.var) ev.res := by
  have hal : ∀ s, SendSys.Reach E progs s → SendAlone s := by
    intro s h i j x d t d' t' hij hi hj _
    have h1 := send_order E progs s h i
    have h2 := send_order E progs s h j
    exact absurd rfl (ho i j hij (x, d) (by rw [← h1, hi]; simp) (x, d') (by rw [← h2, hj]; simp))
  suffices hr : SendReachAlone E progs s from shared_send_partial E progs s hr ev hev
  clear hev
  induction h with
  | init => exact .init
  | step h st ih => exact .step ih st (hal _ (.step h st))

/-! ## What holds in every interleaving -/

private def Multiple (E : SendEnv) (x : Nat) (v : UInt16) : Prop :=
  ∃ k, v.toNat = (8 + k * (Payload.data (E.body x)).length) % 65536

private def PcShape (E : SendEnv) (x : Nat) : SendPc → Prop
  | .loaded v => Multiple E x v ∧ ∃ b, E.body x = .bytes b
  | .stored => ∃ b, E.body x = .bytes b
  | .copied m => SendShape (E.hdr x) (E.body x) (.ok m)
  | _ => True

private def ShapeInv (E : SendEnv) (s : SendSys) : Prop :=
  (∀ i x d t, s.todo i = (x, d) :: t → PcShape E x (s.pc i) ∧ (s.pc i ≠ .idle → Multiple E x (s.len x))) ∧
  (∀ i, s.todo i = [] → s.pc i = .idle) ∧
  ∀ ev ∈ s.log, SendShape (E.hdr ev.var) (E.body ev.var) ev.res

private theorem shape_finish {E : SendEnv} {s : SendSys} (h : ShapeInv E s) (i x d : Nat) (t : List (Nat × Nat))
    (res : Except Err Bytes) (hr : SendShape (E.hdr x) (E.body x) res) : ShapeInv E (s.finish i x d t res) := by
  refine ⟨fun j y e u hu => ?_, fun j hu => ?_, fun ev hev => ?_⟩
  · by_cases hj : j = i
    · subst hj; simp [SendSys.finish, PcShape]
    · simp only [SendSys.finish, setAt_other _ _ hj] at hu ⊢; exact h.1 j y e u hu
  · by_cases hj : j = i
    · subst hj; simp [SendSys.finish]
    · simp only [SendSys.finish, setAt_other _ _ hj] at hu ⊢; exact h.2.1 j hu
  · simp only [SendSys.finish, List.mem_append, List.mem_singleton] at hev
    rcases hev with hev | rfl
    · exact h.2.2 ev hev
    · exact hr

private theorem shape_inv {E : SendEnv} {progs : Nat → List (Nat × Nat)} {s : SendSys}
    (h : SendSys.Reach E progs s) : ShapeInv E s := by
  induction h with
  | init => exact ⟨fun _ _ _ _ _ => ⟨trivial, fun h => absurd rfl h⟩, fun _ _ => rfl, fun ev hev => by cases hev⟩
  | @step s s' h st ih =>
    have keep : ∀ (i x d : Nat) (t : List (Nat × Nat)) (len : Nat → UInt16) (p : SendPc), s.todo i = (x, d) :: t →
        (∀ y, y ≠ x → len y = s.len y) → PcShape E x p → Multiple E x (len x) →
        ShapeInv E { s with len := len, pc := setAt s.pc i p } := by
      intro i x d t len p ht hl hp hm
      refine ⟨fun j y e u hu => ?_, fun j hu => ?_, ih.2.2⟩
      · have hmul : s.pc j ≠ .idle ∨ j = i → Multiple E y (len y) := by
          intro hj
          by_cases hy : y = x
          · subst hy; exact hm
          · rw [hl y hy]
            rcases hj with hj | hj
            · exact (ih.1 j y e u hu).2 hj
            · subst hj; simp only at hu; rw [ht] at hu; simp at hu; exact absurd hu.1.1.symm hy
        by_cases hj : j = i
        · refine ⟨?_, fun _ => hmul (.inr hj)⟩
          subst hj
          simp only at hu
          rw [ht] at hu
          simp only [List.cons.injEq, Prod.mk.injEq] at hu
          obtain ⟨⟨rfl, rfl⟩, rfl⟩ := hu
          simpa using hp
        · simp only [setAt_other _ _ hj]
          exact ⟨(ih.1 j y e u hu).1, fun h => hmul (.inl h)⟩
      · by_cases hj : j = i
        · subst hj; simp only at hu; rw [ht] at hu; cases hu
        · simp only [setAt_other _ _ hj]; exact ih.2.1 j hu
    cases st with
    | set i x d t hp ht =>
      exact keep i x d t _ _ ht (fun y hy => setAt_other _ _ hy) trivial ⟨0, by simp [headerlen]⟩
    | nilBody i x d t hp ht hb =>
      have h1 := (ih.1 i x d t ht).2 (by rw [hp]; simp)
      refine keep i x d t s.len _ ht (fun _ _ => rfl) ?_ h1
      obtain ⟨k, hk⟩ := h1
      have := layout_msg (E.hdr x) (s.len x) [] _ hk
      simp only [List.append_nil] at this
      refine ⟨(fun e he => by rw [hb] at he; cases he), k, ?_⟩
      have hd : Payload.data (E.body x) = [] := by rw [hb]; rfl
      rw [hd] at this ⊢
      exact this
    | load i x d t b hp ht hb hl =>
      have h1 := (ih.1 i x d t ht).2 (by rw [hp]; simp)
      exact keep i x d t s.len _ ht (fun _ _ => rfl) ⟨h1, b, hb⟩ h1
    | store i x d t b v hp ht hb =>
      have h1 := (ih.1 i x d t ht).1
      rw [hp] at h1
      obtain ⟨⟨k, hk⟩, _⟩ := h1
      refine keep i x d t _ _ ht (fun y hy => setAt_other _ _ hy) ⟨b, hb⟩ ⟨k + 1, ?_⟩
      have hd : Payload.data (E.body x) = b := by rw [hb]; rfl
      rw [hd] at hk ⊢
      rw [setAt_same, UInt16.toNat_add, hk, UInt16.toNat_ofNat', Nat.add_mul, Nat.one_mul]
      omega
    | emit i x d t b hp ht hb =>
      have h1 := (ih.1 i x d t ht).2 (by rw [hp]; simp)
      refine keep i x d t s.len _ ht (fun _ _ => rfl) ?_ h1
      obtain ⟨k, hk⟩ := h1
      have hd : Payload.data (E.body x) = b := by rw [hb]; rfl
      refine ⟨(fun e he => by rw [hb] at he; cases he), k, ?_⟩
      rw [hd] at hk ⊢
      exact layout_msg (E.hdr x) (s.len x) b _ hk
    | fail i x d t e hp ht hb => exact shape_finish ih i x d t _ (by simp [SendShape, SendRight, hb])
    | tooLong i x d t b hp ht hb hl =>
      exact shape_finish ih i x d t _ (by
        simp only [SendShape, SendRight, hb]; simp only [headerlen] at hl; exact ⟨trivial, by omega⟩)
    | write i x d t m hp ht =>
      have h1 := (ih.1 i x d t ht).1
      rw [hp] at h1
      exact shape_finish ih i x d t _ h1

/-- C88.  In every interleaving, also when goroutines send one request at the same time: a message carries
the version, type, transaction and body of its request, only the length field can be wrong, by a multiple of
the size of the body; errors are those of the request. -/
theorem shared_send_shape (E : SendEnv) (progs : Nat → List (Nat × Nat)) (s : SendSys)
    (h : SendSys.Reach E progs s) (ev : SendEv) (hev : ev ∈ s.log) :
    SendShape (E.hdr ev.var) (E.body ev.var) ev.res := (shape_inv h).2.2 ev hev

/-- C88.  A request without a body, or with an empty one, can be sent by any number of goroutines at the
same time. -/
theorem shared_send_empty_partial (E : SendEnv) (progs : Nat → List (Nat × Nat)) (s : SendSys)
    (h : SendSys.Reach E progs s) (ev : SendEv) (hev : ev ∈ s.log)
    (hb : E.body ev.var = .nil ∨ E.body ev.var = .bytes []) : SendRight (E.hdr ev.var) (E.body ev.var) ev.res := by
  have := shared_send_shape E progs s h ev hev
  rcases hr : ev.res with e | m
  · rw [hr] at this; exact this
  · rw [hr] at this
    obtain ⟨_, k, hk⟩ := this
    have hd : Payload.data (E.body ev.var) = [] := by rcases hb with hb | hb <;> rw [hb] <;> rfl
    rw [hd] at hk
    simp only [List.length_nil, Nat.mul_zero, Nat.add_zero] at hk
    have hl : m.length = 8 := by
      simp only [Layout, List.length_drop, List.length_nil, List.drop_zero, List.take_zero] at hk
      have := congrArg List.length hk.2.2.2.2.2.2.2.2.2.2
      simp at this
      have h8 := hk.2.2.2.2.2.2.1
      omega
    refine ⟨by rw [hl]; simp, ?_⟩
    rcases hb with hb | hb
    · rw [hb]; simp only [hl]; simpa [Layout] using hk
    · rw [hb]; simp only [hl]; exact hk

/-- C88.  A `Conn.Send` is never blocked by another one before it calls `Conn.Write`: the goroutine itself
can go on, whatever the others do. -/
theorem send_progress (E : SendEnv) (progs : Nat → List (Nat × Nat)) (s : SendSys)
    (h : SendSys.Reach E progs s) (i : Nat) (hi : s.todo i ≠ []) : 
    ∃ s', SendSys.Step E s s' ∧ s'.pc i ≠ s.pc i ∧ ∀ j, j ≠ i → s'.pc j = s.pc j ∧ s'.todo j = s.todo j := by
  obtain ⟨⟨x, d⟩, t, ht⟩ := List.exists_cons_of_ne_nil hi
  have h1 := ((shape_inv h).1 i x d t ht).1
  cases hp : s.pc i with
  | idle => exact ⟨_, .set s i x d t hp ht, by simp, fun j hj => ⟨setAt_other _ _ hj, rfl⟩⟩
  | set =>
    cases hb : E.body x with
    | nil => exact ⟨_, .nilBody s i x d t hp ht hb, by simp, fun j hj => ⟨setAt_other _ _ hj, rfl⟩⟩
    | fails e => exact ⟨_, .fail s i x d t e hp ht hb, by simp [SendSys.finish],
      fun j hj => ⟨setAt_other _ _ hj, setAt_other _ _ hj⟩⟩
    | bytes b =>
      by_cases hl : 65535 < b.length + headerlen
      · exact ⟨_, .tooLong s i x d t b hp ht hb hl, by simp [SendSys.finish],
      fun j hj => ⟨setAt_other _ _ hj, setAt_other _ _ hj⟩⟩
      · exact ⟨_, .load s i x d t b hp ht hb hl, by simp, fun j hj => ⟨setAt_other _ _ hj, rfl⟩⟩
  | loaded v =>
    rw [hp] at h1
    obtain ⟨_, b, hb⟩ := h1
    exact ⟨_, .store s i x d t b v hp ht hb, by simp, fun j hj => ⟨setAt_other _ _ hj, rfl⟩⟩
  | stored =>
    rw [hp] at h1
    obtain ⟨b, hb⟩ := h1
    exact ⟨_, .emit s i x d t b hp ht hb, by simp, fun j hj => ⟨setAt_other _ _ hj, rfl⟩⟩
  | copied m => exact ⟨_, .write s i x d t m hp ht, by simp [SendSys.finish],
      fun j hj => ⟨setAt_other _ _ hj, setAt_other _ _ hj⟩⟩

/-! ## The steps and `Request.WriteTo` -/

/-- A layout leaves no choice. -/
theorem layout_unique (fs : List Fld) (a b : Bytes) (ha : Layout a fs) (hb : Layout b fs) : a = b := by
  induction fs generalizing a b with
  | nil => simp only [Layout] at ha hb; rw [ha, hb]
  | cons f fs ih =>
    cases f with
    | num k v =>
      obtain ⟨a1, a2, a3⟩ := ha
      obtain ⟨b1, b2, b3⟩ := hb
      have e1 := putBE_getBE (a.take k)
      have e2 := putBE_getBE (b.take k)
      rw [List.length_take, Nat.min_eq_left a1, a2] at e1
      rw [List.length_take, Nat.min_eq_left b1, b2] at e2
      rw [← List.take_append_drop k a, ← List.take_append_drop k b, ← e1, ← e2, ih _ _ a3 b3]
    | pad k =>
      obtain ⟨a1, a2, a3⟩ := ha
      obtain ⟨b1, b2, b3⟩ := hb
      rw [← List.take_append_drop k a, ← List.take_append_drop k b, a2, b2, ih _ _ a3 b3]
    | raw r =>
      obtain ⟨a1, a2, a3⟩ := ha
      obtain ⟨b1, b2, b3⟩ := hb
      rw [← List.take_append_drop r.length a, ← List.take_append_drop r.length b, a2, b2, ih _ _ a3 b3]

/-- C88, C02.  Without interference a `Conn.Send` gives the connection what `Request.WriteTo` writes, and
returns its error. -/
theorem send_is_writeTo_partial (E : SendEnv) (progs : Nat → List (Nat × Nat)) (s : SendSys)
    (h : SendReachAlone E progs s) (ev : SendEv) (hev : ev ∈ s.log) :
    (∀ m, ev.res = .ok m → ((E.request ev.var).writeTo recorder []).dst = [m] ∧
      ((E.request ev.var).writeTo recorder []).err = none) ∧
    (∀ e, ev.res = .error e → ((E.request ev.var).writeTo recorder []).dst = [] ∧
      ((E.request ev.var).writeTo recorder []).err = some e) := by
  have hr := shared_send_partial E progs s h ev hev
  refine ⟨fun m hm => ?_, fun e he => ?_⟩
  · rw [hm] at hr
    obtain ⟨hl, hr⟩ := hr
    have key : ∀ b, (E.request ev.var).body.Yields b → Layout m [.num 1 (E.hdr ev.var).version.toNat,
        .num 1 (E.hdr ev.var).type.toNat, .num 2 m.length, .num 4 (E.hdr ev.var).transaction.toNat, .raw b] →
        ((E.request ev.var).writeTo recorder []).dst = [m] ∧
          ((E.request ev.var).writeTo recorder []).err = none := by
      intro b hy hlay
      have hml : m.length = 8 + b.length := by
        simp only [Layout, List.length_drop, List.drop_drop] at hlay
        have := congrArg List.length hlay.2.2.2.2.2.2.2.2.2.2
        simp at this
        have h8 := hlay.2.2.2.2.2.2.2.2.1
        have h4 := hlay.2.2.2.2.2.2.1
        omega
      obtain ⟨msg, h1, h2, _, h4, h5⟩ := request_writeTo (E.request ev.var) b hy (by omega) []
      refine ⟨?_, h2⟩
      rw [h1, List.nil_append]
      rw [hml] at hlay
      rw [h4] at h5
      rw [layout_unique _ _ _ h5 hlay]
    cases hb : E.body ev.var with
    | nil =>
      rw [hb] at hr
      refine key [] (by simp [SendEnv.request, hb, Body.Yields]) ?_
      simpa [Layout] using hr
    | bytes b =>
      rw [hb] at hr
      exact key b (by simp [SendEnv.request, hb, Body.Yields]) hr
    | fails e => rw [hb] at hr; exact hr.elim
  · rw [he] at hr
    cases hb : E.body ev.var with
    | nil => rw [hb] at hr; exact hr.elim
    | bytes b =>
      rw [hb] at hr
      obtain ⟨rfl, hl⟩ := hr
      obtain ⟨h1, _, h3⟩ := request_writeTo_tooLong recorder (E.request ev.var) b
        (by simp [SendEnv.request, hb, Body.Yields]) hl []
      exact ⟨h3, h1⟩
    | fails e' =>
      rw [hb] at hr
      subst hr
      simp [SendEnv.request, hb, Request.writeTo, Body.copyTo, CopyReader.writeTo]

/-! ## What goes wrong -/

/-- Two goroutines that send the request variable 0 on connection 0, once each. -/
private def twice : Nat → List (Nat × Nat) := fun i => if i < 2 then [(0, 0)] else []

private theorem receive_next (H : Header) (body tail : Bytes) (r : Rd) (F : Err) (hr : r.Ok F)
    (hc : r.content = H.bytes ++ (body ++ tail)) (hl : H.length.toNat = 8 + body.length) (ht : tail ≠ []) :
    ∃ q r', Conn.receive r = (some q, none, r') ∧ q.header = H ∧ q.body = .buffer body ∧ r'.content = tail := by
  have ho : Header.ofBytes r.content = H := by rw [hc]; exact Header.ofBytes_bytes _ _
  have hHl : H.len = 8 + body.length := hl
  have htl : tail.length ≠ 0 := by simpa using ht
  have hcl : r.content.length = 8 + body.length + tail.length := by
    rw [hc]; simp [Header.bytes_length]; omega
  rcases Conn.receive_spec F r hr with ⟨g, _⟩ | ⟨_, g, _⟩ | ⟨_, g1, g2, r', g3, g4, g5, g6⟩ | ⟨g1, g2, r', g3, g4, g5⟩
  · omega
  · rw [ho, hHl] at g; omega
  · rw [ho, hHl] at g2; omega
  · rw [ho] at g3 g4
    refine ⟨_, r', g3, rfl, ?_, ?_⟩
    · rw [hc, hHl, List.drop_append_of_le_length (by simp [Header.bytes_length]),
        List.drop_eq_nil_of_le (by simp [Header.bytes_length])]
      simp
    · rw [g4.content.2, hc, hHl, ← List.append_assoc, List.drop_append_of_le_length
        (by simp [Header.bytes_length]), List.drop_eq_nil_of_le (by simp [Header.bytes_length]), List.nil_append]

/-- C88 is false, whatever the request: one goroutine sets the length to 8 just when the other one has
added the size of the body.  The message goes out with a length of 8 in front of its body.  The program at
the other end of the connection receives a request without a body, and takes the body for the next
message. -/
theorem shared_send_short_false (h : Header) (b : Bytes) (hb : b ≠ []) (hl : 8 + b.length ≤ 65535) :
    ∃ s, SendSys.Reach ⟨fun _ => h, fun _ => .bytes b⟩ twice s ∧
      (∃ m1 m2, s.out 0 = [m1, m2] ∧
        Layout m1 [.num 1 h.version.toNat, .num 1 h.type.toNat, .num 2 8, .num 4 h.transaction.toNat, .raw b] ∧
        SendRight h (.bytes b) (.ok m2)) ∧
      (∀ F r, r.Ok F → r.content = (s.out 0).flatten →
        ∃ q r' m2, Conn.receive r = (some q, none, r') ∧ q.body = .buffer [] ∧ r'.content = b ++ m2) := by
  let E : SendEnv := ⟨fun _ => h, fun _ => .bytes b⟩
  have hnl : ¬ 65535 < b.length + headerlen := by simp only [headerlen]; omega
  have r1 : SendSys.Reach E twice _ := .step .init (.set _ 0 0 0 [] rfl rfl)
  have r2 := r1.step (.load _ 0 0 0 [] b rfl rfl rfl hnl)
  have r3 := r2.step (.store _ 0 0 0 [] b _ rfl rfl rfl)
  have r4 := r3.step (.set _ 1 0 0 [] rfl rfl)
  have r5 := r4.step (.emit _ 0 0 0 [] b rfl rfl rfl)
  have r6 := r5.step (.write _ 0 0 0 [] _ rfl rfl)
  have r7 := r6.step (.load _ 1 0 0 [] b rfl rfl rfl hnl)
  have r8 := r7.step (.store _ 1 0 0 [] b _ rfl rfl rfl)
  have r9 := r8.step (.emit _ 1 0 0 [] b rfl rfl rfl)
  have r10 := r9.step (.write _ 1 0 0 [] _ rfl rfl)
  have l2 : (UInt16.ofNat headerlen + UInt16.ofNat b.length).toNat = 8 + b.length := by
    simp [headerlen, UInt16.toNat_add]; omega
  obtain ⟨s, rs, ho⟩ : ∃ s, SendSys.Reach E twice s ∧
      s.out 0 = [({ h with length := UInt16.ofNat headerlen } : Header).writeTo.out ++ b,
        ({ h with length := UInt16.ofNat headerlen + UInt16.ofNat b.length } : Header).writeTo.out ++ b] :=
    ⟨_, r10, rfl⟩
  clear r1 r2 r3 r4 r5 r6 r7 r8 r9 r10
  refine ⟨s, rs, ⟨_, _, ho, layout_msg _ _ _ _ (by simp [headerlen]), ?_, ?_⟩, ?_⟩
  · rw [msg_length]; exact hl
  · rw [msg_length]; exact layout_msg _ _ _ _ l2
  · intro F r hr hc
    rw [ho] at hc
    simp only [List.flatten_cons, List.flatten_nil, List.append_nil, Header.writeTo_eq, List.append_assoc] at hc
    obtain ⟨q, r', g1, _, g3, g4⟩ := receive_next { h with length := UInt16.ofNat headerlen } [] _ r F hr
      (by rw [hc]; rfl) (by simp [headerlen]) (by simp [hb])
    exact ⟨q, r', _, g1, g3, g4⟩

/-- C88 is false in the other direction too: both goroutines add the size of the body.  Both messages
declare it twice, and the program at the other end receives a body that ends within the second message. -/
theorem shared_send_long_false (h : Header) (b : Bytes) (hb : b ≠ []) (hl : 8 + 2 * b.length ≤ 65535) :
    ∃ s, SendSys.Reach ⟨fun _ => h, fun _ => .bytes b⟩ twice s ∧
      (∃ m, s.out 0 = [m, m] ∧ m.length = 8 + b.length ∧
        Layout m [.num 1 h.version.toNat, .num 1 h.type.toNat, .num 2 (8 + 2 * b.length),
          .num 4 h.transaction.toNat, .raw b]) ∧
      (∀ F r, r.Ok F → r.content = (s.out 0).flatten →
        ∃ q r' x, Conn.receive r = (some q, none, r') ∧ q.body = .buffer (b ++ x) ∧ x.length = b.length ∧
          r'.content.length = 8) := by
  let E : SendEnv := ⟨fun _ => h, fun _ => .bytes b⟩
  have hnl : ¬ 65535 < b.length + headerlen := by simp only [headerlen]; omega
  have r1 : SendSys.Reach E twice _ := .step .init (.set _ 0 0 0 [] rfl rfl)
  have r2 := r1.step (.set _ 1 0 0 [] rfl rfl)
  have r3 := r2.step (.load _ 0 0 0 [] b rfl rfl rfl hnl)
  have r4 := r3.step (.store _ 0 0 0 [] b _ rfl rfl rfl)
  have r5 := r4.step (.load _ 1 0 0 [] b rfl rfl rfl hnl)
  have r6 := r5.step (.store _ 1 0 0 [] b _ rfl rfl rfl)
  have r7 := r6.step (.emit _ 0 0 0 [] b rfl rfl rfl)
  have r8 := r7.step (.emit _ 1 0 0 [] b rfl rfl rfl)
  have r9 := r8.step (.write _ 0 0 0 [] _ rfl rfl)
  have r10 := r9.step (.write _ 1 0 0 [] _ rfl rfl)
  let L := UInt16.ofNat headerlen + UInt16.ofNat b.length + UInt16.ofNat b.length
  have l2 : L.toNat = 8 + 2 * b.length := by
    simp [L, headerlen, UInt16.toNat_add]; omega
  obtain ⟨s, rs, ho⟩ : ∃ s, SendSys.Reach E twice s ∧ s.out 0 = [({ h with length := L } : Header).writeTo.out ++ b,
      ({ h with length := L } : Header).writeTo.out ++ b] := ⟨_, r10, rfl⟩
  clear r1 r2 r3 r4 r5 r6 r7 r8 r9 r10
  refine ⟨s, rs, ⟨_, ho, msg_length _ _, layout_msg _ _ _ _ l2⟩, ?_⟩
  intro F r hr hc
  rw [ho] at hc
  simp only [List.flatten_cons, List.flatten_nil, List.append_nil, Header.writeTo_eq, List.append_assoc] at hc
  have hbl : b.length ≠ 0 := by simpa using hb
  let H : Header := { h with length := L }
  have hM : (H.bytes ++ b).length = 8 + b.length := by simp [Header.bytes_length]
  have ht : ((H.bytes ++ b).take b.length).length = b.length := by
    rw [List.length_take, hM]; omega
  obtain ⟨q, r', g1, _, g3, g4⟩ := receive_next H (b ++ (H.bytes ++ b).take b.length)
    ((H.bytes ++ b).drop b.length) r F hr
    (by rw [hc, List.append_assoc b, List.take_append_drop]) (by rw [List.length_append, ht]; show L.toNat = _; omega)
    (by intro h0; have := congrArg List.length h0; rw [List.length_drop, hM] at this; simp at this)
  exact ⟨q, r', _, g1, g3, ht, by rw [g4, List.length_drop, hM]; omega⟩

/-- Two goroutines send an echo request with the data `1, 2`: one message declares 8 bytes. -/
example : ∃ s, SendSys.Reach ⟨fun _ => ⟨4, 2, 0, 7⟩, fun _ => .bytes [1, 2]⟩ twice s ∧
    ∃ m1 m2, s.out 0 = [m1, m2] ∧ Layout m1 [.num 1 4, .num 1 2, .num 2 8, .num 4 7, .raw [1, 2]] := by
  obtain ⟨s, hr, ⟨m1, m2, h1, h2, _⟩, _⟩ := shared_send_short_false ⟨4, 2, 0, 7⟩ [1, 2] (by simp) (by simp)
  exact ⟨s, hr, m1, m2, h1, h2⟩

/-- Both declare 12 bytes and have 10. -/
example : ∃ s, SendSys.Reach ⟨fun _ => ⟨4, 2, 0, 7⟩, fun _ => .bytes [1, 2]⟩ twice s ∧
    ∃ m, s.out 0 = [m, m] ∧ m.length = 10 ∧ Layout m [.num 1 4, .num 1 2, .num 2 12, .num 4 7, .raw [1, 2]] := by
  obtain ⟨s, hr, ⟨m, h1, h2, h3⟩, _⟩ := shared_send_long_false ⟨4, 2, 0, 7⟩ [1, 2] (by simp) (by simp)
  exact ⟨s, hr, m, h1, h2, h3⟩

private def ownEnv : SendEnv := ⟨fun x => ⟨4, 2, 0, UInt32.ofNat x⟩, fun _ => .bytes [1, 2]⟩

private def own : Nat → List (Nat × Nat) := fun i => if i < 2 then [(i, 0)] else []

/-- Two goroutines with a request each, in the same steps: both messages are right. -/
example : ∃ s, SendSys.Reach ownEnv own s ∧ (∀ i j, i ≠ j → ∀ p ∈ own i, ∀ q ∈ own j, p.1 ≠ q.1) ∧
    s.out 0 = [[4, 2, 0, 10, 0, 0, 0, 0, 1, 2], [4, 2, 0, 10, 0, 0, 0, 1, 1, 2]] := by
  have r1 : SendSys.Reach ownEnv own _ := .step .init (.set _ 0 0 0 [] rfl rfl)
  have r2 := r1.step (.set _ 1 1 0 [] rfl rfl)
  have r3 := r2.step (.load _ 0 0 0 [] [1, 2] rfl rfl rfl (by decide))
  have r4 := r3.step (.store _ 0 0 0 [] [1, 2] _ rfl rfl rfl)
  have r5 := r4.step (.load _ 1 1 0 [] [1, 2] rfl rfl rfl (by decide))
  have r6 := r5.step (.store _ 1 1 0 [] [1, 2] _ rfl rfl rfl)
  have r7 := r6.step (.emit _ 0 0 0 [] [1, 2] rfl rfl rfl)
  have r8 := r7.step (.emit _ 1 1 0 [] [1, 2] rfl rfl rfl)
  have r9 := r8.step (.write _ 0 0 0 [] _ rfl rfl)
  have r10 := r9.step (.write _ 1 1 0 [] _ rfl rfl)
  refine ⟨_, r10, fun i j hij p hp q hq => ?_, by decide +kernel⟩
  unfold own at hp hq
  split at hp <;> split at hq <;> simp_all

end Verif.Props
