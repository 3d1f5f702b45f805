import Verif.Shared
import Verif.Props.Conn
import Verif.Props.Shared

/-!
# C89: one header given to several response writers
-/

namespace Verif.Props
open Verif

/-- The version a response has to carry: that of the header, or else that of the request. -/
def replyVersion (E : ReplyEnv) (c : ReplyCall) : UInt8 :=
  if (E.hdr c.var).version = 0 then E.rv c.resp else (E.hdr c.var).version

/-- What `rw.Write(&h, w)` has to come to: one message with the version of the header or else of the request,
type and transaction of the header, the length, and the body; or the error of the body. -/
def ReplyRight (E : ReplyEnv) (c : ReplyCall) : Except Err Bytes → Prop
  | .ok m => ∃ b, c.body = .ok b ∧ Layout m [.num 1 (replyVersion E c).toNat, .num 1 (E.hdr c.var).type.toNat,
      .num 2 ((8 + b.length) % 65536), .num 4 (E.hdr c.var).transaction.toNat, .raw b]
  | .error e => c.body = .error e

/-- Goroutines that use one header do so with one response. -/
def OneResponse (progs : Nat → List ReplyCall) : Prop :=
  ∀ i j, i ≠ j → ∀ c ∈ progs i, ∀ c' ∈ progs j, c.var = c'.var → c.resp = c'.resp

/-- A header is used with a version of its own, or for requests that have the same version. -/
def OneVersion (E : ReplyEnv) (progs : Nat → List ReplyCall) : Prop :=
  ∀ i j, ∀ c ∈ progs i, ∀ c' ∈ progs j, c.var = c'.var → (E.hdr c.var).version ≠ 0 ∨ E.rv c.resp = E.rv c'.resp

private theorem layout_msg (h : Header) (w : UInt8) (l : UInt16) (b : Bytes) (v : Nat) (hv : l.toNat = v) :
    Layout (({ h with version := w, length := l } : Header).writeTo.out ++ b) [.num 1 w.toNat,
      .num 1 h.type.toNat, .num 2 v, .num 4 h.transaction.toNat, .raw b] := by
  subst hv
  simp [Header.writeTo_eq, Header.bytes, List.append_assoc]

private theorem len_toNat (b : Bytes) :
    (UInt16.ofNat headerlen + UInt16.ofNat b.length).toNat = (8 + b.length) % 65536 := by
  simp [headerlen, UInt16.toNat_add]

/-! ## Order and locks -/

/-- Every goroutine makes the calls of its program, in this order. -/
theorem reply_order (E : ReplyEnv) (progs : Nat → List ReplyCall) (s : ReplySys) (h : ReplySys.Reach E progs s)
    (i : Nat) : (s.log.filter (fun ev => ev.go == i)).map (·.call) ++ s.todo i = progs i := by
  have fin : ∀ (s : ReplySys) (j : Nat) (c : ReplyCall) (t : List ReplyCall) (res : Except Err Bytes),
      s.todo j = c :: t →
      ((s.finish j c t res).log.filter (fun ev => ev.go == i)).map (·.call) ++ (s.finish j c t res).todo i =
      (s.log.filter (fun ev => ev.go == i)).map (·.call) ++ s.todo i := by
    intro s j c t res ht
    by_cases hj : j = i
    · subst hj; simp [ReplySys.finish, List.filter_append, ht]
    · have hij : i ≠ j := fun h => hj h.symm
      simp [ReplySys.finish, List.filter_append, hj, setAt_other _ _ hij]
  induction h with
  | init => rfl
  | step h st ih =>
    cases st with
    | zero => exact ih
    | nonzero => exact ih
    | version => exact ih
    | lock => exact ih
    | store => exact ih
    | emit => exact ih
    | fail j c t e hp ht hb => rw [fin _ j c t _ ht]; exact ih
    | write j c t m hp ht => rw [fin _ j c t _ ht]; exact ih

/-- Behind the lock. -/
private def Inside : ReplyPc → Prop
  | .locked | .stored | .copied _ => True
  | _ => False

private def LockInv (s : ReplySys) : Prop :=
  (∀ i c t, s.todo i = c :: t → Inside (s.pc i) → s.mu c.resp = some i) ∧
  (∀ r i, s.mu r = some i → ∃ c t, s.todo i = c :: t ∧ c.resp = r ∧ Inside (s.pc i)) ∧
  (∀ i, s.todo i = [] → s.pc i = .idle)

private theorem lock_inv {E : ReplyEnv} {progs : Nat → List ReplyCall} {s : ReplySys}
    (h : ReplySys.Reach E progs s) : LockInv s := by
  induction h with
  | init => exact ⟨fun _ _ _ _ h => h.elim, (fun r i h => by simp [ReplySys.init] at h), fun _ _ => rfl⟩
  | @step s s' h st ih =>
    obtain ⟨i1, i2, i3⟩ := ih
    -- a step of `i` that leaves locks alone and stays on its side
    have keep : ∀ (i : Nat) (c : ReplyCall) (t : List ReplyCall) (ver : Nat → UInt8) (len : Nat → UInt16) (p : ReplyPc),
        s.todo i = c :: t → (Inside p ↔ Inside (s.pc i)) →
        LockInv { s with ver := ver, len := len, pc := setAt s.pc i p } := by
      intro i c t ver len p ht hp
      refine ⟨fun j c' t' hu hin => ?_, fun r j hm => ?_, fun j hu => ?_⟩
      · by_cases hj : j = i
        · subst hj; simp only [setAt_same] at hin; exact i1 j c' t' hu (hp.1 hin)
        · simp only [setAt_other _ _ hj] at hin; exact i1 j c' t' hu hin
      · obtain ⟨c', t', g1, g2, g3⟩ := i2 r j hm
        refine ⟨c', t', g1, g2, ?_⟩
        by_cases hj : j = i
        · subst hj; simp only [setAt_same]; exact hp.2 g3
        · simp only [setAt_other _ _ hj]; exact g3
      · by_cases hj : j = i
        · subst hj; simp only at hu; rw [ht] at hu; cases hu
        · simp only [setAt_other _ _ hj]; exact i3 j hu
    have fin : ∀ (i : Nat) (c : ReplyCall) (t : List ReplyCall) (res : Except Err Bytes),
        s.todo i = c :: t → Inside (s.pc i) → LockInv (s.finish i c t res) := by
      intro i c t res ht hin0
      have hmi := i1 i c t ht hin0
      refine ⟨fun j c' t' hu hin => ?_, fun r j hm => ?_, fun j hu => ?_⟩
      · by_cases hj : j = i
        · subst hj; simp [ReplySys.finish, Inside] at hin
        · simp only [ReplySys.finish, setAt_other _ _ hj] at hin hu ⊢
          have := i1 j c' t' hu hin
          by_cases hr : c'.resp = c.resp
          · rw [hr, hmi] at this; exact absurd (Option.some.inj this).symm hj
          · rw [setAt_other _ _ hr]; exact this
      · simp only [ReplySys.finish] at hm ⊢
        by_cases hr : r = c.resp
        · subst hr; simp at hm
        · rw [setAt_other _ _ hr] at hm
          obtain ⟨c', t', g1, g2, g3⟩ := i2 r j hm
          have hj : j ≠ i := by
            rintro rfl; rw [ht] at g1; cases g1; exact hr g2.symm
          exact ⟨c', t', by rw [setAt_other _ _ hj]; exact g1, g2, by rw [setAt_other _ _ hj]; exact g3⟩
      · by_cases hj : j = i
        · subst hj; simp [ReplySys.finish]
        · simp only [ReplySys.finish, setAt_other _ _ hj] at hu ⊢; exact i3 j hu
    cases st with
    | zero i c t hp ht hv => exact keep i c t s.ver s.len _ ht (by simp [Inside, hp])
    | nonzero i c t hp ht hv => exact keep i c t s.ver s.len _ ht (by simp [Inside, hp])
    | version i c t hp ht => exact keep i c t _ s.len _ ht (by simp [Inside, hp])
    | store i c t b hp ht hb => exact keep i c t s.ver _ _ ht (by simp [Inside, hp])
    | emit i c t b hp ht hb => exact keep i c t s.ver s.len _ ht (by simp [Inside, hp])
    | fail i c t e hp ht hb => exact fin i c t _ ht (by simp [Inside, hp])
    | write i c t m hp ht => exact fin i c t _ ht (by simp [Inside, hp])
    | lock i c t hp ht hm =>
      refine ⟨fun j c' t' hu hin => ?_, fun r j hm' => ?_, fun j hu => ?_⟩
      · by_cases hj : j = i
        · subst hj; simp only at hu; rw [ht] at hu; cases hu; simp
        · simp only [setAt_other _ _ hj] at hin hu ⊢
          have := i1 j c' t' hu hin
          by_cases hr : c'.resp = c.resp
          · rw [hr, hm] at this; cases this
          · rw [setAt_other _ _ hr]; exact this
      · simp only at hm' ⊢
        by_cases hr : r = c.resp
        · subst hr; simp only [setAt_same, Option.some.injEq] at hm'
          subst hm'
          exact ⟨c, t, ht, rfl, by simp [Inside]⟩
        · rw [setAt_other _ _ hr] at hm'
          obtain ⟨c', t', g1, g2, g3⟩ := i2 r j hm'
          have hj : j ≠ i := by
            rintro rfl; rw [hp] at g3; exact g3
          exact ⟨c', t', g1, g2, by rw [setAt_other _ _ hj]; exact g3⟩
      · by_cases hj : j = i
        · subst hj; simp only at hu; rw [ht] at hu; cases hu
        · simp only [setAt_other _ _ hj]; exact i3 j hu

/-! ## The part that holds -/

/-- What is known about a header's version: its own, or one that was stored for a call. -/
private def Known (E : ReplyEnv) (progs : Nat → List ReplyCall) (ver : Nat → UInt8) (x : Nat) : Prop :=
  ver x = (E.hdr x).version ∨ ((E.hdr x).version = 0 ∧ ∃ j, ∃ c ∈ progs j, c.var = x ∧ ver x = E.rv c.resp)

private def PcRight (E : ReplyEnv) (ver : Nat → UInt8) (len : Nat → UInt16) (c : ReplyCall) : ReplyPc → Prop
  | .idle => True
  | .zero => (E.hdr c.var).version = 0
  | .wait => ver c.var = replyVersion E c
  | .locked => ver c.var = replyVersion E c
  | .stored => ver c.var = replyVersion E c ∧ ∃ b, c.body = .ok b ∧ (len c.var).toNat = (8 + b.length) % 65536
  | .copied m => ReplyRight E c (.ok m)

private def ReplyInv (E : ReplyEnv) (progs : Nat → List ReplyCall) (s : ReplySys) : Prop :=
  (∀ x, Known E progs s.ver x) ∧ (∀ i c t, s.todo i = c :: t → PcRight E s.ver s.len c (s.pc i)) ∧
  ∀ ev ∈ s.log, ReplyRight E ev.call ev.res

private theorem reply_inv {E : ReplyEnv} {progs : Nat → List ReplyCall} {s : ReplySys}
    (h1 : OneResponse progs) (h2 : OneVersion E progs) (h : ReplySys.Reach E progs s) : ReplyInv E progs s := by
  induction h with
  | init => exact ⟨fun _ => .inl rfl, fun _ _ _ _ => trivial, fun ev hev => by cases hev⟩
  | @step s s' h st ih =>
    obtain ⟨iv, ip, il⟩ := ih
    have hmem : ∀ i c t, s.todo i = c :: t → c ∈ progs i := fun i c t ht => by
      rw [← reply_order E progs s h i, ht]; simp
    have hlk := lock_inv h
    have same : ∀ (i : Nat) (c : ReplyCall) (t : List ReplyCall) (p : ReplyPc) (mu : Nat → Option Nat),
        s.todo i = c :: t → PcRight E s.ver s.len c p →
        ReplyInv E progs { s with pc := setAt s.pc i p, mu := mu } := by
      intro i c t p mu ht hp
      refine ⟨iv, fun j c' t' hu => ?_, il⟩
      by_cases hj : j = i
      · subst hj; simp only at hu; rw [ht] at hu; cases hu; simpa using hp
      · simp only [setAt_other _ _ hj]; exact ip j c' t' hu
    have fin : ∀ (i : Nat) (c : ReplyCall) (t : List ReplyCall) (res : Except Err Bytes),
        s.todo i = c :: t → ReplyRight E c res → ReplyInv E progs (s.finish i c t res) := by
      intro i c t res ht hr
      refine ⟨iv, fun j c' t' hu => ?_, fun ev hev => ?_⟩
      · by_cases hj : j = i
        · subst hj; simp [ReplySys.finish, PcRight]
        · simp only [ReplySys.finish, setAt_other _ _ hj] at hu ⊢; exact ip j c' t' hu
      · simp only [ReplySys.finish, List.mem_append, List.mem_singleton] at hev
        rcases hev with hev | rfl
        · exact il ev hev
        · exact hr
    cases st with
    | zero i c t hp ht hv =>
      refine same i c t _ s.mu ht ?_
      rcases iv c.var with g | ⟨g, _⟩
      · rw [hv] at g; exact g.symm
      · exact g
    | nonzero i c t hp ht hv =>
      refine same i c t _ s.mu ht ?_
      show s.ver c.var = replyVersion E c
      rcases iv c.var with g | ⟨g, j, c', hc', hx, hver⟩
      · rw [g] at hv ⊢; simp [replyVersion, hv]
      · rcases h2 j i c' hc' c (hmem i c t ht) hx with g' | g'
        · rw [hx] at g'; exact absurd g g'
        · rw [hver, g']; simp [replyVersion, g]
    | version i c t hp ht =>
      have hz := ip i c t ht
      rw [hp] at hz
      have hz : (E.hdr c.var).version = 0 := hz
      refine ⟨fun x => ?_, fun j c' t' hu => ?_, il⟩
      · by_cases hx : x = c.var
        · subst hx; exact .inr ⟨hz, i, c, hmem i c t ht, rfl, by simp⟩
        · rcases iv x with g | ⟨g, k⟩
          · exact .inl (by simp only [setAt_other _ _ hx]; exact g)
          · exact .inr ⟨g, by simp only [setAt_other _ _ hx]; exact k⟩
      · by_cases hj : j = i
        · subst hj; simp only at hu; rw [ht] at hu; cases hu
          simp [PcRight, replyVersion, hz]
        · simp only [setAt_other _ _ hj]
          have hq := ip j c' t' hu
          by_cases hx : c'.var = c.var
          · have hv : setAt s.ver c.var (E.rv c.resp) c'.var = replyVersion E c' := by
              rw [hx, setAt_same]
              rcases h2 i j c (hmem i c t ht) c' (hmem j c' t' hu) hx.symm with g | g
              · exact absurd hz g
              · simp [replyVersion, hx, hz, g]
            cases hpc : s.pc j <;> rw [hpc] at hq <;> simp only [PcRight] at hq ⊢
            · exact hq
            · exact hv
            · exact hv
            · exact ⟨hv, hq.2⟩
            · exact hq
          · cases hpc : s.pc j <;> rw [hpc] at hq <;> simp only [PcRight, setAt_other _ _ hx] at hq ⊢ <;> exact hq
    | lock i c t hp ht hm =>
      have hz := ip i c t ht
      rw [hp] at hz
      exact same i c t _ _ ht hz
    | store i c t b hp ht hb =>
      have hz := ip i c t ht
      rw [hp] at hz
      refine ⟨iv, fun j c' t' hu => ?_, il⟩
      by_cases hj : j = i
      · subst hj; simp only at hu; rw [ht] at hu; cases hu
        simp only [setAt_same]
        exact ⟨hz, b, hb, by rw [setAt_same]; exact len_toNat b⟩
      · simp only [setAt_other _ _ hj]
        have hq := ip j c' t' hu
        by_cases hx : c'.var = c.var
        · cases hpc : s.pc j <;> rw [hpc] at hq <;> simp only [PcRight] at hq ⊢
          · exact hq
          · exact hq
          · exact hq
          · have e1 := hlk.1 j c' t' hu (by rw [hpc]; trivial)
            have e2 := hlk.1 i c t ht (by rw [hp]; trivial)
            rw [h1 j i hj c' (hmem j c' t' hu) c (hmem i c t ht) hx, e2] at e1
            exact absurd (Option.some.inj e1).symm hj
          · exact hq
        · cases hpc : s.pc j <;> rw [hpc] at hq <;> simp only [PcRight, setAt_other _ _ hx] at hq ⊢ <;> exact hq
    | emit i c t b hp ht hb =>
      have hz := ip i c t ht
      rw [hp] at hz
      obtain ⟨g1, b', g2, g3⟩ := hz
      rw [hb] at g2; cases g2
      refine same i c t _ s.mu ht ⟨b, hb, ?_⟩
      have := layout_msg (E.hdr c.var) (s.ver c.var) (s.len c.var) b _ g3
      rw [g1] at this
      simpa only [ReplySys.header, g1] using this
    | fail i c t e hp ht hb => exact fin i c t _ ht hb
    | write i c t m hp ht =>
      have hz := ip i c t ht
      rw [hp] at hz
      exact fin i c t _ ht hz

/-- C89, the part that holds: a header may be given to `Write` again and again, by several goroutines at
once, as long as they use it with one response (its lock protects the length) and the version to fill in is
the same.  Then every `Write` transmits one message with the right version, the right length and its body,
or returns the error of the body. -/
theorem shared_reply_partial (E : ReplyEnv) (progs : Nat → List ReplyCall) (s : ReplySys) (h1 : OneResponse progs)
    (h2 : OneVersion E progs) (h : ReplySys.Reach E progs s) (ev : ReplyEv) (hev : ev ∈ s.log) :
    ReplyRight E ev.call ev.res := (reply_inv h1 h2 h).2.2 ev hev

/-- C89.  In particular a header of its own for every call is always right: the idiom
`rw.Write(&of.Header{Type: ...}, w)`, whatever else is going on. -/
theorem own_reply (E : ReplyEnv) (progs : Nat → List ReplyCall) (s : ReplySys)
    (ho : ∀ i j, ∀ c ∈ progs i, ∀ c' ∈ progs j, c.var = c'.var → c = c')
    (h : ReplySys.Reach E progs s) (ev : ReplyEv) (hev : ev ∈ s.log) : ReplyRight E ev.call ev.res :=
  shared_reply_partial E progs s (fun i j _ c hc c' hc' hx => by rw [ho i j c hc c' hc' hx])
    (fun i j c hc c' hc' hx => .inr (by rw [ho i j c hc c' hc' hx])) h ev hev

/-! ## What holds in every interleaving -/

/-- As `ReplyRight`, with a version that may have been filled in for another request, and a length that may
be that of another message sent with the same header. -/
def ReplyShape (E : ReplyEnv) (progs : Nat → List ReplyCall) (c : ReplyCall) : Except Err Bytes → Prop
  | .ok m => ∃ b, c.body = .ok b ∧ ∃ v : UInt8, ∃ l : Nat,
      (v = (E.hdr c.var).version ∨ ((E.hdr c.var).version = 0 ∧ ∃ j, ∃ c' ∈ progs j, c'.var = c.var ∧ v = E.rv c'.resp)) ∧
      (∃ j, ∃ c' ∈ progs j, c'.var = c.var ∧ ∃ b', c'.body = .ok b' ∧ l = (8 + b'.length) % 65536) ∧
      Layout m [.num 1 v.toNat, .num 1 (E.hdr c.var).type.toNat, .num 2 l,
        .num 4 (E.hdr c.var).transaction.toNat, .raw b]
  | .error e => c.body = .error e

private def KnownLen (progs : Nat → List ReplyCall) (len : Nat → UInt16) (x : Nat) : Prop :=
  ∃ j, ∃ c ∈ progs j, c.var = x ∧ ∃ b, c.body = .ok b ∧ (len x).toNat = (8 + b.length) % 65536

private def PcShape (E : ReplyEnv) (progs : Nat → List ReplyCall) (len : Nat → UInt16) (c : ReplyCall) : ReplyPc → Prop
  | .zero => (E.hdr c.var).version = 0
  | .stored => (∃ b, c.body = .ok b) ∧ KnownLen progs len c.var
  | .copied m => ReplyShape E progs c (.ok m)
  | _ => True

private def ShapeInv (E : ReplyEnv) (progs : Nat → List ReplyCall) (s : ReplySys) : Prop :=
  (∀ x, Known E progs s.ver x) ∧ (∀ i c t, s.todo i = c :: t → PcShape E progs s.len c (s.pc i)) ∧
  ∀ ev ∈ s.log, ReplyShape E progs ev.call ev.res

private theorem shape_inv {E : ReplyEnv} {progs : Nat → List ReplyCall} {s : ReplySys}
    (h : ReplySys.Reach E progs s) : ShapeInv E progs s := by
  induction h with
  | init => exact ⟨fun _ => .inl rfl, fun _ _ _ _ => trivial, fun ev hev => by cases hev⟩
  | @step s s' h st ih =>
    obtain ⟨iv, ip, il⟩ := ih
    have hmem : ∀ i c t, s.todo i = c :: t → c ∈ progs i := fun i c t ht => by
      rw [← reply_order E progs s h i, ht]; simp
    have same : ∀ (i : Nat) (c : ReplyCall) (t : List ReplyCall) (p : ReplyPc) (ver : Nat → UInt8)
        (mu : Nat → Option Nat), s.todo i = c :: t → PcShape E progs s.len c p → (∀ x, Known E progs ver x) →
        ShapeInv E progs { s with pc := setAt s.pc i p, mu := mu, ver := ver } := by
      intro i c t p ver mu ht hp hv
      refine ⟨hv, fun j c' t' hu => ?_, il⟩
      by_cases hj : j = i
      · subst hj; simp only at hu; rw [ht] at hu; cases hu; simpa using hp
      · simp only [setAt_other _ _ hj]; exact ip j c' t' hu
    have fin : ∀ (i : Nat) (c : ReplyCall) (t : List ReplyCall) (res : Except Err Bytes),
        s.todo i = c :: t → ReplyShape E progs c res → ShapeInv E progs (s.finish i c t res) := by
      intro i c t res ht hr
      refine ⟨iv, fun j c' t' hu => ?_, fun ev hev => ?_⟩
      · by_cases hj : j = i
        · subst hj; simp [ReplySys.finish, PcShape]
        · simp only [ReplySys.finish, setAt_other _ _ hj] at hu ⊢; exact ip j c' t' hu
      · simp only [ReplySys.finish, List.mem_append, List.mem_singleton] at hev
        rcases hev with hev | rfl
        · exact il ev hev
        · exact hr
    cases st with
    | zero i c t hp ht hv =>
      refine same i c t _ s.ver s.mu ht ?_ iv
      rcases iv c.var with g | ⟨g, _⟩
      · rw [hv] at g; exact g.symm
      · exact g
    | nonzero i c t hp ht hv => exact same i c t _ s.ver s.mu ht trivial iv
    | version i c t hp ht =>
      have hz := ip i c t ht
      rw [hp] at hz
      have hz : (E.hdr c.var).version = 0 := hz
      refine same i c t _ _ s.mu ht trivial (fun x => ?_)
      by_cases hx : x = c.var
      · subst hx; exact .inr ⟨hz, i, c, hmem i c t ht, rfl, by simp⟩
      · rcases iv x with g | ⟨g, k⟩
        · exact .inl (by simp only [setAt_other _ _ hx]; exact g)
        · exact .inr ⟨g, by simp only [setAt_other _ _ hx]; exact k⟩
    | lock i c t hp ht hm => exact same i c t _ s.ver _ ht trivial iv
    | store i c t b hp ht hb =>
      have hk : KnownLen progs (setAt s.len c.var (UInt16.ofNat headerlen + UInt16.ofNat b.length)) c.var :=
        ⟨i, c, hmem i c t ht, rfl, b, hb, by rw [setAt_same]; exact len_toNat b⟩
      refine ⟨iv, fun j c' t' hu => ?_, il⟩
      by_cases hj : j = i
      · subst hj; simp only at hu; rw [ht] at hu; cases hu
        simp only [setAt_same]
        exact ⟨⟨b, hb⟩, hk⟩
      · simp only [setAt_other _ _ hj]
        have hq := ip j c' t' hu
        cases hpc : s.pc j <;> rw [hpc] at hq <;> simp only [PcShape] at hq ⊢
        · exact hq
        · refine ⟨hq.1, ?_⟩
          by_cases hx : c'.var = c.var
          · rw [hx]; exact hk
          · obtain ⟨j', c2, g1, g2, b', g3, g4⟩ := hq.2
            exact ⟨j', c2, g1, g2, b', g3, by rw [setAt_other _ _ hx]; exact g4⟩
        · exact hq
    | emit i c t b hp ht hb =>
      have hz := ip i c t ht
      rw [hp] at hz
      obtain ⟨_, j, c', g1, g2, b', g3, g4⟩ := hz
      refine same i c t _ s.ver s.mu ht ⟨b, hb, s.ver c.var, _, ?_, ⟨j, c', g1, g2, b', g3, g4⟩, ?_⟩ iv
      · exact iv c.var
      · exact layout_msg (E.hdr c.var) (s.ver c.var) (s.len c.var) b _ rfl
    | fail i c t e hp ht hb => exact fin i c t _ ht hb
    | write i c t m hp ht =>
      have hz := ip i c t ht
      rw [hp] at hz
      exact fin i c t _ ht hz

/-- C89.  In every interleaving, however headers are shared: a message carries the type and the transaction
of its header and its own body; the version is that of the header or of a request that the header was used
for; the length is that of a message the header was used for; errors are those of the body. -/
theorem shared_reply_shape (E : ReplyEnv) (progs : Nat → List ReplyCall) (s : ReplySys)
    (h : ReplySys.Reach E progs s) (ev : ReplyEv) (hev : ev ∈ s.log) : ReplyShape E progs ev.call ev.res :=
  (shape_inv h).2.2 ev hev

/-- C89.  Nobody waits for ever: as long as there is a call left, some goroutine can go on. -/
theorem reply_progress (E : ReplyEnv) (progs : Nat → List ReplyCall) (s : ReplySys)
    (h : ReplySys.Reach E progs s) (i : Nat) (hi : s.todo i ≠ []) : ∃ s' j, ReplySys.Step E s s' ∧ s'.pc j ≠ s.pc j := by
  have inside : ∀ j c t, s.todo j = c :: t → Inside (s.pc j) → ∃ s' j, ReplySys.Step E s s' ∧ s'.pc j ≠ s.pc j := by
    intro j c t ht hin
    cases hp : s.pc j with
    | idle => rw [hp] at hin; exact hin.elim
    | zero => rw [hp] at hin; exact hin.elim
    | wait => rw [hp] at hin; exact hin.elim
    | locked =>
      cases hb : c.body with
      | error e => exact ⟨_, j, .fail s j c t e hp ht hb, by simp [hp, ReplySys.finish]⟩
      | ok b => exact ⟨_, j, .store s j c t b hp ht hb, by simp [hp]⟩
    | stored =>
      have hs := (shape_inv h).2.1 j c t ht
      rw [hp] at hs
      obtain ⟨⟨b, hb⟩, _⟩ := hs
      exact ⟨_, j, .emit s j c t b hp ht hb, by simp [hp]⟩
    | copied m => exact ⟨_, j, .write s j c t m hp ht, by simp [hp, ReplySys.finish]⟩
  obtain ⟨c, t, ht⟩ := List.exists_cons_of_ne_nil hi
  cases hp : s.pc i with
  | idle =>
    by_cases hv : s.ver c.var = 0
    · exact ⟨_, i, .zero s i c t hp ht hv, by simp [hp]⟩
    · exact ⟨_, i, .nonzero s i c t hp ht hv, by simp [hp]⟩
  | zero => exact ⟨_, i, .version s i c t hp ht, by simp [hp]⟩
  | wait =>
    cases hm : s.mu c.resp with
    | none => exact ⟨_, i, .lock s i c t hp ht hm, by simp [hp]⟩
    | some j =>
      obtain ⟨c', t', g1, _, g3⟩ := (lock_inv h).2.1 c.resp j hm
      exact inside j c' t' g1 g3
  | locked => exact inside i c t ht (by rw [hp]; trivial)
  | stored => exact inside i c t ht (by rw [hp]; trivial)
  | copied m => exact inside i c t ht (by rw [hp]; trivial)

/-! ## The steps and `response.Write` -/

/-- C89, C12.  Under the same conditions a call does to the connection what `Response.write` does with the
header as it was at the beginning: all the uses that a header has been put to do not matter. -/
theorem reply_is_write_partial (E : ReplyEnv) (progs : Nat → List ReplyCall) (s : ReplySys) (h1 : OneResponse progs)
    (h2 : OneVersion E progs) (h : ReplySys.Reach E progs s) (ev : ReplyEv) (hev : ev ∈ s.log) (w : Option Wr)
    (hw : match ev.call.body with
      | .ok b => (w = none ∧ b = []) ∨ ∃ n, w = some ⟨b, n, none⟩
      | .error e => ∃ o n, w = some ⟨o, n, some e⟩) (b : BW) :
    match ev.res with
      | .ok m => (Response.write b (E.rv ev.call.resp) (E.hdr ev.call.var) w).1 = (Conn.forceWrite b m).1 ∧
          (Response.write b (E.rv ev.call.resp) (E.hdr ev.call.var) w).2.1 = (Conn.forceWrite b m).2
      | .error e => (Response.write b (E.rv ev.call.resp) (E.hdr ev.call.var) w).1 = some e ∧
          (Response.write b (E.rv ev.call.resp) (E.hdr ev.call.var) w).2.1 = b := by
  have hr := shared_reply_partial E progs s h1 h2 h ev hev
  cases hres : ev.res with
  | error e =>
    rw [hres] at hr
    rw [show ev.call.body = .error e from hr] at hw
    obtain ⟨o, n, rfl⟩ := hw
    simp [Response.write]
  | ok m =>
    rw [hres] at hr
    obtain ⟨bb, hb, hlay⟩ := hr
    rw [hb] at hw
    have := layout_msg (E.hdr ev.call.var) (replyVersion E ev.call) (UInt16.ofNat (8 + bb.length)) bb
      ((8 + bb.length) % 65536) (by simp)
    have he := layout_unique _ _ _ hlay this
    simp only [response_eq b _ _ w bb hw]
    rw [he, Header.writeTo_eq]
    exact ⟨rfl, rfl⟩

/-! ## What goes wrong -/

/-- C89 is false: a handler that keeps its header and answers two requests with it.  The second request
has another version, and its response carries the version of the first. -/
theorem reply_version_false (t : UInt8) (x : UInt32) (v1 v2 : UInt8) (hv : v1 ≠ 0) (b1 b2 : Bytes) :
    ∃ s m1 m2, ReplySys.Reach ⟨fun _ => ⟨0, t, 0, x⟩, fun r => if r = 0 then v1 else v2, fun _ => 0⟩
        (fun i => if i = 0 then [⟨0, 0, .ok b1⟩, ⟨1, 0, .ok b2⟩] else []) s ∧
      s.log.map (·.res) = [.ok m1, .ok m2] ∧
      Layout m2 [.num 1 v1.toNat, .num 1 t.toNat, .num 2 ((8 + b2.length) % 65536), .num 4 x.toNat, .raw b2] := by
  let E : ReplyEnv := ⟨fun _ => ⟨0, t, 0, x⟩, fun r => if r = 0 then v1 else v2, fun _ => 0⟩
  have r1 : ReplySys.Reach E (fun i => if i = 0 then [⟨0, 0, .ok b1⟩, ⟨1, 0, .ok b2⟩] else []) _ :=
    .step .init (.zero _ 0 ⟨0, 0, .ok b1⟩ [⟨1, 0, .ok b2⟩] rfl rfl rfl)
  have r2 := r1.step (.version _ 0 ⟨0, 0, .ok b1⟩ [⟨1, 0, .ok b2⟩] rfl rfl)
  have r3 := r2.step (.lock _ 0 ⟨0, 0, .ok b1⟩ [⟨1, 0, .ok b2⟩] rfl rfl rfl)
  have r4 := r3.step (.store _ 0 ⟨0, 0, .ok b1⟩ [⟨1, 0, .ok b2⟩] b1 rfl rfl rfl)
  have r5 := r4.step (.emit _ 0 ⟨0, 0, .ok b1⟩ [⟨1, 0, .ok b2⟩] b1 rfl rfl rfl)
  have r6 := r5.step (.write _ 0 ⟨0, 0, .ok b1⟩ [⟨1, 0, .ok b2⟩] _ rfl rfl)
  have r7 := r6.step (.nonzero _ 0 ⟨1, 0, .ok b2⟩ [] rfl rfl hv)
  have r8 := r7.step (.lock _ 0 ⟨1, 0, .ok b2⟩ [] rfl rfl rfl)
  have r9 := r8.step (.store _ 0 ⟨1, 0, .ok b2⟩ [] b2 rfl rfl rfl)
  have r10 := r9.step (.emit _ 0 ⟨1, 0, .ok b2⟩ [] b2 rfl rfl rfl)
  have r11 := r10.step (.write _ 0 ⟨1, 0, .ok b2⟩ [] _ rfl rfl)
  exact ⟨_, _, _, r11, rfl, layout_msg ⟨0, t, 0, x⟩ v1 (UInt16.ofNat headerlen + UInt16.ofNat b2.length) b2 _ (len_toNat b2)⟩

/-- C89 is false: two handlers answer requests on two connections with one header.  A message goes out with the
length of the other one. -/
theorem reply_length_false (h : Header) (hv : h.version ≠ 0) (b1 b2 : Bytes) :
    ∃ s m1 m2, ReplySys.Reach ⟨fun _ => h, fun _ => h.version, id⟩
        (fun i => if i = 0 then [⟨0, 0, .ok b1⟩] else if i = 1 then [⟨1, 0, .ok b2⟩] else []) s ∧
      s.log.map (fun ev => (ev.go, ev.res)) = [(0, .ok m1), (1, .ok m2)] ∧
      Layout m1 [.num 1 h.version.toNat, .num 1 h.type.toNat, .num 2 ((8 + b2.length) % 65536),
        .num 4 h.transaction.toNat, .raw b1] ∧
      Layout m2 [.num 1 h.version.toNat, .num 1 h.type.toNat, .num 2 ((8 + b2.length) % 65536),
        .num 4 h.transaction.toNat, .raw b2] := by
  let E : ReplyEnv := ⟨fun _ => h, fun _ => h.version, id⟩
  have r1 : ReplySys.Reach E (fun i => if i = 0 then [⟨0, 0, .ok b1⟩] else if i = 1 then [⟨1, 0, .ok b2⟩] else []) _ :=
    .step .init (.nonzero _ 0 ⟨0, 0, .ok b1⟩ [] rfl rfl hv)
  have r2 := r1.step (.lock _ 0 ⟨0, 0, .ok b1⟩ [] rfl rfl rfl)
  have r3 := r2.step (.store _ 0 ⟨0, 0, .ok b1⟩ [] b1 rfl rfl rfl)
  have r4 := r3.step (.nonzero _ 1 ⟨1, 0, .ok b2⟩ [] rfl rfl hv)
  have r5 := r4.step (.lock _ 1 ⟨1, 0, .ok b2⟩ [] rfl rfl rfl)
  have r6 := r5.step (.store _ 1 ⟨1, 0, .ok b2⟩ [] b2 rfl rfl rfl)
  have r7 := r6.step (.emit _ 0 ⟨0, 0, .ok b1⟩ [] b1 rfl rfl rfl)
  have r8 := r7.step (.write _ 0 ⟨0, 0, .ok b1⟩ [] _ rfl rfl)
  have r9 := r8.step (.emit _ 1 ⟨1, 0, .ok b2⟩ [] b2 rfl rfl rfl)
  have r10 := r9.step (.write _ 1 ⟨1, 0, .ok b2⟩ [] _ rfl rfl)
  exact ⟨_, _, _, r10, rfl, layout_msg h h.version (UInt16.ofNat headerlen + UInt16.ofNat b2.length) b1 _ (len_toNat b2),
    layout_msg h h.version (UInt16.ofNat headerlen + UInt16.ofNat b2.length) b2 _ (len_toNat b2)⟩

private def pingEnv : ReplyEnv := ⟨fun _ => ⟨0, 3, 0, 7⟩, fun _ => 4, fun _ => 0⟩

private def ping : Nat → List ReplyCall := fun i =>
  if i = 0 then [⟨0, 0, .ok [1, 2]⟩] else if i = 1 then [⟨0, 0, .ok [9]⟩, ⟨0, 0, .error .panic⟩] else []

/-- Two goroutines of one handler share a header: the conditions hold, and this is one of the executions. -/
example : OneResponse ping ∧ OneVersion pingEnv ping ∧ ∃ s, ReplySys.Reach pingEnv ping s ∧
    s.log.map (fun ev => (ev.go, ev.res.toOption)) =
      [(0, some [4, 3, 0, 10, 0, 0, 0, 7, 1, 2]), (1, some [4, 3, 0, 9, 0, 0, 0, 7, 9]), (1, none)] := by
  refine ⟨fun i j _ c hc c' hc' _ => ?_, fun i j c _ c' _ _ => .inr rfl, ?_⟩
  · have all : ∀ i, ∀ c ∈ ping i, c.resp = 0 := by
      intro i c hc
      unfold ping at hc
      split at hc
      · simp at hc; rw [hc]
      · split at hc
        · simp at hc; rcases hc with rfl | rfl <;> rfl
        · simp at hc
    rw [all i c hc, all j c' hc']
  · have r1 : ReplySys.Reach pingEnv ping _ := .step .init (.zero _ 0 ⟨0, 0, .ok [1, 2]⟩ [] rfl rfl rfl)
    have r2 := r1.step (.zero _ 1 ⟨0, 0, .ok [9]⟩ [⟨0, 0, .error .panic⟩] rfl rfl rfl)
    have r3 := r2.step (.version _ 0 ⟨0, 0, .ok [1, 2]⟩ [] rfl rfl)
    have r4 := r3.step (.lock _ 0 ⟨0, 0, .ok [1, 2]⟩ [] rfl rfl rfl)
    have r5 := r4.step (.store _ 0 ⟨0, 0, .ok [1, 2]⟩ [] [1, 2] rfl rfl rfl)
    have r6 := r5.step (.version _ 1 ⟨0, 0, .ok [9]⟩ [⟨0, 0, .error .panic⟩] rfl rfl)
    have r7 := r6.step (.emit _ 0 ⟨0, 0, .ok [1, 2]⟩ [] [1, 2] rfl rfl rfl)
    have r8 := r7.step (.write _ 0 ⟨0, 0, .ok [1, 2]⟩ [] _ rfl rfl)
    have r9 := r8.step (.lock _ 1 ⟨0, 0, .ok [9]⟩ [⟨0, 0, .error .panic⟩] rfl rfl rfl)
    have r10 := r9.step (.store _ 1 ⟨0, 0, .ok [9]⟩ [⟨0, 0, .error .panic⟩] [9] rfl rfl rfl)
    have r11 := r10.step (.emit _ 1 ⟨0, 0, .ok [9]⟩ [⟨0, 0, .error .panic⟩] [9] rfl rfl rfl)
    have r12 := r11.step (.write _ 1 ⟨0, 0, .ok [9]⟩ [⟨0, 0, .error .panic⟩] _ rfl rfl)
    have r13 := r12.step (.nonzero _ 1 ⟨0, 0, .error .panic⟩ [] rfl rfl (by decide +kernel))
    have r14 := r13.step (.lock _ 1 ⟨0, 0, .error .panic⟩ [] rfl rfl rfl)
    have r15 := r14.step (.fail _ 1 ⟨0, 0, .error .panic⟩ [] .panic rfl rfl rfl)
    exact ⟨_, r15, by decide +kernel⟩

end Verif.Props
