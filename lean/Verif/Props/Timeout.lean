import Verif.Timeout
import Verif.Props.Conn

/-!
# Properties C59, C60: timeouts
-/

namespace Verif.Props

open Verif

/-! ## C59: receiving -/

/-- The chunks are listed in the order of their arrival. -/
def InOrder (arr : List (Nat × Bytes)) : Prop := arr.Pairwise (fun a b => a.1 ≤ b.1)

/-- The bytes that arrive before the time `d`. -/
def arrivedBefore (d : Nat) (arr : List (Nat × Bytes)) : Bytes :=
  (arr.filter (fun c => c.1 < d)).flatMap (·.2)

/-- The chunks that arrive at the time `d` or later. -/
def arrivingFrom (d : Nat) (arr : List (Nat × Bytes)) : List (Nat × Bytes) :=
  arr.filter (fun c => d ≤ c.1)

/-- What the connection holds: bytes that have arrived and have not been returned. -/
def TRead.held (c : TRead) : Bytes := c.buf ++ c.data

private theorem takeWhile_order {d : Nat} {arr : List (Nat × Bytes)} (h : InOrder arr) :
    arr.takeWhile (fun c => c.1 < d) = arr.filter (fun c => c.1 < d) ∧
    arr.dropWhile (fun c => c.1 < d) = arr.filter (fun c => d ≤ c.1) := by
  induction arr with
  | nil => simp
  | cons a t ih =>
    obtain ⟨h1, h2⟩ := List.pairwise_cons.mp h
    obtain ⟨i1, i2⟩ := ih h2
    by_cases ha : a.1 < d
    · simp [ha, i1, i2]
    · have : ∀ c ∈ t, ¬ c.1 < d := fun c hc => by have := h1 c hc; omega
      have e1 : t.filter (fun c => decide (c.1 < d)) = [] := by
        rw [List.filter_eq_nil_iff]; intro c hc; simpa using this c hc
      have e2 : t.filter (fun c => decide (d ≤ c.1)) = t := by
        rw [List.filter_eq_self]; intro c hc; simpa using this c hc
      simp [ha, e1, e2, Nat.not_lt.mp ha]

/-- A call of `Receive` with the deadline `d`. -/
theorem receive_run (c : TRead) (now d : Nat) (hd : now < d) (ho : InOrder c.arr)
    (hdl : (if c.timeout = 0 then c.deadline else some (now + c.timeout)) = some d) :
    ∃ r, r.Ok .timeout ∧ r.Sep ∧ r.content = TRead.held c ++ arrivedBefore d c.arr ∧
      ∃ b' d' s', (Conn.receive r).2.2 = .buf b' none (.src d' s' .timeout false) ∧
      c.receive now = some ((Conn.receive r).1, (Conn.receive r).2.1,
        ⟨b', d', s', some d, c.timeout, arrivingFrom d c.arr⟩) := by
  obtain ⟨t1, t2⟩ := takeWhile_order (d := d) ho
  refine ⟨.buf c.buf none (.src (c.data ++ (c.arr.takeWhile (fun c => c.1 < d)).flatMap (·.2)) c.sched
    .timeout false), by simp [Rd.Ok], rfl, ?_, ?_⟩
  · simp [Rd.content, TRead.held, arrivedBefore, t1]
  · generalize hr : Rd.buf c.buf none (.src (c.data ++ (c.arr.takeWhile (fun c => c.1 < d)).flatMap (·.2))
      c.sched .timeout false) = r
    have ht : r.Timed _ := ⟨_, _, _, hr.symm, Nat.le_refl _⟩
    obtain ⟨b', d', s', h, _⟩ := ht.receive
    refine ⟨b', d', s', h, ?_⟩
    have hc : (if c.timeout = 0 then c else { c with deadline := some (now + c.timeout) })
        = { c with deadline := some d } := by
      split at hdl
      · rw [if_pos (by assumption), ← hdl]
      · rw [if_neg (by assumption), hdl]
    unfold TRead.receive
    rw [hc]
    simp only
    rw [if_neg (by omega), hr]
    rcases hq : Conn.receive r with ⟨q, e, r'⟩
    rw [hq] at h
    simp only at h
    subst h
    simp [TRead.put, arrivingFrom, t2]

/-- The deadline of a `Receive` that is called at the time `now`. -/
def TRead.until (c : TRead) (now : Nat) : Option Nat :=
  if c.timeout = 0 then c.deadline else some (now + c.timeout)

/-- `Receive` on a reader that holds a message. -/
theorem receive_msg {F : Err} (r : Rd) (hr : r.Ok F) (hsep : r.Sep) (h : Header) (body rest : Bytes)
    (hl : h.length.toNat = 8 + body.length) (hm : r.content = h.bytes ++ body ++ rest) :
    ∃ q r', Conn.receive r = (some q, none, r') ∧ q.header = h ∧ q.body = .buffer body ∧
      r'.content = rest := by
  have hof : Header.ofBytes r.content = h := by rw [hm, List.append_assoc, Header.ofBytes_bytes]
  have hb := h.bytes_length
  have hlen : h.len = 8 + body.length := hl
  rcases Conn.receive_spec F r hr with ⟨g, _⟩ | ⟨_, g, _⟩ | ⟨_, _, _, r', _, _, _, g⟩ |
    ⟨g1, g2, r', g3, g4, g5⟩
  · rw [hm] at g; simp at g; omega
  · rw [hof, hlen] at g; omega
  · have := g (.inl hsep)
    rw [hof, hlen, hm] at this; simp at this; omega
  · refine ⟨_, r', g3, hof, ?_, ?_⟩
    · rw [hof, hlen, hm]
      have : (h.bytes ++ body ++ rest).drop 8 = body ++ rest := by
        rw [List.append_assoc, ← hb, List.drop_left]
      rw [this, Nat.add_sub_cancel_left, List.take_left]
    · have := g4.content.2
      rw [hof, hlen, hm] at this
      rw [this, ← hb, ← List.length_append, List.drop_left]

/-- `Receive` on a reader that holds a part of a message, and the error `F` behind it. -/
theorem receive_cut {F : Err} (r : Rd) (hr : r.Ok F) (h : Header)
    (body part missing : Bytes) (hl : h.length.toNat = 8 + body.length)
    (hp : part ++ missing = h.bytes ++ body) (hne : missing ≠ []) (hm : r.content = part) :
    ∃ r' e, Conn.receive r = (none, some e, r') ∧ r'.content = [] ∧
      (e = F ∨ (F = .eof ∧ e = .unexpectedEOF)) := by
  have hb := h.bytes_length
  have hlen : h.len = 8 + body.length := hl
  have hplen : part.length + missing.length = 8 + body.length := by
    have := congrArg List.length hp; simpa [hb] using this
  have hmis : 0 < missing.length := List.length_pos_iff.mpr hne
  have hof : 8 ≤ part.length → Header.ofBytes part = h := by
    intro h8
    have e1 : Header.ofBytes (part ++ missing) = h := by rw [hp, Header.ofBytes_bytes]
    rw [← e1]
    simp only [Header.ofBytes]
    rw [List.take_append_of_le_length (by omega), List.drop_append_of_le_length (by omega),
      List.take_append_of_le_length (by simp; omega), List.drop_append_of_le_length (by omega),
      List.take_append_of_le_length (by simp; omega), List.drop_append_of_le_length (by omega),
      List.take_append_of_le_length (by simp; omega)]
  by_cases h8 : part.length < 8
  · rcases Header.read_spec F Request.zero.header r hr with ⟨g, _⟩ | ⟨_, hd', r', g2, g3, g4⟩
    · rw [hm] at g; omega
    · refine ⟨r', headerErr F r.content, by simp [Conn.receive, Request.readFrom, g2], ?_, ?_⟩
      · have := g3.content.2
        simpa using this
      · unfold headerErr
        split
        · rename_i hc; exact .inr ⟨hc.2, rfl⟩
        · exact .inl rfl
  · rcases Conn.receive_spec F r hr with ⟨g, _⟩ | ⟨_, g, _⟩ | ⟨_, _, _, r', g1, g2, g3, g4⟩ |
      ⟨g1, g2, _⟩
    · rw [hm] at g; omega
    · rw [hm, hof (by omega), hlen] at g; omega
    · exact ⟨r', F, g1, g3, .inl rfl⟩
    · rw [hm, hof (by omega), hlen] at g2; omega

/-- `Receive` on a reader that holds a part of a message. -/
theorem receive_part (r : Rd) (hr : r.Ok .timeout) (h : Header)
    (body part missing : Bytes) (hl : h.length.toNat = 8 + body.length)
    (hp : part ++ missing = h.bytes ++ body) (hne : missing ≠ []) (hm : r.content = part) :
    ∃ r', Conn.receive r = (none, some .timeout, r') ∧ r'.content = [] := by
  obtain ⟨r', e, h1, h2, h3⟩ := receive_cut r hr h body part missing hl hp hne hm
  rcases h3 with rfl | ⟨h3, _⟩
  · exact ⟨r', h1, h2⟩
  · cases h3

/-- C59.  A message that has arrived completely before the deadline is returned, whatever
arrives later, and nothing of what follows it is lost. -/
theorem receive_in_time (c : TRead) (now d : Nat) (hd : now < d) (ho : InOrder c.arr)
    (hdl : TRead.until c now = some d) (h : Header) (body rest : Bytes)
    (hl : h.length.toNat = 8 + body.length)
    (hm : TRead.held c ++ arrivedBefore d c.arr = h.bytes ++ body ++ rest) :
    ∃ q c', c.receive now = some (some q, none, c') ∧ q.header = h ∧ q.body = .buffer body ∧
      TRead.held c' = rest ∧ c'.arr = arrivingFrom d c.arr := by
  obtain ⟨r, h2, h3, h4, b', d', s', h5, h6⟩ := receive_run c now d hd ho hdl
  obtain ⟨q, r', g1, g2, g3, g4⟩ := receive_msg r h2 h3 h body rest hl (by rw [h4, hm])
  rw [g1] at h5 h6
  simp only at h5 h6
  rw [h5] at g4
  exact ⟨q, _, h6, g2, g3, g4, rfl⟩

/-- C59.  If only a part of a message arrives before the deadline, `Receive` returns a timeout
error and no message; it does not wait for what arrives later.  What had arrived of the message
is gone. -/
theorem receive_times_out (c : TRead) (now d : Nat) (hd : now < d) (ho : InOrder c.arr)
    (hdl : TRead.until c now = some d) (h : Header) (body part missing : Bytes)
    (hl : h.length.toNat = 8 + body.length) (hp : part ++ missing = h.bytes ++ body)
    (hne : missing ≠ [])
    (hm : TRead.held c ++ arrivedBefore d c.arr = part) :
    ∃ c', c.receive now = some (none, some .timeout, c') ∧ TRead.held c' = [] ∧
      c'.arr = arrivingFrom d c.arr ∧ c'.timeout = c.timeout ∧ c'.deadline = some d := by
  obtain ⟨r, h2, h3, h4, b', d', s', h5, h6⟩ := receive_run c now d hd ho hdl
  obtain ⟨r', g1, g2⟩ := receive_part r h2 h body part missing hl hp hne (by rw [h4, hm])
  rw [g1] at h5 h6
  simp only at h5 h6
  rw [h5] at g2
  exact ⟨_, h6, g2, rfl, rfl, rfl⟩

/-- Non-vacuity: a message in two chunks, the second comes after 3 units of time. -/
example : ∃ q c', (TRead.new 5 [2] [(101, [4, 2, 0, 9]), (103, [0, 0, 0, 1, 7, 4])]).receive 100 =
    some (some q, none, c') ∧ q.header = ⟨4, 2, 9, 1⟩ ∧ q.body = .buffer [7] ∧
      TRead.held c' = [4] ∧ c'.arr = arrivingFrom 105 [(101, [4, 2, 0, 9]), (103, [0, 0, 0, 1, 7, 4])] :=
  receive_in_time _ 100 105 (by omega) (by simp [InOrder, TRead.new]) rfl ⟨4, 2, 9, 1⟩ [7] [4] rfl
    (by decide)

/-- Non-vacuity: the same message when the second chunk comes too late. -/
example : ∃ c', (TRead.new 5 [2] [(101, [4, 2, 0, 9]), (105, [0, 0, 0, 1, 7, 4])]).receive 100 =
    some (none, some .timeout, c') ∧ TRead.held c' = [] ∧
      c'.arr = arrivingFrom 105 [(101, [4, 2, 0, 9]), (105, [0, 0, 0, 1, 7, 4])] ∧
      c'.timeout = 5 ∧ c'.deadline = some 105 :=
  receive_times_out _ 100 105 (by omega) (by simp [InOrder, TRead.new]) rfl ⟨4, 2, 9, 1⟩ [7]
    [4, 2, 0, 9] [0, 0, 0, 1, 7] rfl (by decide) (by simp) (by decide)

/-- C59.  Without timeout and deadline, `Receive` waits for the message, however long it takes. -/
theorem receive_waits (c : TRead) (now : Nat) (h0 : c.timeout = 0) (hd : c.deadline = none)
    (h : Header) (body rest : Bytes) (hl : h.length.toNat = 8 + body.length)
    (hm : TRead.held c ++ c.arr.flatMap (·.2) = h.bytes ++ body ++ rest) :
    ∃ q c', c.receive now = some (some q, none, c') ∧ q.header = h ∧ q.body = .buffer body ∧
      TRead.held c' = rest ∧ c'.arr = [] := by
  have ht : (Rd.buf c.buf none (.src (c.data ++ c.arr.flatMap (·.2)) c.sched .timeout false)).Timed _ :=
    ⟨_, _, _, rfl, Nat.le_refl _⟩
  obtain ⟨q, r', g1, g2, g3, g4⟩ := receive_msg (F := .timeout)
    (.buf c.buf none (.src (c.data ++ c.arr.flatMap (·.2)) c.sched .timeout false)) (by simp [Rd.Ok])
    rfl h body rest hl (by rw [← hm]; simp [Rd.content, TRead.held])
  have hsh := ht.receive
  rw [g1] at hsh
  obtain ⟨b', d', s', hsh, _⟩ := hsh
  simp only at hsh
  subst hsh
  refine ⟨q, ⟨b', d', s', none, 0, []⟩, ?_, g2, g3, ?_, rfl⟩
  · simp only [TRead.receive, h0, if_true, hd]
    rw [g1]
    simp [TRead.put, hd, h0]
  · simpa [Rd.content, TRead.held] using g4

example : ∃ q c', (TRead.new 0 [2] [(1, [4, 2, 0, 9]), (100000, [0, 0, 0, 1, 7, 4])]).receive 0 =
    some (some q, none, c') ∧ q.header = ⟨4, 2, 9, 1⟩ ∧ q.body = .buffer [7] ∧
      TRead.held c' = [4] ∧ c'.arr = [] :=
  receive_waits _ 0 rfl rfl ⟨4, 2, 9, 1⟩ [7] [4] rfl (by decide)

/-- C59.  Once a deadline set with `SetReadDeadline` has passed, `Receive` returns at once: a
message if the connection has already read all of it, otherwise the timeout error, and what is
waiting in the transport stays there. -/
theorem receive_expired (c : TRead) (now d : Nat) (h0 : c.timeout = 0) (hd : c.deadline = some d)
    (hn : d ≤ now) (h : Header) (body : Bytes) (hl : h.length.toNat = 8 + body.length) :
    (∀ rest, c.buf = h.bytes ++ body ++ rest →
      ∃ q, c.receive now = some (some q, none, { c with buf := rest }) ∧ q.header = h ∧
        q.body = .buffer body) ∧
    (∀ missing, c.buf ++ missing = h.bytes ++ body → missing ≠ [] →
      c.receive now = some (none, some .timeout, { c with buf := [] })) := by
  have hok : (Rd.buf c.buf none (.src [] c.sched .timeout false)).Ok .timeout := by simp [Rd.Ok]
  have hrun : c.receive now = (match Conn.receive (.buf c.buf none (.src [] c.sched .timeout false)) with
      | (q, e, .buf b _ _) => some (q, e, { c with buf := b })
      | (q, e, _) => some (q, e, c)) := by
    simp only [TRead.receive, h0, if_true, hd, hn]
    rfl
  have hsh : (Conn.receive (.buf c.buf none (.src [] c.sched .timeout false))).2.2.Timed 0 :=
    Rd.Timed.receive ⟨_, _, _, rfl, by simp⟩
  constructor
  · intro rest hm
    obtain ⟨q, r', g1, g2, g3, g4⟩ := receive_msg (F := .timeout) _ hok rfl h body rest hl (by simpa [Rd.content] using hm)
    rw [g1] at hsh hrun
    obtain ⟨b', d', s', hsh, hd'⟩ := hsh
    simp only at hsh
    subst hsh
    have hd' : d' = [] := List.length_eq_zero_iff.mp (by omega)
    subst hd'
    refine ⟨q, ?_, g2, g3⟩
    simp only [Rd.content, List.append_nil] at g4
    rw [hrun, g4]
  · intro missing hm hne
    obtain ⟨r', g1, g2⟩ := receive_part _ hok h body c.buf missing hl hm hne (by simp [Rd.content])
    rw [g1] at hsh hrun
    obtain ⟨b', d', s', hsh, hd'⟩ := hsh
    simp only at hsh
    subst hsh
    simp only [Rd.content, List.append_eq_nil_iff] at g2
    rw [hrun, g2.1]

example : (⟨[4, 2, 0], [9], [], some 5, 0, []⟩ : TRead).receive 7 =
    some (none, some .timeout, ⟨[], [9], [], some 5, 0, []⟩) :=
  (receive_expired ⟨[4, 2, 0], [9], [], some 5, 0, []⟩ 7 5 rfl rfl (by omega) ⟨4, 2, 9, 1⟩ [7] rfl).2
    [9, 0, 0, 0, 1, 7] (by decide) (by simp)

/-! ## C60: receiving again after a timeout -/

private theorem from_before {d d' : Nat} (h : d ≤ d') {arr : List (Nat × Bytes)} (ho : InOrder arr) :
    InOrder (arrivingFrom d arr) ∧
    arrivingFrom d' (arrivingFrom d arr) = arrivingFrom d' arr := by
  refine ⟨List.Pairwise.filter _ ho, ?_⟩
  simp only [arrivingFrom, List.filter_filter]
  congr 1; funext c; simp; omega

/-- Receive `n` times in a row, each time right after the other has returned with a timeout. -/
def idleReceives (d : Nat) : Nat → Nat → TRead → Option (List (Option Request × Option Err) × TRead)
  | 0, _, c => some ([], c)
  | n + 1, now, c =>
    match c.receive now with
    | none => none
    | some (q, e, c') =>
      match idleReceives d n (now + d) c' with
      | none => none
      | some (l, c'') => some ((q, e) :: l, c'')

/-- C60, the part that holds.  `Receive` may be repeated after a timeout if nothing had arrived:
after any number of timeouts on an idle connection, a message that arrives in time is returned.
Missing: a timeout in the middle of a message, see `receive_again_false`. -/
theorem receive_again_partial (c : TRead) (now n : Nat) (ht : 0 < c.timeout) (ho : InOrder c.arr)
    (hh : TRead.held c = []) (hidle : ∀ x ∈ c.arr, now + n * c.timeout ≤ x.1)
    (h : Header) (body rest : Bytes) (hl : h.length.toNat = 8 + body.length)
    (hm : arrivedBefore (now + n * c.timeout + c.timeout) c.arr = h.bytes ++ body ++ rest) :
    ∃ c', idleReceives c.timeout n now c = some (List.replicate n (none, some .timeout), c') ∧
      ∃ q c'', c'.receive (now + n * c.timeout) = some (some q, none, c'') ∧ q.header = h ∧
        q.body = .buffer body ∧ TRead.held c'' = rest := by
  induction n generalizing now c with
  | zero =>
    refine ⟨c, rfl, ?_⟩
    simp only [Nat.zero_mul, Nat.add_zero] at hm ⊢
    obtain ⟨q, c'', g1, g2, g3, g4, _⟩ := receive_in_time c now (now + c.timeout) (by omega) ho
      (by simp [TRead.until]; omega) h body rest hl (by rw [hh, hm]; rfl)
    exact ⟨q, c'', g1, g2, g3, g4⟩
  | succ n ih =>
    have hmul : (n + 1) * c.timeout = n * c.timeout + c.timeout := by rw [Nat.succ_mul]
    have hnone : arrivedBefore (now + c.timeout) c.arr = [] := by
      have : c.arr.filter (fun x => decide (x.1 < now + c.timeout)) = [] := by
        rw [List.filter_eq_nil_iff]
        intro x hx
        have := hidle x hx
        rw [hmul] at this
        have : n * c.timeout + c.timeout + now ≤ x.1 := by omega
        simp only [decide_eq_true_eq, Nat.not_lt]; omega
      simp [arrivedBefore, this]
    have hall : arrivingFrom (now + c.timeout) c.arr = c.arr := by
      simp only [arrivingFrom]
      rw [List.filter_eq_self]
      intro x hx
      have := hidle x hx
      rw [hmul] at this
      simp only [decide_eq_true_eq]; omega
    obtain ⟨c1, g1, g2, g3, g4, _⟩ := receive_times_out c now (now + c.timeout) (by omega) ho
      (by simp [TRead.until]; omega) h body [] (h.bytes ++ body) hl rfl
      (by intro hc; have := congrArg List.length hc; simp [h.bytes_length] at this)
      (by rw [hh, hnone]; rfl)
    rw [hall] at g3
    obtain ⟨c', i1, i2⟩ := ih c1 (now + c.timeout) (by omega) (by rw [g3]; exact ho) g2
      (by rw [g3, g4]; intro x hx; have := hidle x hx; rw [hmul] at this; omega)
      (by rw [g3, g4, ← hm, hmul]; congr 1; omega)
    refine ⟨c', ?_, ?_⟩
    · rw [g4] at i1
      simp [idleReceives, g1, i1, List.replicate_succ]
    · have e : now + (n + 1) * c.timeout = now + c.timeout + n * c1.timeout := by
        rw [hmul, g4]; omega
      rw [e]; exact i2

example : ∃ c', idleReceives 5 2 100 (TRead.new 5 [] [(112, [4, 2, 0, 8, 0, 0, 0, 1])]) =
      some (List.replicate 2 (none, some .timeout), c') ∧
      ∃ q c'', c'.receive (100 + 2 * 5) = some (some q, none, c'') ∧ q.header = ⟨4, 2, 8, 1⟩ ∧
        q.body = .buffer [] ∧ TRead.held c'' = [] :=
  receive_again_partial (TRead.new 5 [] [(112, [4, 2, 0, 8, 0, 0, 0, 1])]) 100 2 (by decide)
    (by simp [InOrder, TRead.new]) rfl (by simp [TRead.new]) ⟨4, 2, 8, 1⟩ [] [] rfl (by decide)

/-- C60 is false.  If the timeout comes after the header of a message has arrived, a repeated
`Receive` takes the payload of that message for a message: for every payload that looks like
one, the message in it is returned to the caller. -/
theorem receive_again_false (timeout now : Nat) (ht : 0 < timeout) (h inner : Header)
    (body rest : Bytes) (hl : h.length.toNat = 8 + (8 + body.length))
    (hi : inner.length.toNat = 8 + body.length) (sched : List Nat) :
    ∃ c', (TRead.new timeout sched [(now, h.bytes), (now + timeout, inner.bytes ++ body ++ rest)]).receive
        now = some (none, some .timeout, c') ∧
      ∃ q c'', c'.receive (now + timeout) = some (some q, none, c'') ∧ q.header = inner ∧
        q.body = .buffer body ∧ TRead.held c'' = rest := by
  obtain ⟨c', g1, g2, g3, g4, _⟩ := receive_times_out
    (TRead.new timeout sched [(now, h.bytes), (now + timeout, inner.bytes ++ body ++ rest)]) now
    (now + timeout) (by omega) (by simp [InOrder, TRead.new])
    (if_neg (show ¬ timeout = 0 by omega)) h (inner.bytes ++ body) h.bytes (inner.bytes ++ body)
    (by simp [inner.bytes_length, hl]) rfl
    (by intro hc; have := congrArg List.length hc; simp [inner.bytes_length] at this)
    (by simp [TRead.held, TRead.new, arrivedBefore, ht])
  have g3' : c'.arr = [(now + timeout, inner.bytes ++ body ++ rest)] := by
    rw [g3]; show arrivingFrom _ [(now, h.bytes), (now + timeout, inner.bytes ++ body ++ rest)] = _
    simp [arrivingFrom, ht]
  have g4' : c'.timeout = timeout := g4
  obtain ⟨q, c'', k1, k2, k3, k4, _⟩ := receive_in_time c' (now + timeout) (now + timeout + timeout)
    (by omega) (by rw [g3']; simp [InOrder]) (by simp only [TRead.until, g4']; rw [if_neg (by omega)]) inner body rest hi
    (by rw [g2, g3']; simp [arrivedBefore, ht])
  exact ⟨c', g1, q, c'', k1, k2, k3, k4⟩

/-- Non-vacuity: an echo request with a payload of 16 bytes, which are a message of type 14. -/
example : ∃ c', (TRead.new 5 [] [(0, Header.bytes ⟨4, 2, 24, 1⟩),
      (0 + 5, Header.bytes ⟨4, 14, 16, 2⟩ ++ [1, 2, 3, 4, 5, 6, 7, 8] ++ [])]).receive 0 =
        some (none, some .timeout, c') ∧
      ∃ q c'', c'.receive (0 + 5) = some (some q, none, c'') ∧ q.header = ⟨4, 14, 16, 2⟩ ∧
        q.body = .buffer [1, 2, 3, 4, 5, 6, 7, 8] ∧ TRead.held c'' = [] :=
  receive_again_false 5 0 (by decide) ⟨4, 2, 24, 1⟩ ⟨4, 14, 16, 2⟩ [1, 2, 3, 4, 5, 6, 7, 8] [] rfl rfl []

/-! ## C59: sending -/

/-- One operation on a connection with deadlines. -/
def timedOp (c : TConn) (now : Nat) (peer : Peer) : ConnOp → Option (Option Err × TConn × Nat)
  | .send q => c.send now peer q
  | .respond rv h w => c.respond now peer rv h w
  | .flush => c.flush now peer

/-- Operations at given times, the peer takes everything. -/
def runTimed : TConn → List (Nat × ConnOp) → Option (List (Option Err) × TConn)
  | c, [] => some ([], c)
  | c, (t, op) :: ops =>
    match timedOp c t .ready op with
    | none => none
    | some (e, c', _) =>
      match runTimed c' ops with
      | none => none
      | some (es, c'') => some (e :: es, c'')

/-- The time of the last `Send`. -/
def lastSend (t : Nat) (last : Option Nat) : ConnOp → Option Nat
  | .send _ => some t
  | _ => last

/-- Every operation comes less than the timeout `d` after the last `Send` before it; no timeout is
in force if `d` is 0. -/
def Brisk (d : Nat) : Option Nat → List (Nat × ConnOp) → Prop
  | _, [] => True
  | last, (t, op) :: ops => (d ≠ 0 → ∀ l, last = some l → t < l + d) ∧ Brisk d (lastSend t last op) ops

/-- The deadline after an operation that returns at the time `fin`. -/
def nextDeadline (c : TConn) (fin : Nat) : ConnOp → Option Nat
  | .send _ => if c.timeout = 0 then c.deadline else some (fin + c.timeout)
  | _ => c.deadline

private theorem over_nil {b : BW} (h : b.tr.plan = []) : b.over [] = b := by
  cases b with | mk buf err tr => cases tr; simp only [BW.over] at *; rw [h]

private theorem io_same {c : TConn} {now : Nat} {peer : Peer} {f : BW → Option Err × BW}
    {e : Option Err} {c' : TConn} {fin : Nat} (h : c.io now peer f = some (e, c', fin)) :
    c'.deadline = c.deadline ∧ c'.timeout = c.timeout := by
  unfold TConn.io at h
  split at h
  · simp only [Option.some.injEq, Prod.mk.injEq] at h; rw [← h.2.1]; exact ⟨rfl, rfl⟩
  · simp only at h
    split at h
    · simp at h
    · simp only [Option.some.injEq, Prod.mk.injEq] at h; rw [← h.2.1]; exact ⟨rfl, rfl⟩
  · simp only [Option.some.injEq, Prod.mk.injEq] at h; rw [← h.2.1]; exact ⟨rfl, rfl⟩
  · simp only [Option.some.injEq, Prod.mk.injEq] at h; rw [← h.2.1]; exact ⟨rfl, rfl⟩

private theorem op_io (c : TConn) (now : Nat) (peer : Peer) (op : ConnOp) :
    timedOp c now peer op =
      match c.io now peer (fun b => op.run b) with
      | none => none
      | some (e, c', fin) => some (e, ⟨c'.bw, nextDeadline c fin op, c.timeout⟩, fin) := by
  cases hio : c.io now peer (fun b => op.run b) with
  | none =>
    cases op with
    | send q => simp only [timedOp, TConn.send]; simp only [ConnOp.run] at hio; rw [hio]
    | respond rv h w => exact hio
    | flush => exact hio
  | some x =>
    obtain ⟨e, c', fin⟩ := x
    obtain ⟨h1, h2⟩ := io_same hio
    cases op with
    | send q =>
      simp only [timedOp, TConn.send, nextDeadline]
      simp only [ConnOp.run] at hio
      rw [hio]
      cases c' with | mk b d t =>
      simp only at h1 h2
      subst h1 h2
      by_cases h0 : c.timeout = 0
      · simp only [if_pos h0]
      · simp only [if_neg h0]
    | respond rv h w =>
      refine Eq.trans (show timedOp c now peer (.respond rv h w) = _ from hio) ?_
      cases c'; simp only at h1 h2; subst h1 h2; rfl
    | flush =>
      refine Eq.trans (show timedOp c now peer .flush = _ from hio) ?_
      cases c'; simp only at h1 h2; subst h1 h2; rfl

/-- Nothing fails while no deadline has passed. -/
theorem op_ready (c : TConn) (now : Nat) (op : ConnOp)
    (hp : c.bw.tr.plan = []) (hd : ∀ d, c.deadline = some d → now < d) :
    timedOp c now .ready op =
      some ((op.run c.bw).1, ⟨(op.run c.bw).2, nextDeadline c now op, c.timeout⟩, now) := by
  have hio : ∀ f : BW → Option Err × BW, c.io now .ready f =
      some ((f c.bw).1, { c with bw := (f c.bw).2 }, now) := by
    intro f
    unfold TConn.io
    cases hdl : c.deadline with
    | none => simp [over_nil hp]
    | some d =>
      have := hd d hdl
      simp [Nat.not_le.mpr this, over_nil hp]
  rw [op_io, hio]

/-- C59, the part that holds.  While no operation comes later than `WriteTimeout` after the last
`Send`, and with a peer that takes everything, the timeout makes no difference: all operations
return what they return without one, and the same bytes are transmitted.  Missing: operations
after a pause, see `write_idle_false`; a peer that does not read, see `write_blocked_false`. -/
theorem write_brisk_partial (d : Nat) (ops : List (Nat × ConnOp)) (h : Brisk d none ops) :
    ∃ c, runTimed (TConn.new d) ops = some ((runOps (.new []) (ops.map (·.2))).1, c) ∧
      c.bw = (runOps (.new []) (ops.map (·.2))).2 := by
  suffices hs : ∀ (c : TConn) (last : Option Nat), c.timeout = d → c.bw.err = none →
      c.bw.tr.plan = [] →
      (c.deadline = none ∨ ∃ l, last = some l ∧ c.deadline = some (l + d) ∧ d ≠ 0) →
      Brisk d last ops →
      ∃ c', runTimed c ops = some ((runOps c.bw (ops.map (·.2))).1, c') ∧
        c'.bw = (runOps c.bw (ops.map (·.2))).2 from hs (TConn.new d) none rfl rfl rfl (.inl rfl) h
  clear h
  induction ops with
  | nil => intro c last _ _ _ _ _; exact ⟨c, rfl, rfl⟩
  | cons x ops ih =>
    obtain ⟨t, op⟩ := x
    intro c last ht he hp hl hb
    obtain ⟨hb1, hb2⟩ := hb
    have hop := op_ready c t op hp (by
      intro d' hd'
      rcases hl with hl | ⟨l, hl, hl', h0⟩
      · rw [hl] at hd'; simp at hd'
      · rw [hl'] at hd'; simp only [Option.some.injEq] at hd'; have := hb1 h0 l hl; omega)
    have hq := (op_took op c.bw).2.2.2 he hp
    obtain ⟨c', i1, i2⟩ := ih ⟨(op.run c.bw).2, nextDeadline c t op, c.timeout⟩ _ ht hq.1 hq.2 (by
      cases op with
      | send q =>
        simp only [nextDeadline, lastSend]
        by_cases h0 : c.timeout = 0
        · rw [if_pos h0]
          rcases hl with hl | ⟨l, hl, hl', h0'⟩
          · exact .inl hl
          · omega
        · rw [if_neg h0, ht]; exact .inr ⟨t, rfl, rfl, by omega⟩
      | respond rv h w => exact hl
      | flush => exact hl) hb2
    refine ⟨c', ?_, ?_⟩
    · simp [runTimed, hop, i1, runOps]
    · simp only [List.map_cons, runOps]; exact i2

/-- Non-vacuity: two messages and a flush within the timeout. -/
example : Brisk 10 none [(0, .send Request.zero), (9, .send Request.zero), (18, .flush)] := by
  simp [Brisk, lastSend]

/-- C59: what the part above gives to the user: no spurious error. -/
theorem write_brisk_ok_partial (d : Nat) (ops : List (Nat × ConnOp)) (h : Brisk d none ops)
    (hs : ∀ x ∈ ops, x.2.Serialises) :
    ∃ es c, runTimed (TConn.new d) ops = some (es, c) ∧ (∀ e ∈ es, e = none) ∧
      c.bw.tr.out ++ c.bw.buf = ops.flatMap (fun x => x.2.message) := by
  obtain ⟨c, h1, h2⟩ := write_brisk_partial d ops h
  have hs' : ∀ op ∈ ops.map (·.2), op.Serialises := by
    intro op ho
    obtain ⟨x, hx, rfl⟩ := List.mem_map.mp ho
    exact hs x hx
  have h3 := conn_no_spurious_error (ops.map (·.2)) hs'
  refine ⟨_, c, h1, h3, ?_⟩
  rw [h2, (conn_buffered [] (ops.map (·.2)) hs' h3).1]
  simp [List.flatMap_map]

/-- The writer over a transport whose next write takes `k` bytes and fails: untouched, or failed. -/
private structure Stalls (b : BW) (k : Nat) (e : Err) (b' : BW) : Prop where
  cases : (b'.err = none ∧ b'.tr = b.tr) ∨ (b'.err = some e ∧ b'.tr.plan = [])
  out : k = 0 → b'.tr.out = b.tr.out

private theorem flush_stalls (b : BW) (k : Nat) (e : Err) (he : b.err = none)
    (hp : b.tr.plan = [some (k, e)]) : Stalls b k e b.flush.2 := by
  unfold BW.flush
  rw [he]
  simp only
  split
  · exact ⟨.inl ⟨he, rfl⟩, fun _ => rfl⟩
  · have : b.tr.write b.buf = (min k b.buf.length, some e, ⟨b.tr.out ++ b.buf.take k, []⟩) := by
      simp [Transport.write, hp]
    rw [this]
    simp only [reduceCtorEq, and_false, if_false]
    exact ⟨.inr ⟨rfl, rfl⟩, fun h => by simp [h]⟩

private theorem loop_stuck (fuel : Nat) (p : Bytes) (b : BW) {e : Err} (he : b.err = some e) :
    BW.loop fuel p b = (0, p, b) := by
  cases fuel <;> simp [BW.loop, he]

private theorem loop_stalls (fuel : Nat) (p : Bytes) (b : BW) (k : Nat) (e : Err) (he : b.err = none)
    (hp : b.tr.plan = [some (k, e)]) : Stalls b k e (BW.loop fuel p b).2.2 := by
  cases fuel with
  | zero => exact ⟨.inl ⟨he, rfl⟩, fun _ => rfl⟩
  | succ fuel =>
    unfold BW.loop
    by_cases hc : b.avail < p.length ∧ b.err = none
    · rw [if_pos hc]
      by_cases hb : b.buf = []
      · simp only [hb, if_true]
        have : b.tr.write p = (min k p.length, some e, ⟨b.tr.out ++ p.take k, []⟩) := by
          simp [Transport.write, hp]
        rw [this]
        simp only
        rw [loop_stuck (e := e) fuel _ _ rfl]
        exact ⟨.inr ⟨rfl, rfl⟩, fun h => by simp [h]⟩
      · simp only [hb, if_false]
        have hf : ({ b with buf := b.buf ++ p.take b.avail } : BW).flush.2.err = some e := by
          unfold BW.flush
          simp only [he]
          rw [if_neg (by simp [hb])]
          simp [Transport.write, hp]
        have hst := flush_stalls { b with buf := b.buf ++ p.take b.avail } k e he hp
        rw [loop_stuck fuel _ _ hf]
        exact ⟨hst.cases, hst.out⟩
    · rw [if_neg hc]; exact ⟨.inl ⟨he, rfl⟩, fun _ => rfl⟩

private theorem write_stalls (b : BW) (p : Bytes) (k : Nat) (e : Err) (he : b.err = none)
    (hp : b.tr.plan = [some (k, e)]) : Stalls b k e (b.write p).2.2 := by
  have := loop_stalls 3 p b k e he hp
  unfold BW.write
  revert this
  rcases BW.loop 3 p b with ⟨n, p', b'⟩
  intro this
  simp only at this ⊢
  cases hb : b'.err with
  | some e' => exact this
  | none =>
    refine ⟨.inl ?_, this.out⟩
    rcases this.cases with ⟨_, h⟩ | ⟨h, _⟩
    · exact ⟨rfl, h⟩
    · rw [hb] at h; simp at h

private theorem force_stalls (b : BW) (p : Bytes) (k : Nat) (e : Err) (he : b.err = none)
    (hp : b.tr.plan = [some (k, e)]) : Stalls b k e (Conn.forceWrite b p).2 := by
  have h1 := write_stalls b p k e he hp
  have h2 := (b.write_took p).2.1
  unfold Conn.forceWrite
  revert h1 h2
  rcases b.write p with ⟨n, e', b'⟩
  intro h1 h2
  simp only at h1 h2
  cases e' with
  | some e' => exact h1
  | none =>
    rcases h1.cases with ⟨h3, h4⟩ | ⟨h3, _⟩
    · have := flush_stalls b' k e h3 (by rw [h4, hp])
      refine ⟨?_, fun h => by rw [this.out h, h4]⟩
      rcases this.cases with ⟨g1, g2⟩ | g
      · exact .inl ⟨g1, by rw [g2, h4]⟩
      · exact .inr g
    · rw [h3] at h2; simp at h2

private theorem op_stalls (op : ConnOp) (b : BW) (k : Nat) (e : Err) (he : b.err = none)
    (hp : b.tr.plan = [some (k, e)]) : Stalls b k e (op.run b).2 := by
  rcases op_kind op with ⟨e', h⟩ | ⟨msg, h⟩ | ⟨msg, h⟩ | rfl
  · rw [h]; exact ⟨.inl ⟨he, rfl⟩, fun _ => rfl⟩
  · rw [h]; exact write_stalls b msg k e he hp
  · rw [h]; exact force_stalls b msg k e he hp
  · exact flush_stalls b k e he hp

/-- A response, or a flush of a buffer that is not empty, reaches the transport. -/
def Reaches (b : BW) : ConnOp → Prop
  | .send q => 4096 < b.buf.length + (ConnOp.send q).message.length
  | .respond rv h w => (ConnOp.respond rv h w).message ≠ []
  | .flush => b.buf ≠ []

private theorem reaches_fails (op : ConnOp) (b : BW) (k : Nat) (e : Err) (he : b.err = none)
    (hp : b.tr.plan = [some (k, e)]) (hr : Reaches b op) (hs : op.Serialises)
    (hcap : b.buf.length ≤ 4096) :
    (op.run b).1 = some e ∧ (op.run b).2.err = some e ∧ (op.run b).2.tr.plan = [] ∧
      (k = 0 → (op.run b).2.tr.out = b.tr.out) := by
  have h1 := op_stalls op b k e he hp
  obtain ⟨h2, h3, _⟩ := op_took op b
  have h3 := h3 hs
  rcases h1.cases with ⟨g1, g2⟩ | ⟨g1, g2⟩
  · exfalso
    have hok := (h2.ok g1).2
    rw [g2, List.append_assoc] at hok
    have hbuf := List.append_cancel_left hok
    have hcap' := h2.cap hcap
    have hflush : ∀ rv h w, op = .respond rv h w ∨ op = .flush → (op.run b).2.buf = [] := by
      intro rv h w hop
      rcases hop with rfl | rfl
      · rcases respond_kind rv h w with ⟨e', h'⟩ | ⟨msg, h'⟩
        · rw [h'] at h3 g1; simp only at h3 g1; rw [g1] at h3; simp at h3
        · rw [h'] at h3 g1 ⊢
          exact (Conn.forceWrite_took b msg).2.2 (by rw [h3, g1])
      · exact (b.flush_took).2.2 (by
          have : (ConnOp.flush.run b).1 = none := by rw [h3, g1]
          exact this)
    cases op with
    | send q =>
      have := congrArg List.length hbuf
      simp only [Reaches, List.length_append, bufSize] at hr this hcap'
      omega
    | respond rv h w =>
      have hb := hflush rv h w (.inl rfl)
      rw [hb] at hbuf
      exact hr (by simpa using (congrArg (List.drop b.buf.length) hbuf).symm)
    | flush =>
      have hb := hflush 0 default none (.inr rfl)
      rw [hb] at hbuf
      simp only [Reaches] at hr
      have := (List.append_eq_nil_iff.mp hbuf.symm).1
      exact hr this
  · exact ⟨by rw [h3, g1], g1, g2, h1.out⟩

/-- A response always has a header. -/
theorem respond_nonempty (rv : UInt8) (h : Header) (w : Option Wr)
    (hs : (ConnOp.respond rv h w).Serialises) : (ConnOp.respond rv h w).message ≠ [] := by
  have hb := fun (h : Header) => h.bytes_length
  have hno : ∀ (h : Header) (b : Bytes), h.bytes ++ b ≠ [] := fun h b hc => by
    have := congrArg List.length hc; simp [hb] at this
  have hf : ∀ p : Bytes, p ≠ [] → (Conn.forceWrite (BW.new []) p).2.tr.out ++
      (Conn.forceWrite (BW.new []) p).2.buf ≠ [] := by
    intro p hp hc
    have h1 := (force_plan_nil (BW.new []) p rfl rfl).1
    have h2 := ((Conn.forceWrite_took (BW.new []) p).1.ok h1).2
    rw [hc] at h2
    simp [BW.new] at h2
    exact hp h2
  cases w with
  | none =>
    simp only [ConnOp.message, ConnOp.run, Response.write, Header.writeTo_eq]
    exact hf _ (hno _ _)
  | some w =>
    simp only [ConnOp.Serialises, ConnOp.run, Response.write, Header.writeTo_eq] at hs
    simp only [ConnOp.message, ConnOp.run, Response.write, Header.writeTo_eq]
    cases he : w.err with
    | some e => simp [he] at hs
    | none => simp only; exact hf _ (hno _ _)

/-- After a write error nothing is written any more. -/
private theorem stuck_run (later : List (Nat × ConnOp)) (c : TConn) (e : Err) (he : c.bw.err = some e)
    (es : List (Option Err)) (c' : TConn) (h : runTimed c later = some (es, c')) :
    (∀ x ∈ es, x ≠ none) ∧ c'.bw.tr.out = c.bw.tr.out := by
  induction later generalizing c es with
  | nil => simp only [runTimed, Option.some.injEq, Prod.mk.injEq] at h; rw [← h.1, ← h.2]; simp
  | cons x later ih =>
    obtain ⟨t, op⟩ := x
    have hio : ∃ plan fin, c.io t .ready (fun b => op.run b) =
        some ((op.run (c.bw.over plan)).1, { c with bw := (op.run (c.bw.over plan)).2 }, fin) := by
      unfold TConn.io
      cases hd : c.deadline with
      | none => exact ⟨[], t, by simp⟩
      | some d => exact ⟨_, t, rfl⟩
    obtain ⟨plan, fin, hio⟩ := hio
    simp only [runTimed, op_io, hio] at h
    obtain ⟨h1, h2, h3, _⟩ := op_took op (c.bw.over plan)
    have hst := h1.stuck e he
    split at h
    · simp at h
    · rename_i es1 c1 heq
      simp only [Option.some.injEq, Prod.mk.injEq] at h
      obtain ⟨rfl, rfl⟩ := h
      obtain ⟨i1, i2⟩ := ih _ hst.1 _ heq
      refine ⟨?_, by rw [i2]; exact hst.2⟩
      intro x hx
      rcases List.mem_cons.mp hx with rfl | hx
      · by_cases hs : op.Serialises
        · rw [h2 hs, hst.1]; simp
        · exact (h3 hs).1
      · exact i1 x hx

/-- C59 is false for a `Send` after a pause.  `Send` sets the deadline after it has written, and
the deadline stays: a response written `WriteTimeout` or more after the last `Send` fails
although the peer is ready; so does every operation after it, and nothing is transmitted any
more. -/
theorem write_idle_false (d t t' : Nat) (hd : 0 < d) (ht : t + d ≤ t') (q : Request) (rv : UInt8)
    (h : Header) (w : Option Wr) (hq : (ConnOp.send q).Serialises)
    (hs : (ConnOp.respond rv h w).Serialises) :
    ∃ c, runTimed (TConn.new d) [(t, .send q), (t, .flush), (t', .respond rv h w)] =
        some ([none, none, some .timeout], c) ∧
      c.bw.tr.out = (ConnOp.send q).message ∧
      ∀ later es c', runTimed c later = some (es, c') →
        (∀ e ∈ es, e ≠ none) ∧ c'.bw.tr.out = (ConnOp.send q).message := by
  have e1 := op_ready (TConn.new d) t (.send q) rfl (by simp [TConn.new])
  have hn : nextDeadline (TConn.new d) t (.send q) = some (t + d) := if_neg (show ¬ d = 0 by omega)
  rw [hn] at e1
  have t1 := (op_took (.send q) (BW.new [])).2.2.2 rfl rfl
  have e2 := op_ready ⟨((ConnOp.send q).run (.new [])).2, some (t + d), d⟩ t .flush t1.2 (by simp; omega)
  have t2 := (op_took .flush ((ConnOp.send q).run (.new [])).2).2.2.2 t1.1 t1.2
  have hfl : (ConnOp.flush.run ((ConnOp.send q).run (.new [])).2).1 = none := by
    rw [(op_took .flush _).2.1 (by simp [ConnOp.Serialises, ConnOp.run, Conn.flush, BW.flush, BW.new]),
      t2.1]
  have hout := conn_flushed [] [.send q] hfl
  simp only [runOps, List.flatMap_cons, List.flatMap_nil, List.append_nil] at hout
  have hbuf : (ConnOp.flush.run ((ConnOp.send q).run (.new [])).2).2.buf = [] :=
    (BW.flush_took ((ConnOp.send q).run (.new [])).2).2.2 hfl
  generalize hB : (ConnOp.flush.run ((ConnOp.send q).run (.new [])).2).2 = B at *
  have t3 := reaches_fails (.respond rv h w) (B.over [some (0, .timeout)]) 0 .timeout t2.1 rfl
    (respond_nonempty rv h w hs) hs (by show B.buf.length ≤ 4096; simp [hbuf])
  obtain ⟨r1, r2, _, r4⟩ := t3
  have e3 : timedOp ⟨B, some (t + d), d⟩ t' .ready (.respond rv h w) = some (some .timeout,
      ⟨((ConnOp.respond rv h w).run (B.over [some (0, .timeout)])).2, some (t + d), d⟩, t') := by
    rw [op_io]
    simp only [TConn.io, ht, if_true, r1, nextDeadline]
  refine ⟨⟨((ConnOp.respond rv h w).run (B.over [some (0, .timeout)])).2, some (t + d), d⟩, ?_, ?_, ?_⟩
  · have e1' : timedOp (TConn.new d) t .ready (.send q) =
        some (none, ⟨((ConnOp.send q).run (.new [])).2, some (t + d), d⟩, t) := by
      rw [e1]; simp only [TConn.new, Option.some.injEq, Prod.mk.injEq, and_true]; exact hq
    have e2' : timedOp ⟨((ConnOp.send q).run (.new [])).2, some (t + d), d⟩ t .ready .flush =
        some (none, ⟨B, some (t + d), d⟩, t) := by
      rw [e2]; simp only [hfl, nextDeadline]
    simp only [runTimed, e1', e2', e3]
  · exact (r4 rfl).trans hout
  · intro later es c' hr
    obtain ⟨g1, g2⟩ := stuck_run later _ _ r2 es c' hr
    exact ⟨g1, by rw [g2]; exact (r4 rfl).trans hout⟩

/-- Non-vacuity: a flow modification is sent at the time 0; an echo request is answered ten
seconds later, the timeout is five seconds. -/
example : ∃ c, runTimed (TConn.new 5) [(0, .send (newRequest 14 none)), (0, .flush),
      (10, .respond 4 ⟨4, 3, 0, 1⟩ none)] = some ([none, none, some .timeout], c) ∧
      c.bw.tr.out = (ConnOp.send (newRequest 14 none)).message ∧
      ∀ later es c', runTimed c later = some (es, c') →
        (∀ e ∈ es, e ≠ none) ∧ c'.bw.tr.out = (ConnOp.send (newRequest 14 none)).message :=
  write_idle_false 5 0 10 (by decide) (by decide) _ _ _ _ (by unfold ConnOp.Serialises; decide +kernel)
    (by unfold ConnOp.Serialises; decide +kernel)

/-- C59 is false for a peer that does not read.  The first message is written without a deadline:
with any `WriteTimeout`, a response or a flush to a peer that has stopped reading never returns,
and responses never set a deadline. -/
theorem write_blocked_false (c : TConn) (hc : c.deadline = none) (he : c.bw.err = none)
    (hcap : c.bw.buf.length ≤ 4096) (op : ConnOp) (hs : op.Serialises) (hr : Reaches c.bw op)
    (now k : Nat) : timedOp c now (.stalled k) op = none := by
  have t := reaches_fails op (c.bw.over [some (k, .timeout)]) k .timeout he rfl
    (by cases op <;> exact hr) hs hcap
  rw [op_io]
  simp only [TConn.io, hc, t.2.2.1, if_true]

/-- Non-vacuity: the first answer of a server with a timeout of five seconds. -/
example : timedOp (TConn.new 5) 0 (.stalled 3) (.respond 4 ⟨4, 3, 0, 1⟩ none) = none :=
  write_blocked_false (TConn.new 5) rfl rfl (by decide) (.respond 4 ⟨4, 3, 0, 1⟩ none) (by unfold ConnOp.Serialises; decide +kernel)
    (respond_nonempty 4 ⟨4, 3, 0, 1⟩ none (by unfold ConnOp.Serialises; decide +kernel)) 0 3

/-- C59: a server that only answers never has a deadline, whatever its `WriteTimeout`. -/
theorem responses_no_deadline (ops : List (Nat × ConnOp)) (d : Nat)
    (h : ∀ x ∈ ops, ∀ q, x.2 ≠ .send q) (es : List (Option Err)) (c : TConn)
    (hr : runTimed (TConn.new d) ops = some (es, c)) : c.deadline = none ∧ c.timeout = d := by
  suffices hs : ∀ c0 : TConn, c0.deadline = none → ∀ es c, runTimed c0 ops = some (es, c) →
      c.deadline = none ∧ c.timeout = c0.timeout from hs (TConn.new d) rfl es c hr
  clear hr
  induction ops with
  | nil =>
    intro c0 h0 es c hr
    simp only [runTimed, Option.some.injEq, Prod.mk.injEq] at hr
    rw [← hr.2]; exact ⟨h0, rfl⟩
  | cons x ops ih =>
    obtain ⟨t, op⟩ := x
    intro c0 h0 es c hr
    simp only [runTimed, op_io] at hr
    cases hio : c0.io t .ready (fun b => op.run b) with
    | none => simp [hio] at hr
    | some y =>
      obtain ⟨e, c1, fin⟩ := y
      simp only [hio] at hr
      split at hr
      · simp at hr
      · rename_i es1 c2 heq
        simp only [Option.some.injEq, Prod.mk.injEq] at hr
        have := ih (fun x hx => h x (by simp [hx])) _ (by
          cases op with
          | send q => exact absurd rfl (h (t, .send q) (by simp) q)
          | respond rv h w => exact h0
          | flush => exact h0) es1 c2 heq
        rw [← hr.2]; exact this

/-- C59, the part that holds for a peer that does not read: after a `Send` that returned at the
time `t`, every operation returns by `t + WriteTimeout`, or at once if that is over; if it had to
write to the transport, it returns the timeout error.  Missing: the first `Send`, and servers
that only answer. -/
theorem write_stalled_partial (c : TConn) (d t : Nat) (hc : c.deadline = some (t + d))
    (he : c.bw.err = none) (hcap : c.bw.buf.length ≤ 4096) (op : ConnOp) (hs : op.Serialises)
    (now k : Nat) :
    ∃ e c' fin, timedOp c now (.stalled k) op = some (e, c', fin) ∧ fin ≤ max now (t + d) ∧
      (Reaches c.bw op → e = some .timeout) ∧ (e = none → fin = now) := by
  have hst := fun j => op_stalls op (c.bw.over [some (j, .timeout)]) j .timeout he rfl
  have hrt := fun j (hr : Reaches c.bw op) => reaches_fails op (c.bw.over [some (j, .timeout)]) j .timeout
    he rfl (by cases op <;> exact hr) hs hcap
  have hto := fun j => (op_took op (c.bw.over [some (j, .timeout)])).2.1 hs
  have hio : c.io now (.stalled k) (fun b => op.run b) =
      some ((op.run (c.bw.over [some (if t + d ≤ now then 0 else k, .timeout)])).1,
        { c with bw := (op.run (c.bw.over [some (if t + d ≤ now then 0 else k, .timeout)])).2 },
        if (op.run (c.bw.over [some (if t + d ≤ now then 0 else k, .timeout)])).2.tr.plan = [] then
          max now (t + d) else now) := by
    simp only [TConn.io, hc]
  rw [op_io, hio]
  generalize (if t + d ≤ now then 0 else k) = j
  refine ⟨_, _, _, rfl, ?_, fun hr => (hrt j hr).1, fun hn => ?_⟩
  · split <;> omega
  · rw [if_neg]
    intro hp
    rcases (hst j).cases with ⟨_, g⟩ | ⟨g, _⟩
    · rw [g] at hp; simp [BW.over] at hp
    · rw [hto, g] at hn; simp at hn

/-- Non-vacuity: after a `Send` at the time 0. -/
example : ∃ e c' fin, timedOp ⟨.new [], some (0 + 5), 5⟩ 3 (.stalled 3) (.respond 4 ⟨4, 3, 0, 1⟩ none) =
    some (e, c', fin) ∧ fin ≤ max 3 (0 + 5) ∧
    (Reaches (.new []) (.respond 4 ⟨4, 3, 0, 1⟩ none) → e = some .timeout) ∧ (e = none → fin = 3) :=
  write_stalled_partial ⟨.new [], some (0 + 5), 5⟩ 5 0 rfl rfl (by decide) _
    (by unfold ConnOp.Serialises; decide +kernel) 3 3

end Verif.Props
