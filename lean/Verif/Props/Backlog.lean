import Verif.Props.Served

/-!
# C106: what a server holds for a peer whose requests are not handled yet
-/

namespace Verif.Props

open Verif

variable {ω : Type}

/-! ## What `Receive` takes -/

/-- The bytes below the `bufio.Reader` of the connection: what is still on the transport. -/
def onTransport : Rd → Bytes
  | .buf _ _ r => r.content
  | r => r.content

/-- A `bufio.Reader` with no more than its size. -/
private def Capped (r : Rd) : Prop := ∃ b e q, r = .buf b e q ∧ b.length ≤ 4096

private theorem read_le (k : Nat) (r : Rd) : (r.read k).1.length ≤ k := by
  induction r generalizing k with
  | src d s f t =>
    simp only [Rd.read]
    split
    · simp
    · split
      · simp
      · simp only [List.length_take]; omega
  | lim n r ih =>
    simp only [Rd.read]
    split
    · simp
    · exact Nat.le_trans (ih _) (Nat.min_le_left _ _)
  | buf b e r ih =>
    simp only [Rd.read]
    split
    · split <;> simp
    · split
      · simp only [List.length_take]; omega
      · cases e with
        | some e => simp
        | none =>
          simp only
          split
          · exact ih k
          · split
            · simp
            · simp only [List.length_take]; omega

private theorem Capped.read {r : Rd} (h : Capped r) (k : Nat) : Capped (r.read k).2.2 := by
  obtain ⟨b, e, q, rfl, hb⟩ := h
  simp only [Rd.read]
  split
  · split
    · exact ⟨_, _, _, rfl, hb⟩
    · exact ⟨_, _, _, rfl, hb⟩
  · split
    · exact ⟨_, _, _, rfl, by simp only [List.length_drop]; omega⟩
    · cases e with
      | some e => exact ⟨_, _, _, rfl, by simp⟩
      | none =>
        simp only
        split
        · exact ⟨_, _, _, rfl, by simp⟩
        · have := read_le bufSize q
          split
          · exact ⟨_, _, _, rfl, by simp⟩
          · refine ⟨_, _, _, rfl, ?_⟩
            simp only [List.length_drop]
            simp only [bufSize] at this ⊢
            omega

private theorem Capped.readLoop (fuel : Nat) : ∀ {r : Rd}, Capped r → ∀ k, Capped (Verif.readLoop fuel k r).2.2 := by
  induction fuel with
  | zero => intro r h k; simpa [Verif.readLoop] using h
  | succ n ih =>
    intro r h k
    simp only [Verif.readLoop]
    have := h.read k
    split
    · exact h
    · rcases hx : r.read k with ⟨o, e, r'⟩
      rw [hx] at this
      cases e with
      | some e => exact this
      | none => exact ih this _

private theorem Capped.readFull {r : Rd} (h : Capped r) (k : Nat) : Capped (Verif.readFull k r).2.2 := by
  have := Capped.readLoop (k + 1) h k
  unfold Verif.readFull
  rcases hx : Verif.readLoop (k + 1) k r with ⟨o, e, r'⟩
  rw [hx] at this
  simp only
  split
  · exact this
  · split <;> exact this

private theorem Capped.bodyLoop (fuel : Nat) : ∀ {r : Rd}, Capped r → ∀ k, Capped (Verif.bodyLoop fuel k r).2.2 := by
  induction fuel with
  | zero => intro r h k; simpa [Verif.bodyLoop] using h
  | succ n ih =>
    intro r h k
    simp only [Verif.bodyLoop]
    have := h.read k
    split
    · exact h
    · rcases hx : r.read k with ⟨o, e, r'⟩
      rw [hx] at this
      cases e with
      | some e => exact this
      | none => exact ih this _

private theorem Capped.bin {σ : Type} {r : Rd} (h : Capped r) (k : Nat) (set : Bytes → σ → σ) (s : σ) :
    Capped (Enc.bin k set s r).rd := by
  have := h.readFull k
  unfold Enc.bin
  rcases hx : Verif.readFull k r with ⟨o, e, r'⟩
  rw [hx] at this
  cases e <;> exact this

private theorem Capped.fields {σ : Type} (l : List (Step σ)) (hl : ∀ st ∈ l, ∀ s r, Capped r → Capped (st s r).rd) :
    ∀ (s : σ) {r : Rd}, Capped r → Capped (Enc.readFrom l s r).rd := by
  induction l with
  | nil => intro s r h; exact h
  | cons st t ih =>
    intro s r h
    have h1 := hl st (by simp) s r h
    simp only [Enc.readFrom]
    rcases hx : st s r with ⟨s', n, e, r'⟩
    rw [hx] at h1
    cases e with
    | some e => exact h1
    | none => exact ih (fun st hst => hl st (by simp [hst])) s' h1

private theorem Capped.header {r : Rd} (h : Capped r) (s : Header) : Capped (Header.readFrom s r).rd := by
  refine Capped.fields _ ?_ s h
  intro st hst s r hr
  simp only [List.mem_cons, List.not_mem_nil, or_false] at hst
  rcases hst with rfl | rfl | rfl | rfl <;> exact hr.bin _ _ _

private theorem Capped.receive {r : Rd} (h : Capped r) : Capped (Conn.receive r).2.2 := by
  have h1 := h.header Request.zero.header
  unfold Conn.receive Request.readFrom
  rcases hx : Header.readFrom Request.zero.header r with ⟨hd, n, e, r'⟩
  rw [hx] at h1
  cases e with
  | some e => exact h1
  | none =>
    simp only
    by_cases hlen : hd.len < headerlen
    · simp only [hlen, if_true]; exact h1
    · simp only [hlen, if_false]
      have h2 := Capped.bodyLoop (hd.len - headerlen + 1) h1 (hd.len - headerlen)
      rcases hy : Verif.bodyLoop (hd.len - headerlen + 1) (hd.len - headerlen) r' with ⟨o, e, r''⟩
      rw [hy] at h2
      cases e <;> exact h2

private theorem len_le (h : Header) : h.len ≤ 65535 := by
  have := h.length.toNat_lt
  simp only [Header.len]; omega

/-- What one `Receive` takes off the stream: the message it returns, or at most as much as the
longest message if it fails. -/
private theorem receive_takes (F : Err) (r : Rd) (hr : r.Ok F) :
    (Conn.receive r).2.2.Ok F ∧
    (∀ q r', Conn.receive r = (some q, none, r') → r.content.length = r'.content.length + q.header.len) ∧
    (∀ o e r', Conn.receive r = (o, some e, r') → r.content.length ≤ r'.content.length + 65535) := by
  rcases Conn.receive_spec F r hr with ⟨h1, r', h2, h3⟩ | ⟨h1, h2, r', h3, h4, h5⟩ | ⟨h1, h2, h3, r', h4, h5, h6, _⟩ |
    ⟨h1, h2, r', h3, h4, h5⟩
  · rw [h2]
    refine ⟨h3, fun _ _ h => by simp at h, fun o e r'' h => ?_⟩
    omega
  · rw [h3]
    refine ⟨h5, fun _ _ h => by simp at h, fun o e r'' h => ?_⟩
    simp only [Prod.mk.injEq] at h
    have := h4.content
    rw [← h.2.2, this.2, List.length_drop]; omega
  · rw [h4]
    refine ⟨h5, fun _ _ h => by simp at h, fun o e r'' h => ?_⟩
    have := len_le (Header.ofBytes r.content)
    omega
  · rw [h3]
    refine ⟨h5, fun q r'' h => ?_, fun o e r'' h => by simp at h⟩
    simp only [Prod.mk.injEq, Option.some.injEq] at h
    have := h4.content
    rw [← h.2.2, ← h.1, this.2, List.length_drop]
    simp only
    omega

/-! ## Sequential runners -/

/-- C106.  With a sequential runner, whatever the peer sends and however long the handlers take:
of the requests that were received, all are handled except the last two, one that is with the
handler and one that is waiting for the serve loop. -/
theorem backlog_sequential (s : ConnSt) (h : ConnSt.Reach true s) :
    ∃ l, s.arrived = handledRequests s.trace ++ l ∧ l.length ≤ 2 ∧
      (s.rcv = .offerErr ∨ s.rcv = .ended ∨ s.rcv = .reading → l.length ≤ 1) := by
  obtain ⟨a, ha⟩ := handle_sequential s h
  obtain ⟨⟨b, hb⟩, hl⟩ := dispatch_order true s h
  have h1 := handle_sequential_all s h
  have e1 : s.dispatched.length = (handledRequests s.trace).length + a.length := by rw [← ha]; simp
  have e2 : s.arrived.length = s.dispatched.length + b.length := by rw [← hb]; simp
  refine ⟨a ++ b, by rw [← hb, ← ha, List.append_assoc], by rw [List.length_append]; omega, fun he => ?_⟩
  have := dispatch_reading true s h (by rcases he with he | he | he <;> simp [he])
  rw [this] at e2
  rw [List.length_append]
  omega

/-- The bound is reached: two requests have been received, the handler is busy with the first. -/
theorem backlog_sequential_tight (q q' : Request) :
    ∃ s, ConnSt.Reach true s ∧ s.arrived = [q, q'] ∧ handledRequests s.trace = [] ∧ s.tasks = [(q, .active)] := by
  have h1 := ConnSt.Reach.tail (seq := true) true true .init (.new _ rfl)
  have h2 := h1.tail true true (.admit _ rfl rfl)
  have h3 := h2.tail true true (.add _ rfl)
  have h4 := h3.tail true true (.start _ rfl)
  have h5 := h4.tail true true (.receive _ q rfl)
  have h6 := h5.tail true true (.deliver _ q rfl rfl)
  have h7 := h6.tail true true (.taskActive _ [] q [] rfl)
  have h8 := h7.tail true true (.receive _ q' rfl)
  exact ⟨_, h8, rfl, rfl, rfl⟩

/-- The receiver has ended, or is about to. -/
private def Errd (s : ConnSt) : Prop := s.rcv = .offerErr ∨ s.rcv = .ended

/-- The length of the messages. -/
def msgBytes (l : List Request) : Nat := (l.map fun q => q.header.len).sum

private structure Bytes' (F : Err) (n : Nat) (s : Live ω) : Prop where
  ok : s.rd.Ok F
  cap : Capped s.rd
  count : n ≤ s.rd.content.length + msgBytes s.srv.arrived + 65535
  exact : ¬ Errd s.srv → n = s.rd.content.length + msgBytes s.srv.arrived

private theorem errd_stays {seq room stopped : Bool} {s s' : ConnSt} {eff : Effect} (hr : ConnSt.Reach seq s)
    (st : ConnSt.Step seq room stopped s eff s') (h : Errd s) : Errd s' := by
  cases st with
  | start hp => have := receiver_off seq s hr hp; rcases h with h | h <;> simp [this] at h
  | receive q hq => rcases h with h | h <;> simp [hq] at h
  | receiveErr hq => exact .inl rfl
  | deliver q hp hq => rcases h with h | h <;> simp [hq] at h
  | fail hp hq => exact .inr rfl
  | _ => exact h

private theorem live_bytes {seq : Bool} {call : ω → Call ⊕ Option Err} {prog : Nat → Request → List ω} {F : Err} {q : Rd}
    (hq : q.Ok F) {s : Live ω} (h : Live.Steps seq call prog (.init (.buf [] none q)) s) :
    Bytes' F q.content.length s := by
  induction h with
  | refl =>
    exact ⟨by simpa [Live.init, Rd.Ok] using hq, ⟨[], none, q, rfl, by simp⟩, by simp [Live.init, Rd.content]; omega,
      fun _ => by simp [Live.init, Rd.content, ConnSt.fresh, msgBytes]⟩
  | @tail s s' hs st ih =>
    have hreach := Live.srv_reach hs
    obtain ⟨i1, i2, i3, i4⟩ := ih
    have ht := receive_takes F s.rd i1
    cases st with
    | receive x r' h hr =>
      have hc := i2.receive
      rw [hr] at ht hc
      have := i4 (by simp [Errd, h])
      have h2 := ht.2.1 x r' rfl
      exact ⟨ht.1, hc, by simp [msgBytes] at this ⊢; omega, fun _ => by simp [msgBytes] at this ⊢; omega⟩
    | receiveErr o e r' h hr =>
      have hc := i2.receive
      rw [hr] at ht hc
      have := i4 (by simp [Errd, h])
      have h2 := ht.2.2 o e r' rfl
      exact ⟨ht.1, hc, by simp only; omega, fun h => absurd (.inl rfl) h⟩
    | begin a q b h => exact ⟨i1, i2, i3, i4⟩
    | handled a q b h hd => exact ⟨i1, i2, i3, i4⟩
    | refuseClose h => exact ⟨i1, i2, i3, i4⟩
    | close h => exact ⟨i1, i2, i3, i4⟩
    | net n' st hc => exact ⟨i1, i2, i3, i4⟩
    | other eff srv' room stopped st hx =>
      refine ⟨i1, i2, ?_, fun he => ?_⟩
      · simp only [hx.1]; exact i3
      · simp only [hx.1]
        exact i4 fun h' => he (errd_stays hreach st h')

private theorem content_buf (r : Rd) (h : Capped r) : r.content.length ≤ (onTransport r).length + 4096 := by
  obtain ⟨b, e, q, rfl, hb⟩ := h
  cases e <;> simp [Rd.content, onTransport] <;> omega

private theorem msgBytes_le (l : List Request) (n : Nat) (h : l.length ≤ n) : msgBytes l ≤ n * 65535 := by
  induction l generalizing n with
  | nil => simp [msgBytes]
  | cons q l ih =>
    cases n with
    | zero => simp at h
    | succ n =>
      have := ih n (by simpa using h)
      have := len_le q.header
      simp only [msgBytes, List.map_cons, List.sum_cons] at *
      omega

/-- C106.  With a sequential runner a slow handler holds back its peer: whatever the peer sends
and however it is cut into segments, at most two messages and one buffer of 4096 bytes have
been taken off the transport beyond the requests that have been handled.  The rest stays with
the transport, whose flow control stops the peer. -/
theorem backlog_bytes_partial (call : ω → Call ⊕ Option Err) (prog : Nat → Request → List ω) (F : Err) (q : Rd)
    (hq : q.Ok F) (s : Live ω) (h : Live.Steps true call prog (.init (.buf [] none q)) s) :
    q.content.length ≤ (onTransport s.rd).length + msgBytes (handledRequests s.srv.trace) + 2 * 65535 + 4096 := by
  obtain ⟨i1, i2, i3, i4⟩ := live_bytes hq h
  obtain ⟨l, h1, h2, h3⟩ := backlog_sequential s.srv (Live.srv_reach h)
  have hb := content_buf s.rd i2
  have hm : msgBytes s.srv.arrived = msgBytes (handledRequests s.srv.trace) + msgBytes l := by
    rw [h1]; simp [msgBytes]
  by_cases he : Errd s.srv
  · have := msgBytes_le l 1 (h3 (by rcases he with he | he <;> simp [he]))
    omega
  · have := msgBytes_le l 2 h2
    have := i4 he
    omega

/-! ## The default runner -/

/-- The bytes of a message. -/
def msgOf (m : Header × Bytes) : Bytes := m.1.bytes ++ m.2

private theorem steps_trans {seq : Bool} {call : ω → Call ⊕ Option Err} {prog : Nat → Request → List ω} {a b c : Live ω}
    (h1 : Live.Steps seq call prog a b) (h2 : Live.Steps seq call prog b c) : Live.Steps seq call prog a c := by
  induction h2 with
  | refl => exact h1
  | tail _ st ih => exact .tail ih st

private theorem hoard (call : ω → Call ⊕ Option Err) (prog : Nat → Request → List ω) (F : Err) (rest : Bytes)
    (ms : List (Header × Bytes)) (hm : ∀ m ∈ ms, m.1.len = 8 + m.2.length) (hrest : rest ≠ [] )
    (s : Live ω) (hok : s.rd.Ok F) (hc : s.rd.content = (ms.map msgOf).flatten ++ rest) (hr : s.srv.rcv = .reading)
    (hp : s.srv.phase = .loop) (hh : handledRequests s.srv.trace = []) (ha : ∀ t ∈ s.srv.tasks, t.2 = .active) :
    ∃ s', Live.Steps false call prog s s' ∧ s'.rd.content = rest ∧
      s'.srv.arrived.map (·.header) = s.srv.arrived.map (·.header) ++ ms.map (·.1) ∧
      s'.srv.tasks.length = s.srv.tasks.length + ms.length ∧ (∀ t ∈ s'.srv.tasks, t.2 = .active) ∧
      handledRequests s'.srv.trace = [] := by
  induction ms generalizing s with
  | nil => exact ⟨s, .refl, by simpa using hc, by simp, by simp, ha, hh⟩
  | cons m ms ih =>
    have hlen := hm m (by simp)
    have hcon : s.rd.content = m.1.bytes ++ (m.2 ++ ((ms.map msgOf).flatten ++ rest)) := by
      rw [hc]; simp [msgOf]
    have hhead : Header.ofBytes s.rd.content = m.1 := by rw [hcon]; exact Header.ofBytes_bytes _ _
    have hl : s.rd.content.length = 8 + (m.2.length + ((ms.map msgOf).flatten.length + rest.length)) := by
      rw [hcon]; simp [Header.bytes_length]
    have hrl : 0 < rest.length := List.length_pos_iff.mpr hrest
    rcases Conn.receive_spec F s.rd hok with ⟨h1, _⟩ | ⟨_, h1, _⟩ | ⟨_, _, h1, _⟩ | ⟨_, _, r', h1, h2, h3⟩
    · omega
    · rw [hhead] at h1; omega
    · rw [hhead] at h1; omega
    · generalize hx : (⟨Header.ofBytes s.rd.content, _, _, _, _⟩ : Request) = x at h1
      have hxh : x.header = m.1 := by rw [← hx, ← hhead]
      let s1 : Live ω := { s with rd := r', srv := { s.srv with rcv := .offer x, arrived := s.srv.arrived ++ [x] } }
      have st1 : Live.Step false call prog s s1 := .receive s x r' hr h1
      let s2 : Live ω := { s1 with srv := { s1.srv with
        rcv := .reading, tasks := s.srv.tasks ++ [(x, .pending)], dispatched := s1.srv.dispatched ++ [x], phase := .loop } }
      have st2 : Live.Step false call prog s1 s2 :=
        .other s1 _ s2.srv true true (.deliver s1.srv x hp rfl) ⟨rfl, by simp [s2], [], by simp [s2], by simp⟩
      let s3 : Live ω := { s2 with
        srv := { s2.srv with tasks := s.srv.tasks ++ (x, .active) :: [],
                             trace := s2.srv.trace ++ [.state (requestState x)] },
        net := s2.net.spawn s.srv.tasks.length (prog s.srv.tasks.length x) }
      have st3 : Live.Step false call prog s2 s3 := .begin s2 s.srv.tasks x [] rfl
      obtain ⟨s', g1, g2, g3, g4, g5, g6⟩ := ih (fun m hm' => hm m (by simp [hm'])) s3 h3 (by
          have := h2.content.2
          show r'.content = _
          rw [this, hhead, hlen, hcon, ← List.append_assoc, List.drop_left' (by simp [Header.bytes_length])])
        rfl rfl (by simp only [s3, s2, s1, handledRequests, List.filterMap_append] at hh ⊢; rw [hh]; rfl)
        (by
          intro t ht
          simp only [s3, List.mem_append, List.mem_singleton] at ht
          rcases ht with ht | rfl
          · exact ha t ht
          · rfl)
      refine ⟨s', steps_trans (.tail (.tail (.tail .refl st1) st2) st3) g1, g2, ?_, ?_, g5, g6⟩
      · rw [g3]; simp [s3, s2, s1, hxh]
      · rw [g4]; simp [s3]; omega

/-- C106, false as stated: with the default runner there is no bound.  Whatever messages the peer
sends, all of them can be taken off the connection while not one has been handled, each with a
goroutine of its own. -/
theorem backlog_default_false (call : ω → Call ⊕ Option Err) (prog : Nat → Request → List ω) (F : Err) (r : Rd)
    (hok : r.Ok F) (ms : List (Header × Bytes)) (hm : ∀ m ∈ ms, m.1.len = 8 + m.2.length) (rest : Bytes)
    (hrest : rest ≠ []) (hc : r.content = (ms.map msgOf).flatten ++ rest) :
    ∃ s : Live ω, Live.Steps false call prog (.init r) s ∧ s.rd.content = rest ∧
      s.srv.arrived.map (·.header) = ms.map (·.1) ∧ s.srv.tasks.length = ms.length ∧
      (∀ t ∈ s.srv.tasks, t.2 = .active) ∧ handledRequests s.srv.trace = [] := by
  let s0 : Live ω := .init r
  let s1 : Live ω := { s0 with srv := { s0.srv with phase := .reported, trace := s0.srv.trace ++ [.state .new] } }
  let s2 : Live ω := { s1 with srv := { s1.srv with phase := .admitted } }
  let s3 : Live ω := { s2 with srv := { s2.srv with phase := .queued } }
  let s4 : Live ω := { s3 with srv := { s3.srv with phase := .loop, rcv := .reading } }
  have st1 : Live.Step false call prog s0 s1 :=
    .other s0 _ s1.srv true true (.new _ rfl) ⟨rfl, id, [.state .new], rfl, by simp⟩
  have st2 : Live.Step false call prog s1 s2 :=
    .other s1 _ s2.srv true true (.admit _ rfl rfl) ⟨rfl, id, [], by simp [s2], by simp⟩
  have st3 : Live.Step false call prog s2 s3 :=
    .other s2 _ s3.srv true true (.add _ rfl) ⟨rfl, id, [], by simp [s3], by simp⟩
  have st4 : Live.Step false call prog s3 s4 :=
    .other s3 _ s4.srv true true (.start _ rfl) ⟨rfl, by simp [s4], [], by simp [s4], by simp⟩
  obtain ⟨s', g1, g2, g3, g4, g5, g6⟩ := hoard call prog F rest ms hm hrest s4 hok hc rfl rfl rfl
    (by simp [s4, s3, s2, s1, s0, Live.init, ConnSt.fresh])
  exact ⟨s', steps_trans (.tail (.tail (.tail (.tail .refl st1) st2) st3) st4) g1, g2,
    by rw [g3]; simp [s4, s3, s2, s1, s0, Live.init, ConnSt.fresh],
    by rw [g4]; simp [s4, s3, s2, s1, s0, Live.init, ConnSt.fresh], g5, g6⟩

/-- Non-vacuity of `backlog_default_false`: two echo requests and a byte, in one segment. -/
example : ∃ (r : Rd) (ms : List (Header × Bytes)), r.Ok .eof ∧ (∀ m ∈ ms, m.1.len = 8 + m.2.length) ∧
    ms.length = 2 ∧ r.content = (ms.map msgOf).flatten ++ [4] := by
  let ms : List (Header × Bytes) := [(⟨4, 2, 8, 1⟩, []), (⟨4, 2, 9, 2⟩, [5])]
  refine ⟨.buf [] none (.src ((ms.map msgOf).flatten ++ [4]) [] .eof false), ms, ?_, by decide, rfl, rfl⟩
  simp [Rd.Ok]

end Verif.Props
