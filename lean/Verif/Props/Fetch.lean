import Verif.Props.Records
import Verif.Props.UnderstoodStream

/-!
# C95: a reply in several messages

A switch answers a multipart request in as many messages as it likes, all but the last with the flag
OFPMPF_REPLY_MORE, and other messages may come in between.  The library leaves it to the program to put
the records together.
-/

namespace Verif.Props

open Verif

/-- A `bytes.Buffer` that holds `b`: a read returns as many bytes as it asks for, if there are as many, and
then io.EOF. -/
def bufferOf (b : Bytes) : Rd := .src b [] .eof false

/-- A program that waits for the reply to the request with transaction `xid`:

    for {
        req, err := conn.Receive()
        if err != nil { return xs, err }
        if req.Header.Type != of.TypeMultipartReply || req.Header.Transaction != xid { continue }
        var m ofp.MultipartReply
        if _, err := m.ReadFrom(req.Body); err != nil { return xs, err }
        more, err := collect(req.Body)                  // the program `Collects`
        xs = append(xs, more...)
        if err != nil { return xs, err }
        if m.Flags&ofp.MultipartReplyMode == 0 { return xs, nil }
    }

The relation says that it returns, what, and what the connection is left with. -/
inductive Fetches {σ : Type} (strict : Bool) (dec : Step σ) (zero : σ) (xid : UInt32) :
    Rd → List σ → Option Err → Rd → Prop
  | broken (r r' : Rd) (o : Option Request) (e : Err) : Conn.receive r = (o, some e, r') →
      Fetches strict dec zero xid r [] (some e) r'
  | other (r r' r'' : Rd) (q : Request) (xs : List σ) (e : Option Err) : Conn.receive r = (some q, none, r') →
      ¬ (q.header.type = 19 ∧ q.header.transaction = xid) → Fetches strict dec zero xid r' xs e r'' →
      Fetches strict dec zero xid r xs e r''
  | header (r r' : Rd) (q : Request) (b : Bytes) (e : Err) : Conn.receive r = (some q, none, r') →
      q.header.type = 19 ∧ q.header.transaction = xid → q.body = .buffer b →
      (MultipartReply.readFrom ⟨0, 0⟩ (bufferOf b)).err = some e → Fetches strict dec zero xid r [] (some e) r'
  | records (r r' : Rd) (q : Request) (b : Bytes) (xs : List σ) (e : Err) : Conn.receive r = (some q, none, r') →
      q.header.type = 19 ∧ q.header.transaction = xid → q.body = .buffer b →
      (MultipartReply.readFrom ⟨0, 0⟩ (bufferOf b)).err = none →
      Collects strict dec zero (MultipartReply.readFrom ⟨0, 0⟩ (bufferOf b)).rd xs (some e) →
      Fetches strict dec zero xid r xs (some e) r'
  | last (r r' : Rd) (q : Request) (b : Bytes) (xs : List σ) : Conn.receive r = (some q, none, r') →
      q.header.type = 19 ∧ q.header.transaction = xid → q.body = .buffer b →
      (MultipartReply.readFrom ⟨0, 0⟩ (bufferOf b)).err = none →
      Collects strict dec zero (MultipartReply.readFrom ⟨0, 0⟩ (bufferOf b)).rd xs none →
      (MultipartReply.readFrom ⟨0, 0⟩ (bufferOf b)).val.flags &&& 1 = 0 → Fetches strict dec zero xid r xs none r'
  | more (r r' r'' : Rd) (q : Request) (b : Bytes) (xs ys : List σ) (e : Option Err) : Conn.receive r = (some q, none, r') →
      q.header.type = 19 ∧ q.header.transaction = xid → q.body = .buffer b →
      (MultipartReply.readFrom ⟨0, 0⟩ (bufferOf b)).err = none →
      Collects strict dec zero (MultipartReply.readFrom ⟨0, 0⟩ (bufferOf b)).rd xs none →
      (MultipartReply.readFrom ⟨0, 0⟩ (bufferOf b)).val.flags &&& 1 ≠ 0 →
      Fetches strict dec zero xid r' ys e r'' → Fetches strict dec zero xid r (xs ++ ys) e r''

/-- The messages from a switch up to the end of its reply `vs`, by the specification: messages of
other types or transactions, parts of the reply with the flag OFPMPF_REPLY_MORE, and one without it. -/
inductive ReplyOf {ν : Type} (rd : Bytes → Option (List ν)) (xid : Nat) : List (Spec.Record × Bytes) → List ν → Prop
  | other (h : Spec.Record) (b : Bytes) (ms : List (Spec.Record × Bytes)) (vs : List ν) :
      ¬ (h.lookup "type" = some (.num 19) ∧ h.lookup "xid" = some (.num xid)) → ReplyOf rd xid ms vs →
      ReplyOf rd xid ((h, b) :: ms) vs
  | more (h m : Spec.Record) (b rest : Bytes) (f : Nat) (ms : List (Spec.Record × Bytes)) (vs ws : List ν) :
      h.lookup "type" = some (.num 19) → h.lookup "xid" = some (.num xid) →
      Spec.read Spec.multipart b = some (m, rest) → m.lookup "flags" = some (.num f) → f % 2 = 1 →
      rd rest = some vs → ReplyOf rd xid ms ws → ReplyOf rd xid ((h, b) :: ms) (vs ++ ws)
  | last (h m : Spec.Record) (b rest : Bytes) (f : Nat) (vs : List ν) :
      h.lookup "type" = some (.num 19) → h.lookup "xid" = some (.num xid) →
      Spec.read Spec.multipart b = some (m, rest) → m.lookup "flags" = some (.num f) → f % 2 = 0 →
      rd rest = some vs → ReplyOf rd xid [(h, b)] vs

/-! ## Auxiliary lemmas -/

theorem receiveN_cons {n : Nat} {r : Rd} {q : Request} {l : List (Option Request × Option Err)}
    (h : (receiveN (n + 1) r).1 = (some q, none) :: l) :
    ∃ r', Conn.receive r = (some q, none, r') ∧ (receiveN n r').1 = l ∧
      (receiveN (n + 1) r).2 = (receiveN n r').2 := by
  rcases hx : Conn.receive r with ⟨o, e, r'⟩
  simp only [receiveN, hx, List.cons.injEq, Prod.mk.injEq] at h
  obtain ⟨⟨rfl, rfl⟩, h⟩ := h
  exact ⟨r', rfl, h, by simp [receiveN, hx]⟩

theorem heard_inv {q : Request} {h : Spec.Record} {b : Bytes} (hq : heard q = some (h, b)) : q.body = .buffer b ∧
    ∀ xid : UInt32, (h.lookup "type" = some (.num 19) ∧ h.lookup "xid" = some (.num xid.toNat)) ↔
      (q.header.type = 19 ∧ q.header.transaction = xid) := by
  unfold heard at hq
  split at hq
  · simp only [Option.some.injEq, Prod.mk.injEq] at hq
    obtain ⟨rfl, rfl⟩ := hq
    refine ⟨by assumption, fun xid => ?_⟩
    simp [List.lookup, ← UInt8.toNat_inj, ← UInt32.toNat_inj]
  · cases hq

theorem multipart_split {b rest : Bytes} {m : Spec.Record} (h : Spec.read Spec.multipart b = some (m, rest)) :
    ∃ c, b = c ++ rest ∧ Spec.struct Spec.multipart c = some m := by
  unfold Spec.multipart at h
  obtain ⟨v0, _, _, rfl, g1, rfl⟩ := Spec.read_u16_inv h
  obtain ⟨v1, _, _, rfl, g2, rfl⟩ := Spec.read_u16_inv g1
  obtain ⟨p, _, rfl, hp, g3⟩ := Spec.read_pad_inv g2
  obtain ⟨rfl, rfl⟩ := Spec.read_nil_inv g3
  refine ⟨be v0 ++ (be v1 ++ p), by simp, ?_⟩
  refine Spec.struct_of ?_
  rw [Spec.multipart, Spec.read_u16, Spec.read_u16]
  simp [Spec.read, hp, List.drop_eq_nil_of_le (Nat.le_of_eq hp)]

theorem flag_even {f : UInt16} : f &&& 1 = 0 ↔ f.toNat % 2 = 0 := by
  rw [← UInt16.toNat_inj]; simp [Nat.and_one_is_mod]

/-- The program has all records: on every stream that the specification takes apart into other messages
and the parts of the reply, in any fragmentation and followed by anything, it returns the records of all
parts in their order, and leaves the stream behind the last part.  (The transport reports the end of the
stream in a call of its own, or something follows; see `stream_framing`.) -/
def ReplyFetched {σ ν : Type} (dec : Step σ) (zero : σ) (rd : Bytes → Option (List ν)) (held : σ → σ)
    (said : Nat → σ → ν) (P : ν → Prop) : Prop :=
  ∀ (b : Bytes) (ms : List (Spec.Record × Bytes)) (xid : UInt32) (vs : List ν), Spec.list 2 1 message b = some ms →
    ReplyOf rd xid.toNat ms vs → (∀ v ∈ vs, P v) →
    ∀ (strict : Bool) (F : Err) (r : Rd) (tail : Bytes), r.Ok F → r.Sep ∨ tail ≠ [] → r.content = b ++ tail →
    ∃ (ys : List (Nat × σ)) (r' : Rd), Fetches strict dec zero xid r (ys.map fun y => held y.2) none r' ∧
      (ys.map fun y => said y.1 y.2) = vs ∧ r'.content = tail

/-- If the records of one message are read (C94), those of a reply in several messages are. -/
theorem reply_fetched {σ ν : Type} {dec : Step σ} {zero : σ} {rd : Bytes → Option (List ν)} {held : σ → σ}
    {said : Nat → σ → ν} {P : ν → Prop} (hrec : RecordsRead dec zero rd held said P) :
    ReplyFetched dec zero rd held said P := by
  intro b ms xid vs h hreply hP strict F r tail hr hs hc
  obtain ⟨qs, h1, h2, h3⟩ := stream_understood b ms h F r tail hr hs hc
  clear hc hr hs h
  suffices hh : ∃ ys : List (Nat × σ), Fetches strict dec zero xid r (ys.map fun y => held y.2) none (receiveN ms.length r).2 ∧
      (ys.map fun y => said y.1 y.2) = vs by
    obtain ⟨ys, g1, g2⟩ := hh
    exact ⟨ys, _, g1, g2, h3⟩
  clear h3
  have one : ∀ (b rest : Bytes) (m : Spec.Record) (f : Nat) (vs : List ν), Spec.read Spec.multipart b = some (m, rest) →
      m.lookup "flags" = some (.num f) → rd rest = some vs → (∀ v ∈ vs, P v) →
      (MultipartReply.readFrom ⟨0, 0⟩ (bufferOf b)).err = none ∧
      (MultipartReply.readFrom ⟨0, 0⟩ (bufferOf b)).val.flags.toNat = f ∧
      ∃ ys : List (Nat × σ),
        Collects strict dec zero (MultipartReply.readFrom ⟨0, 0⟩ (bufferOf b)).rd (ys.map fun y => held y.2) none ∧
        (ys.map fun y => said y.1 y.2) = vs := by
    intro b rest m f vs hm hf hv hP
    obtain ⟨c, rfl, hcm⟩ := multipart_split hm
    obtain ⟨g1, g2, g3⟩ := hrec c rest m vs hcm hv hP ⟨0, 0⟩ (bufferOf (c ++ rest)) strict rfl rfl
    refine ⟨g1, ?_, g3⟩
    rw [← g2] at hf
    simpa [List.lookup] using hf
  induction hreply generalizing r qs with
  | other h b ms vs hn hrep ih =>
    cases qs with
    | nil => simp at h2
    | cons q qs =>
      simp only [List.map_cons, List.cons.injEq] at h1 h2
      obtain ⟨r', e1, e2, e3⟩ := receiveN_cons (n := ms.length) h1
      obtain ⟨ys, g1, g2⟩ := ih hP r' qs e2 h2.2
      exact ⟨ys, by rw [List.length_cons, e3]; exact .other r r' _ q _ _ e1 (fun hh => hn ((heard_inv h2.1).2 xid |>.2 hh)) g1, g2⟩
  | more h m b rest f ms vs ws t1 t2 t3 t4 t5 t6 hrep ih =>
    cases qs with
    | nil => simp at h2
    | cons q qs =>
      simp only [List.map_cons, List.cons.injEq] at h1 h2
      obtain ⟨r', e1, e2, e3⟩ := receiveN_cons (n := ms.length) h1
      obtain ⟨ys, g1, g2⟩ := ih (fun v hv => hP v (by simp [hv])) r' qs e2 h2.2
      obtain ⟨a1, a2, zs, a3, a4⟩ := one b rest m f vs t3 t4 t6 (fun v hv => hP v (by simp [hv]))
      refine ⟨zs ++ ys, ?_, by simp [a4, g2]⟩
      rw [List.length_cons, e3, List.map_append]
      exact .more r r' _ q b _ _ _ e1 ((heard_inv h2.1).2 xid |>.1 ⟨t1, t2⟩) (heard_inv h2.1).1 a1 a3
        (by rw [Ne, flag_even, a2]; omega) g1
  | last h m b rest f vs t1 t2 t3 t4 t5 t6 =>
    cases qs with
    | nil => simp at h2
    | cons q qs =>
      simp only [List.map_cons, List.cons.injEq] at h1 h2
      obtain ⟨r', e1, e2, e3⟩ := receiveN_cons (n := 0) h1
      obtain ⟨a1, a2, zs, a3, a4⟩ := one b rest m f vs t3 t4 t6 hP
      refine ⟨zs, ?_, a4⟩
      show Fetches _ _ _ _ _ _ _ (receiveN (0 + 1) r).2
      rw [e3]
      exact .last r r' q b _ e1 ((heard_inv h2.1).2 xid |>.1 ⟨t1, t2⟩) (heard_inv h2.1).1 a1 a3
        (by rw [flag_even, a2]; omega)

/-- The program returns one result. -/
theorem fetches_unique {σ : Type} {strict : Bool} {dec : Step σ} {zero : σ} {xid : UInt32} {r r₁ r₂ : Rd} {xs ys : List σ}
    {e e' : Option Err} (h : Fetches strict dec zero xid r xs e r₁) (h' : Fetches strict dec zero xid r ys e' r₂) :
    xs = ys ∧ e = e' ∧ r₁ = r₂ := by
  induction h generalizing ys e' r₂ with
  | broken r r' o e h1 => cases h' <;> simp_all
  | other r r' r'' q xs e h1 h2 h3 ih =>
    cases h' with
    | other _ r' _ q _ _ g1 g2 g3 =>
      rw [h1] at g1; cases g1; exact ih g3
    | _ => simp_all
  | header r r' q b e h1 h2 h3 h4 => cases h' <;> simp_all
  | records r r' q b xs e h1 h2 h3 h4 h5 =>
    cases h' with
    | broken _ _ _ _ g1 => simp_all
    | other _ _ _ _ _ _ g1 g2 => simp_all
    | header _ _ _ _ _ g1 g2 g3 g4 => simp_all
    | records _ _ _ _ _ _ g1 g2 g3 g4 g5 =>
      rw [h1] at g1; cases g1; rw [h3] at g3; cases g3
      have := collects_unique h5 g5
      simp_all
    | last _ _ _ _ _ g1 g2 g3 g4 g5 =>
      rw [h1] at g1; cases g1; rw [h3] at g3; cases g3
      have := collects_unique h5 g5
      simp_all
    | more _ _ _ _ _ _ _ _ g1 g2 g3 g4 g5 =>
      rw [h1] at g1; cases g1; rw [h3] at g3; cases g3
      have := collects_unique h5 g5
      simp_all
  | last r r' q b xs h1 h2 h3 h4 h5 h6 =>
    cases h' with
    | broken _ _ _ _ g1 => simp_all
    | other _ _ _ _ _ _ g1 g2 => simp_all
    | header _ _ _ _ _ g1 g2 g3 g4 => simp_all
    | records _ _ _ _ _ _ g1 g2 g3 g4 g5 =>
      rw [h1] at g1; cases g1; rw [h3] at g3; cases g3
      have := collects_unique h5 g5
      simp_all
    | last _ _ _ _ _ g1 g2 g3 g4 g5 =>
      rw [h1] at g1; cases g1; rw [h3] at g3; cases g3
      have := collects_unique h5 g5
      simp_all
    | more _ _ _ _ _ _ _ _ g1 g2 g3 g4 g5 g6 =>
      rw [h1] at g1; cases g1; rw [h3] at g3; cases g3
      exact absurd h6 g6
  | more r r' r'' q b xs zs e h1 h2 h3 h4 h5 h6 h7 ih =>
    cases h' with
    | broken _ _ _ _ g1 => simp_all
    | other _ _ _ _ _ _ g1 g2 => simp_all
    | header _ _ _ _ _ g1 g2 g3 g4 => simp_all
    | records _ _ _ _ _ _ g1 g2 g3 g4 g5 =>
      rw [h1] at g1; cases g1; rw [h3] at g3; cases g3
      have := collects_unique h5 g5
      simp_all
    | last _ _ _ _ _ g1 g2 g3 g4 g5 g6 =>
      rw [h1] at g1; cases g1; rw [h3] at g3; cases g3
      exact absurd g6 h6
    | more _ _ _ _ _ _ _ _ g1 g2 g3 g4 g5 g6 g7 =>
      rw [h1] at g1; cases g1; rw [h3] at g3; cases g3
      obtain ⟨rfl, _⟩ := collects_unique h5 g5
      obtain ⟨rfl, rfl, rfl⟩ := ih g7
      exact ⟨rfl, rfl, rfl⟩

/-! ## The types of records -/

/-- Counters of tables. -/
theorem tableStats_fetched (zero : TableStats) : ReplyFetched TableStats.readFrom zero
    (Spec.array 24 (Spec.struct Spec.tableStats)) id (fun _ x =>
      [("table_id", .num x.table.toNat), ("active_count", .num x.activeCount.toNat),
       ("lookup_count", .num x.lookupCount.toNat), ("matched_count", .num x.matchedCount.toNat)]) fun _ => True :=
  reply_fetched (tableStats_records zero)

/-- Counters of ports. -/
theorem portStats_fetched (zero : PortStats) : ReplyFetched PortStats.readFrom zero
    (Spec.array 112 (Spec.struct Spec.portStats)) id (fun _ x =>
      [("port_no", .num x.portNo.toNat), ("rx_packets", .num x.rxPackets.toNat),
       ("tx_packets", .num x.txPackets.toNat), ("rx_bytes", .num x.rxBytes.toNat),
       ("tx_bytes", .num x.txBytes.toNat), ("rx_dropped", .num x.rxDropped.toNat),
       ("tx_dropped", .num x.txDropped.toNat), ("rx_errors", .num x.rxErrors.toNat),
       ("tx_errors", .num x.txErrors.toNat), ("rx_frame_err", .num x.rxFrameErr.toNat),
       ("rx_over_err", .num x.rxOverErr.toNat), ("rx_crc_err", .num x.rxCrcErr.toNat),
       ("collisions", .num x.collisions.toNat), ("duration_sec", .num x.durationSec.toNat),
       ("duration_nsec", .num x.durationNSec.toNat)]) fun _ => True :=
  reply_fetched (portStats_records zero)

/-- Counters of queues. -/
theorem queueStats_fetched (zero : QueueStats) : ReplyFetched QueueStats.readFrom zero
    (Spec.array 40 (Spec.struct Spec.queueStats)) id (fun _ x =>
      [("port_no", .num x.port.toNat), ("queue_id", .num x.queue.toNat),
       ("tx_bytes", .num x.txBytes.toNat), ("tx_packets", .num x.txPackets.toNat),
       ("tx_errors", .num x.txErrors.toNat), ("duration_sec", .num x.durationSec.toNat),
       ("duration_nsec", .num x.durationNSec.toNat)]) fun _ => True :=
  reply_fetched (queueStats_records zero)

/-- Descriptions of ports; missing: the end of the name (`port_understood_false`). -/
theorem port_fetched_partial (zero : Port) : ReplyFetched Port.readFrom zero
    (Spec.array 64 (Spec.struct Spec.port)) id (fun _ p => portSaid { p with name := cstr p.name }) fun _ => True :=
  reply_fetched (port_records_partial zero)

/-- Flows; missing: what `flowStats_understood_partial` misses. -/
theorem flowStats_fetched_partial (zero : FlowStats) : ReplyFetched FlowStats.readFrom zero
    (Spec.list 0 1 (Spec.withFlow Spec.flowStatsHead)) id flowStatsSaid
    fun v => NoEmptyMask v.2.1 ∧ ∀ i ∈ v.2.2, i.Known :=
  reply_fetched (flowStats_records_partial zero)

/-- Features of tables; missing: what `tableFeatures_understood_partial` misses. -/
theorem tableFeatures_fetched_partial (zero : TableFeatures) : ReplyFetched TableFeatures.readFrom zero
    (Spec.list 0 1 Spec.tableFeatures) id tableFeaturesSaid fun v => ∀ p ∈ v.2, KnownProp p :=
  reply_fetched (tableFeatures_records_partial zero)

/-- Counters of groups; missing: those of the buckets. -/
theorem groupStats_fetched_partial (zero : GroupStats) : ReplyFetched GroupStats.readFrom zero
    (Spec.list 0 1 Spec.groupStats) (fun g => { g with bucketStats := zero.bucketStats }) (fun n g =>
      ([("length", .num n), ("group_id", .num g.group.toNat),
        ("ref_count", .num g.refCount.toNat), ("packet_count", .num g.packetCount.toNat),
        ("byte_count", .num g.byteCount.toNat), ("duration_sec", .num g.durationSec.toNat),
        ("duration_nsec", .num g.durationNSec.toNat)],
        g.bucketStats.map fun c => [("packet_count", .num c.packetCount.toNat), ("byte_count", .num c.byteCount.toNat)]))
    fun _ => True :=
  reply_fetched (groupStats_records_partial zero)

/-- Configurations of meters; missing: the bands. -/
theorem meterConfig_fetched_partial (zero : MeterConfig) : ReplyFetched MeterConfig.readFrom zero
    (Spec.list 0 1 Spec.meterConfig) (fun m => { m with bands := zero.bands }) (fun n m =>
      ([("length", .num n), ("flags", .num m.flags.toNat), ("meter_id", .num m.meter.toNat)], m.bands.map bandSaid))
    fun _ => True :=
  reply_fetched (meterConfig_records_partial zero)

/-! ## Replies the program never gets to the end of -/

theorem never_fetched {σ ν : Type} {dec : Step σ} {zero : σ} {rd : Bytes → Option (List ν)} {P : ν → Prop} {strict : Bool}
    (hrec : ∀ (rest : Bytes) (vs : List ν), rd rest = some vs → (∀ v ∈ vs, P v) → ∀ r : Rd, r.Ok .eof → r.content = rest →
      ∀ xs e, ¬ Collects strict dec zero r xs e)
    (b : Bytes) (ms : List (Spec.Record × Bytes)) (xid : UInt32) (vs : List ν) (h : Spec.list 2 1 message b = some ms)
    (hreply : ReplyOf rd xid.toNat ms vs) (hP : ∀ v ∈ vs, P v)
    (F : Err) (r r' : Rd) (tail : Bytes) (hr : r.Ok F) (hs : r.Sep ∨ tail ≠ []) (hc : r.content = b ++ tail)
    (xs : List σ) (e : Option Err) : ¬ Fetches strict dec zero xid r xs e r' := by
  obtain ⟨qs, h1, h2, h3⟩ := stream_understood b ms h F r tail hr hs hc
  clear hc hr hs h h3
  have one : ∀ (b rest : Bytes) (m : Spec.Record) (f : Nat) (vs : List ν), Spec.read Spec.multipart b = some (m, rest) →
      m.lookup "flags" = some (.num f) → rd rest = some vs → (∀ v ∈ vs, P v) →
      (MultipartReply.readFrom ⟨0, 0⟩ (bufferOf b)).err = none ∧
      ∀ xs e, ¬ Collects strict dec zero (MultipartReply.readFrom ⟨0, 0⟩ (bufferOf b)).rd xs e := by
    intro b rest m f vs hm hf hv hP
    obtain ⟨c, rfl, hcm⟩ := multipart_split hm
    obtain ⟨x, hx, _⟩ := multipartReply_understood c m hcm
    obtain ⟨_, _, g3, g4⟩ := hx ⟨0, 0⟩ (bufferOf (c ++ rest)) rest rfl rfl
    exact ⟨g3, hrec rest vs hv hP _ (MultipartReply.flat.safe (E := ShortErr) ⟨0, 0⟩ (bufferOf (c ++ rest)) rfl).ok g4⟩
  induction hreply generalizing r qs xs e with
  | other h b ms vs hn hrep ih =>
    cases qs with
    | nil => simp at h2
    | cons q qs =>
      simp only [List.map_cons, List.cons.injEq] at h1 h2
      obtain ⟨r', e1, e2, e3⟩ := receiveN_cons (n := ms.length) h1
      have hq : ¬ (q.header.type = 19 ∧ q.header.transaction = xid) := fun hh => hn ((heard_inv h2.1).2 xid |>.2 hh)
      intro hf
      cases hf with
      | other _ _ _ _ _ _ g1 g2 g3 => rw [e1] at g1; cases g1; exact ih hP _ _ _ qs e2 h2.2 g3
      | broken _ _ _ _ g1 => simp_all
      | header _ _ _ _ _ g1 g2 => rw [e1] at g1; cases g1; exact hq g2
      | records _ _ _ _ _ _ g1 g2 => rw [e1] at g1; cases g1; exact hq g2
      | last _ _ _ _ _ g1 g2 => rw [e1] at g1; cases g1; exact hq g2
      | more _ _ _ _ _ _ _ _ g1 g2 => rw [e1] at g1; cases g1; exact hq g2
  | more h m b rest f ms vs ws t1 t2 t3 t4 t5 t6 hrep ih =>
    cases qs with
    | nil => simp at h2
    | cons q qs =>
      simp only [List.map_cons, List.cons.injEq] at h1 h2
      obtain ⟨r', e1, _, _⟩ := receiveN_cons (n := ms.length) h1
      obtain ⟨a1, a2⟩ := one b rest m f vs t3 t4 t6 (fun v hv => hP v (by simp [hv]))
      obtain ⟨hb, hq⟩ := heard_inv h2.1
      have hq := (hq xid).1 ⟨t1, t2⟩
      intro hf
      cases hf with
      | other _ _ _ _ _ _ g1 g2 g3 => rw [e1] at g1; cases g1; exact g2 hq
      | broken _ _ _ _ g1 => simp_all
      | header _ _ _ _ _ g1 g2 g3 g4 => rw [e1] at g1; cases g1; rw [hb] at g3; cases g3; rw [a1] at g4; cases g4
      | records _ _ _ _ _ _ g1 g2 g3 g4 g5 => rw [e1] at g1; cases g1; rw [hb] at g3; cases g3; exact a2 _ _ g5
      | last _ _ _ _ _ g1 g2 g3 g4 g5 => rw [e1] at g1; cases g1; rw [hb] at g3; cases g3; exact a2 _ _ g5
      | more _ _ _ _ _ _ _ _ g1 g2 g3 g4 g5 => rw [e1] at g1; cases g1; rw [hb] at g3; cases g3; exact a2 _ _ g5
  | last h m b rest f vs t1 t2 t3 t4 t5 t6 =>
    cases qs with
    | nil => simp at h2
    | cons q qs =>
      simp only [List.map_cons, List.cons.injEq] at h1 h2
      obtain ⟨r', e1, _, _⟩ := receiveN_cons (n := 0) h1
      obtain ⟨a1, a2⟩ := one b rest m f vs t3 t4 t6 hP
      obtain ⟨hb, hq⟩ := heard_inv h2.1
      have hq := (hq xid).1 ⟨t1, t2⟩
      intro hf
      cases hf with
      | other _ _ _ _ _ _ g1 g2 g3 => rw [e1] at g1; cases g1; exact g2 hq
      | broken _ _ _ _ g1 => simp_all
      | header _ _ _ _ _ g1 g2 g3 g4 => rw [e1] at g1; cases g1; rw [hb] at g3; cases g3; rw [a1] at g4; cases g4
      | records _ _ _ _ _ _ g1 g2 g3 g4 g5 => rw [e1] at g1; cases g1; rw [hb] at g3; cases g3; exact a2 _ _ g5
      | last _ _ _ _ _ g1 g2 g3 g4 g5 => rw [e1] at g1; cases g1; rw [hb] at g3; cases g3; exact a2 _ _ g5
      | more _ _ _ _ _ _ _ _ g1 g2 g3 g4 g5 => rw [e1] at g1; cases g1; rw [hb] at g3; cases g3; exact a2 _ _ g5

/-- Counters of meters: the program never returns, whatever the reply. -/
theorem meterStats_fetched_false (zero : MeterStats) (strict : Bool) (b : Bytes) (ms : List (Spec.Record × Bytes))
    (xid : UInt32) (vs : List (Spec.Record × List Spec.Record)) (h : Spec.list 2 1 message b = some ms)
    (hreply : ReplyOf (Spec.list 4 1 Spec.meterStats) xid.toNat ms vs)
    (F : Err) (r r' : Rd) (tail : Bytes) (hr : r.Ok F) (hs : r.Sep ∨ tail ≠ []) (hc : r.content = b ++ tail)
    (xs : List MeterStats) (e : Option Err) : ¬ Fetches strict MeterStats.readFrom zero xid r xs e r' :=
  never_fetched (P := fun _ => True) (fun rest vs h _ r hr hc xs e => meterStats_records_false zero strict rest vs h r hr hc xs e)
    b ms xid vs h hreply (by simp) F r r' tail hr hs hc xs e

/-- Descriptions of groups: the same. -/
theorem groupDescStats_fetched_false (zero : GroupDescStats) (strict : Bool) (b : Bytes) (ms : List (Spec.Record × Bytes))
    (xid : UInt32) (vs : List (Spec.Record × List (Spec.Record × List Spec.Action))) (h : Spec.list 2 1 message b = some ms)
    (hreply : ReplyOf (Spec.list 0 1 Spec.groupDesc) xid.toNat ms vs) (hk : ∀ v ∈ vs, ∀ c ∈ v.2, ∀ a ∈ c.2, a.Known)
    (F : Err) (r r' : Rd) (tail : Bytes) (hr : r.Ok F) (hs : r.Sep ∨ tail ≠ []) (hc : r.content = b ++ tail)
    (xs : List GroupDescStats) (e : Option Err) : ¬ Fetches strict GroupDescStats.readFrom zero xid r xs e r' :=
  never_fetched (fun rest vs h hP r hr hc xs e => groupDescStats_records_false zero strict rest vs h hP r hr hc xs e)
    b ms xid vs h hreply hk F r r' tail hr hs hc xs e

/-! ## Cases -/

/-- A reply of two tables in two messages, with an echo request in between. -/
private def twoParts : Bytes :=
  [4, 19, 0, 40, 0, 0, 0, 7] ++ [0, 3, 0, 1, 9, 9, 9, 9] ++ ([1, 9, 9, 9, 0, 0, 0, 5] ++ zeros 16) ++
  [4, 2, 0, 8, 0, 0, 0, 9] ++
  [4, 19, 0, 40, 0, 0, 0, 7] ++ [0, 3, 0, 0, 9, 9, 9, 9] ++ ([2, 9, 9, 9, 0, 0, 0, 6] ++ zeros 16)

example : ∃ ms vs, Spec.list 2 1 message twoParts = some ms ∧
    ReplyOf (Spec.array 24 (Spec.struct Spec.tableStats)) (7 : UInt32).toNat ms vs ∧
    vs.map (fun v => v.lookup "active_count") = [some (.num 5), some (.num 6)] := by
  refine ⟨[([("version", .num 4), ("type", .num 19), ("length", .num 40), ("xid", .num 7)],
      [0, 3, 0, 1, 9, 9, 9, 9] ++ ([1, 9, 9, 9, 0, 0, 0, 5] ++ zeros 16)),
     ([("version", .num 4), ("type", .num 2), ("length", .num 8), ("xid", .num 9)], []),
     ([("version", .num 4), ("type", .num 19), ("length", .num 40), ("xid", .num 7)],
      [0, 3, 0, 0, 9, 9, 9, 9] ++ ([2, 9, 9, 9, 0, 0, 0, 6] ++ zeros 16))],
    [[("table_id", .num 1), ("active_count", .num 5), ("lookup_count", .num 0), ("matched_count", .num 0)]] ++
    [[("table_id", .num 2), ("active_count", .num 6), ("lookup_count", .num 0), ("matched_count", .num 0)]],
    by decide +kernel, ?_, rfl⟩
  refine .more _ [("type", .num 3), ("flags", .num 1)] _ ([1, 9, 9, 9, 0, 0, 0, 5] ++ zeros 16) 1 _ _ _ rfl rfl
    (by decide +kernel) rfl rfl (by decide +kernel) ?_
  refine .other _ _ _ _ (by simp [List.lookup]) ?_
  exact .last _ [("type", .num 3), ("flags", .num 0)] _ ([2, 9, 9, 9, 0, 0, 0, 6] ++ zeros 16) 0 _ rfl rfl
    (by decide +kernel) rfl rfl (by decide +kernel)

/-- A connection that transmits this in pieces, followed by a hello. -/
example : ∃ r : Rd, r.Ok (.io 1) ∧ r.Sep ∧ r.content = twoParts ++ [4, 0, 0, 8, 0, 0, 0, 1] :=
  ⟨.buf [] none (.src (twoParts ++ [4, 0, 0, 8, 0, 0, 0, 1]) [3, 60] (.io 1) false), by simp [Rd.Ok], by simp [Rd.Sep], rfl⟩

end Verif.Props
