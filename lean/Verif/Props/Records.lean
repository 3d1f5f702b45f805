import Verif.Props.UnderstoodTable
import Verif.Props.Fixed
import Verif.Fails

/-!
# C94: the records of a multipart reply

`MultipartReply.ReadFrom` leaves the body, and `Flows` and friends are not decoded by the library: a
program calls the decoder of the records until it reports `io.EOF`.  That is the program here.
-/

namespace Verif.Props

open Verif

/-- A program that decodes records until the end of the body:

    for {
        x := zero
        n, err := x.ReadFrom(r)
        if err == io.EOF { break }           // strict: err == io.EOF && n == 0
        if err != nil { return xs, err }
        xs = append(xs, x)
    }

The relation says that it returns, and what; a program that loops for ever is in no relation. -/
inductive Collects {σ : Type} (strict : Bool) (dec : Step σ) (zero : σ) : Rd → List σ → Option Err → Prop
  | stop (r : Rd) : (dec zero r).err = some .eof → (strict = true → (dec zero r).n = 0) →
      Collects strict dec zero r [] none
  | fail (r : Rd) (e : Err) : (dec zero r).err = some e → ¬ (e = .eof ∧ (strict = true → (dec zero r).n = 0)) →
      Collects strict dec zero r [] (some e)
  | next (r : Rd) (xs : List σ) (e : Option Err) : (dec zero r).err = none →
      Collects strict dec zero (dec zero r).rd xs e → Collects strict dec zero r ((dec zero r).val :: xs) e

/-- The program returns one result. -/
theorem collects_unique {σ : Type} {strict : Bool} {dec : Step σ} {zero : σ} {r : Rd} {xs ys : List σ} {e e' : Option Err}
    (h : Collects strict dec zero r xs e) (h' : Collects strict dec zero r ys e') : xs = ys ∧ e = e' := by
  induction h generalizing ys e' with
  | stop r h1 h2 =>
    cases h' with
    | stop => exact ⟨rfl, rfl⟩
    | fail _ e h3 h4 => rw [h1] at h3; cases h3; exact absurd ⟨rfl, h2⟩ h4
    | next _ ys _ h3 _ => rw [h1] at h3; cases h3
  | fail r e h1 h2 =>
    cases h' with
    | stop _ h3 h4 => rw [h1] at h3; cases h3; exact absurd ⟨rfl, h4⟩ h2
    | fail _ e h3 h4 => rw [h1] at h3; cases h3; exact ⟨rfl, rfl⟩
    | next _ ys _ h3 _ => rw [h1] at h3; cases h3
  | next r xs e h1 _ ih =>
    cases h' with
    | stop _ h3 _ => rw [h1] at h3; cases h3
    | fail _ e h3 _ => rw [h1] at h3; cases h3
    | next _ ys _ h3 h4 => have := ih h4; exact ⟨by rw [this.1], this.2⟩

/-! ## Auxiliary lemmas -/

theorem empty_count {σ : Type} {E : Err → Prop} {dec : Step σ} (hs : Safe E dec) {s : σ} {r : Rd} (hr : r.Ok .eof)
    (hc : r.content = []) : (dec s r).n = 0 := by
  obtain ⟨⟨m, h1, h2⟩, _, _⟩ := hs s r hr
  have := h2.content.1
  rw [hc] at this; simp at this; omega

theorem collects_of {σ : Type} {E : Err → Prop} {dec : Step σ} (hs : Safe E dec) {zero : σ}
    (he : FailsAll dec zero [] .eof) (strict : Bool) (ps : List (Bytes × σ))
    (h : ∀ p ∈ ps, DecodesFrom dec zero p.1 p.2) (r : Rd) (hr : r.Ok .eof) (hc : r.content = ps.flatMap (·.1)) :
    Collects strict dec zero r (ps.map (·.2)) none := by
  induction ps generalizing r with
  | nil => exact .stop r (he r hr hc) (fun _ => empty_count hs hr hc)
  | cons p ps ih =>
    obtain ⟨h1, _, h3, h4⟩ := h p (by simp) r (ps.flatMap (·.1)) hr (by simpa using hc)
    have := ih (fun q hq => h q (by simp [hq])) (dec zero r).rd (hs zero r hr).ok h4
    rw [List.map_cons, ← h1]
    exact .next r _ _ h3 this

theorem list_split {ν : Type} {off : Nat} {f : Bytes → Option ν} {b : Bytes} {vs : List ν}
    (h : Spec.list off 1 f b = some vs) :
    ∃ bs : List Bytes, b = bs.flatten ∧ (∀ c ∈ bs, Spec.u16 off c = c.length) ∧ Spec.each f bs = some vs := by
  unfold Spec.list at h
  rw [Option.bind_eq_some_iff] at h
  obtain ⟨bs, h2, h3⟩ := h
  refine ⟨bs, ?_, ?_, h3⟩
  all_goals
    clear h3
    unfold Spec.records at h2
    generalize b.length = fuel at h2
  · induction bs generalizing fuel b with
    | nil =>
      rcases Spec.recordsFuel_inv fuel b [] h2 with ⟨rfl, -⟩ | ⟨_, _, _, _, h0, _⟩
      · rfl
      · simp at h0
    | cons c bs ih =>
      rcases Spec.recordsFuel_inv fuel b _ h2 with ⟨-, h0⟩ | ⟨fuel', bs', h5, h3, h0, h4⟩
      · simp at h0
      · simp only [List.cons.injEq] at h0
        obtain ⟨hc, hbs⟩ := h0
        subst bs'
        have e1 : (Spec.u16 off b + 1 - 1) / 1 * 1 = Spec.u16 off b := by omega
        rw [e1] at h4
        rw [List.flatten_cons, ← ih fuel' h4, hc, List.take_append_drop]
  · induction bs generalizing fuel b with
    | nil => simp
    | cons c bs ih =>
      rcases Spec.recordsFuel_inv fuel b _ h2 with ⟨-, h0⟩ | ⟨fuel', bs', h5, h3, h0, h4⟩
      · simp at h0
      · simp only [List.cons.injEq] at h0
        obtain ⟨hc, hbs⟩ := h0
        subst bs'
        have e1 : (Spec.u16 off b + 1 - 1) / 1 * 1 = Spec.u16 off b := by omega
        rw [e1] at h3 h4
        intro d hd
        rcases List.mem_cons.1 hd with rfl | hd
        · have : Spec.u16 off (d ++ b.drop (Spec.u16 off b)) = Spec.u16 off d :=
            Spec.u16_append (by rw [hc]; simp; omega) _
          rw [hc, List.take_append_drop] at this
          rw [hc, ← this]; simp [h3]
        · exact ih fuel' h4 d hd

theorem array_split {ν : Type} {k : Nat} {f : Bytes → Option ν} {b : Bytes} {vs : List ν}
    (h : Spec.array k f b = some vs) : ∃ bs : List Bytes, b = bs.flatten ∧ Spec.each f bs = some vs := by
  unfold Spec.array at h
  rw [Option.bind_eq_some_iff] at h
  obtain ⟨bs, h2, h3⟩ := h
  refine ⟨bs, ?_, h3⟩
  clear h3
  unfold Spec.chunks at h2
  generalize b.length = fuel at h2
  induction bs generalizing fuel b with
  | nil =>
    cases fuel with
    | zero => simp only [Spec.chunksFuel] at h2; split at h2 <;> simp_all
    | succ n =>
      simp only [Spec.chunksFuel] at h2
      split at h2
      · simp_all
      · split at h2 <;> simp at h2
  | cons c bs ih =>
    cases fuel with
    | zero => simp only [Spec.chunksFuel] at h2; split at h2 <;> simp_all
    | succ n =>
      simp only [Spec.chunksFuel] at h2
      split at h2
      · simp at h2
      · split at h2
        · simp only [Option.map_eq_some_iff, List.cons.injEq] at h2
          obtain ⟨bs', h2, rfl, rfl⟩ := h2
          rw [List.flatten_cons, ← ih n h2, List.take_append_drop]
        · simp at h2

theorem parts_of {σ ν : Type} {dec : Step σ} {zero : σ} {f : Bytes → Option ν} {held : σ → σ} {said : Nat → σ → ν}
    {Q : Bytes → Prop} {P : ν → Prop}
    (h1 : ∀ b v, f b = some v → Q b → P v → ∃ x, DecodesFrom dec zero b (held x) ∧ said b.length x = v)
    (bs : List Bytes) (vs : List ν) (h : Spec.each f bs = some vs) (hQ : ∀ b ∈ bs, Q b) (hP : ∀ v ∈ vs, P v) :
    ∃ ps : List (Bytes × σ), bs.flatten = (ps.map fun p => (p.1, held p.2)).flatMap (·.1) ∧
      (∀ p ∈ ps.map fun p => (p.1, held p.2), DecodesFrom dec zero p.1 p.2) ∧
      (ps.map fun p => said p.1.length p.2) = vs := by
  induction bs generalizing vs with
  | nil => exact ⟨[], rfl, by simp, by simpa [Spec.each] using h⟩
  | cons b bs ih =>
    obtain ⟨v, vs', rfl, h2, h3⟩ := Spec.each_cons_inv h
    obtain ⟨x, a1, a2⟩ := h1 b v h2 (hQ b (by simp)) (hP v (by simp))
    obtain ⟨ps, c1, c2, c3⟩ := ih vs' h3 (fun c hc => hQ c (by simp [hc])) (fun w hw => hP w (by simp [hw]))
    refine ⟨(b, x) :: ps, by simp [c1], ?_, by simp [a2, c3]⟩
    intro p hp
    rcases List.mem_cons.1 hp with rfl | hp
    · exact a1
    · exact c2 p hp

/-- What a peer puts into a reply is what the program has in the end.  `rd` is the reader of the
body by the specification, `P` what is asked of the records, `said` what a record of `n` bytes says,
`held` what the decoder keeps of it.  The program may use either test for the end of the body, and the
body may come from any reader. -/
def RecordsRead {σ ν : Type} (dec : Step σ) (zero : σ) (rd : Bytes → Option (List ν)) (held : σ → σ)
    (said : Nat → σ → ν) (P : ν → Prop) : Prop :=
  ∀ (c b : Bytes) (h : Spec.Record) (vs : List ν), Spec.struct Spec.multipart c = some h → rd b = some vs →
    (∀ v ∈ vs, P v) → ∀ (s : MultipartReply) (r : Rd) (strict : Bool), r.Ok .eof → r.content = c ++ b →
    (MultipartReply.readFrom s r).err = none ∧
    [("type", .num (MultipartReply.readFrom s r).val.type.toNat),
     ("flags", .num (MultipartReply.readFrom s r).val.flags.toNat)] = h ∧
    ∃ ys : List (Nat × σ),
      Collects strict dec zero (MultipartReply.readFrom s r).rd (ys.map fun y => held y.2) none ∧
      (ys.map fun y => said y.1 y.2) = vs

theorem recordsRead_of {σ ν : Type} {E : Err → Prop} {dec : Step σ} {zero : σ} (hs : Safe E dec)
    (he : FailsAll dec zero [] .eof) {rd : Bytes → Option (List ν)} {held : σ → σ} {said : Nat → σ → ν} {P : ν → Prop}
    (h0 : ∀ b vs, rd b = some vs → (∀ v ∈ vs, P v) → ∃ ps : List (Bytes × σ),
      b = (ps.map fun p => (p.1, held p.2)).flatMap (·.1) ∧
      (∀ p ∈ ps.map fun p => (p.1, held p.2), DecodesFrom dec zero p.1 p.2) ∧
      (ps.map fun p => said p.1.length p.2) = vs) : RecordsRead dec zero rd held said P := by
  intro c b h vs hh hv hP s r strict hr hc
  obtain ⟨x, hx, rfl⟩ := multipartReply_understood c h hh
  obtain ⟨h1, _, h3, h4⟩ := hx s r b hr hc
  obtain ⟨ps, c1, c2, c3⟩ := h0 b vs hv hP
  have hok := (MultipartReply.flat.safe (E := ShortErr) s r hr).ok
  refine ⟨h3, by rw [h1], ps.map fun p => (p.1.length, p.2), ?_, by simpa [Function.comp_def] using c3⟩
  have := collects_of hs he strict _ c2 _ hok (by rw [h4, c1])
  simpa [Function.comp_def] using this

theorem recordsRead_list {σ ν : Type} {E : Err → Prop} {dec : Step σ} {zero : σ} (hs : Safe E dec)
    (he : FailsAll dec zero [] .eof) {off : Nat} {f : Bytes → Option ν} {held : σ → σ} {said : Nat → σ → ν} {P : ν → Prop}
    (h1 : ∀ b v, f b = some v → Spec.u16 off b = b.length → P v →
      ∃ x, DecodesFrom dec zero b (held x) ∧ said b.length x = v) :
    RecordsRead dec zero (Spec.list off 1 f) held said P := by
  refine recordsRead_of hs he fun b vs h hP => ?_
  obtain ⟨bs, rfl, h3, h4⟩ := list_split h
  exact parts_of h1 bs vs h4 h3 hP

theorem recordsRead_array {σ ν : Type} {E : Err → Prop} {dec : Step σ} {zero : σ} (hs : Safe E dec)
    (he : FailsAll dec zero [] .eof) {k : Nat} {f : Bytes → Option ν} {said : σ → ν}
    (h1 : Understands dec f said) :
    RecordsRead dec zero (Spec.array k f) id (fun _ => said) (fun _ => True) := by
  refine recordsRead_of hs he fun b vs h hP => ?_
  obtain ⟨bs, rfl, h4⟩ := array_split h
  exact parts_of (held := id) (said := fun _ => said) (P := fun _ => True) (Q := fun _ => True) (fun b v hb _ _ => by
    obtain ⟨x, h2, h3⟩ := h1 b v hb
    exact ⟨x, fun r t => h2 zero r t, h3⟩) bs vs h4 (by simp) hP

theorem EndsEmpty.failsAll {σ : Type} {dec : Step σ} {zero : σ} (h : EndsEmpty dec zero) : FailsAll dec zero [] .eof := by
  intro r hr hc
  obtain ⟨s, r', h1, _⟩ := h.clean r hr hc
  rw [h1]

theorem EndsEmpty.andThen {σ : Type} {st : Step σ} {f : Nat → Step σ} {s : σ} (h : EndsEmpty st s) :
    EndsEmpty (Enc.andThen st f) s := by
  intro F r hr hc
  obtain ⟨s', e, r', h1, h2, h3, h4⟩ := h F r hr hc
  exact ⟨s', e, r', by simp [Enc.andThen, h1], h2, h3, h4⟩

/-! ## The reply is understood -/

/-- Tables: `[]ofp_table_stats`, OFPMP_TABLE. -/
theorem tableStats_records (zero : TableStats) : RecordsRead TableStats.readFrom zero
    (Spec.array 24 (Spec.struct Spec.tableStats)) id (fun _ x =>
      [("table_id", .num x.table.toNat), ("active_count", .num x.activeCount.toNat),
       ("lookup_count", .num x.lookupCount.toNat), ("matched_count", .num x.matchedCount.toNat)]) fun _ => True :=
  recordsRead_array (E := ShortErr) TableStats.flat.safe (EndsEmpty.failsAll (readFrom_eof (k := 1) (by omega) _)) tableStats_understood

/-- Ports: `[]ofp_port_stats`, OFPMP_PORT_STATS. -/
theorem portStats_records (zero : PortStats) : RecordsRead PortStats.readFrom zero
    (Spec.array 112 (Spec.struct Spec.portStats)) id (fun _ x =>
      [("port_no", .num x.portNo.toNat), ("rx_packets", .num x.rxPackets.toNat),
       ("tx_packets", .num x.txPackets.toNat), ("rx_bytes", .num x.rxBytes.toNat),
       ("tx_bytes", .num x.txBytes.toNat), ("rx_dropped", .num x.rxDropped.toNat),
       ("tx_dropped", .num x.txDropped.toNat), ("rx_errors", .num x.rxErrors.toNat),
       ("tx_errors", .num x.txErrors.toNat), ("rx_frame_err", .num x.rxFrameErr.toNat),
       ("rx_over_err", .num x.rxOverErr.toNat), ("rx_crc_err", .num x.rxCrcErr.toNat),
       ("collisions", .num x.collisions.toNat), ("duration_sec", .num x.durationSec.toNat),
       ("duration_nsec", .num x.durationNSec.toNat)]) fun _ => True :=
  recordsRead_array (E := ShortErr) PortStats.flat.safe (EndsEmpty.failsAll (readFrom_eof (k := 4) (by omega) _))
    portStats_understood

/-- Queues: `[]ofp_queue_stats`, OFPMP_QUEUE. -/
theorem queueStats_records (zero : QueueStats) : RecordsRead QueueStats.readFrom zero
    (Spec.array 40 (Spec.struct Spec.queueStats)) id (fun _ x =>
      [("port_no", .num x.port.toNat), ("queue_id", .num x.queue.toNat),
       ("tx_bytes", .num x.txBytes.toNat), ("tx_packets", .num x.txPackets.toNat),
       ("tx_errors", .num x.txErrors.toNat), ("duration_sec", .num x.durationSec.toNat),
       ("duration_nsec", .num x.durationNSec.toNat)]) fun _ => True :=
  recordsRead_array (E := ShortErr) QueueStats.flat.safe (EndsEmpty.failsAll (readFrom_eof (k := 4) (by omega) _))
    queueStats_understood

/-- Descriptions of ports: `[]ofp_port`, OFPMP_PORT_DESC; missing: the end of the name
(`port_understood_false`). -/
theorem port_records_partial (zero : Port) : RecordsRead Port.readFrom zero
    (Spec.array 64 (Spec.struct Spec.port)) id (fun _ p => portSaid { p with name := cstr p.name }) fun _ => True :=
  recordsRead_array (E := ShortErr) Port.flat.safe
    (EndsEmpty.failsAll (EndsEmpty.withLocal (EndsEmpty.always (EndsEmpty.assignCons (readFrom_eof (k := 4) (by omega) _)))))
    port_understood_partial

/-- Flows: `[]ofp_flow_stats`, OFPMP_FLOW; missing: what `flowStats_understood_partial` misses. -/
theorem flowStats_records_partial (zero : FlowStats) : RecordsRead FlowStats.readFrom zero
    (Spec.list 0 1 (Spec.withFlow Spec.flowStatsHead)) id flowStatsSaid
    fun v => NoEmptyMask v.2.1 ∧ ∀ i ∈ v.2.2, i.Known :=
  recordsRead_list FlowStats.readFrom_safe
    (EndsEmpty.failsAll (EndsEmpty.withLocal (EndsEmpty.andThen (readFrom_eof (k := 2) (by omega) _))))
    fun b v h hl hP => by
      obtain ⟨x, h1, h2⟩ := flowStats_understood_partial b v hl h hP.1 hP.2
      exact ⟨x, fun r t => h1 zero r t, h2⟩

/-- Features of tables: `[]ofp_table_features`, OFPMP_TABLE_FEATURES; missing: what
`tableFeatures_understood_partial` misses. -/
theorem tableFeatures_records_partial (zero : TableFeatures) : RecordsRead TableFeatures.readFrom zero
    (Spec.list 0 1 Spec.tableFeatures) id tableFeaturesSaid fun v => ∀ p ∈ v.2, KnownProp p :=
  recordsRead_list TableFeatures.readFrom_safe
    (EndsEmpty.failsAll (EndsEmpty.withLocal (readFrom_eof (k := 2) (by omega) _)))
    fun b v h hl hP => by
      obtain ⟨x, h1, h2⟩ := tableFeatures_understood_partial b v h hl hP
      exact ⟨x, fun r t => h1 zero r t, h2⟩

/-- Groups: `[]ofp_group_stats`, OFPMP_GROUP; missing: the counters of the buckets, which are read
and dropped. -/
theorem groupStats_records_partial (zero : GroupStats) : RecordsRead GroupStats.readFrom zero
    (Spec.list 0 1 Spec.groupStats) (fun g => { g with bucketStats := zero.bucketStats }) (fun n g =>
      ([("length", .num n), ("group_id", .num g.group.toNat),
        ("ref_count", .num g.refCount.toNat), ("packet_count", .num g.packetCount.toNat),
        ("byte_count", .num g.byteCount.toNat), ("duration_sec", .num g.durationSec.toNat),
        ("duration_nsec", .num g.durationNSec.toNat)],
        g.bucketStats.map fun c => [("packet_count", .num c.packetCount.toNat), ("byte_count", .num c.byteCount.toNat)]))
    fun _ => True :=
  recordsRead_list GroupStats.readFrom_safe
    (EndsEmpty.failsAll (EndsEmpty.withLocal (readFrom_eof (k := 2) (by omega) _)))
    fun b v h hl _ => groupStats_understood_partial zero b v h hl

/-- Configurations of meters: `[]ofp_meter_config`, OFPMP_METER_CONFIG; missing: the bands, which are
read and dropped. -/
theorem meterConfig_records_partial (zero : MeterConfig) : RecordsRead MeterConfig.readFrom zero
    (Spec.list 0 1 Spec.meterConfig) (fun m => { m with bands := zero.bands }) (fun n m =>
      ([("length", .num n), ("flags", .num m.flags.toNat), ("meter_id", .num m.meter.toNat)], m.bands.map bandSaid))
    fun _ => True :=
  recordsRead_list MeterConfig.readFrom_safe
    (EndsEmpty.failsAll (EndsEmpty.withLocal (readFrom_eof (k := 2) (by omega) _)))
    fun b v h hl _ => meterConfig_understood_partial zero b v h hl

/-! ## The library's own loop -/

/-- `Ports.ReadFrom` is the program without the stricter test: it ends as the program does, and
without an error it has appended what the program has. -/
theorem ports_collects (s : List Port) (r : Rd) (hr : r.Ok .eof) :
    ∃ xs, Collects false Port.readFrom Port.zero r xs (Ports.readFrom s r).err ∧
      ((Ports.readFrom s r).err = none → (Ports.readFrom s r).val = s ++ xs) := by
  unfold Ports.readFrom
  generalize hn : r.content.length + 1 = fuel
  have hf : r.content.length < fuel := by omega
  clear hn
  generalize (0 : Nat) = n
  induction fuel generalizing s n r with
  | zero => omega
  | succ fuel ih =>
    obtain ⟨h1, h2, h3, h4⟩ := Port.flat Port.zero r hr
    unfold Ports.loop
    rcases hp : Port.readFrom Port.zero r with ⟨p, k, e, r'⟩
    match e, hp with
    | none, hp =>
      have hlen : 64 ≤ r.content.length := Classical.byContradiction fun hc => by
        have := (Port.flat.fixed Port.zero r hr).2 (by omega)
        rw [hp] at this; simp at this
      have hd := ((Port.flat.fixed Port.zero r hr).1 hlen).2.2
      rw [hp] at hd h1
      simp only at hd h1
      obtain ⟨xs, g1, g2⟩ := ih (s ++ [p]) r' h1 (by rw [hd]; simp; omega) (n + k)
      have := Collects.next (strict := false) (dec := Port.readFrom) (zero := Port.zero) r xs _ (by rw [hp]) (by rw [hp]; exact g1)
      rw [hp] at this
      exact ⟨p :: xs, this, fun h => by simpa using g2 h⟩
    | some e, hp =>
      rcases Nat.lt_or_ge r.content.length 64 with hl | hl
      · have := ((Port.flat.fixed Port.zero r hr).2 hl).1
        rw [hp] at this
        rcases this with h | h
        · cases h
          exact ⟨[], .stop r (by rw [hp]) (by simp), by simp⟩
        · cases h
          exact ⟨[], .fail r _ (by rw [hp]) (by simp), by simp⟩
      · have := ((Port.flat.fixed Port.zero r hr).1 hl).1
        rw [hp] at this; simp at this

/-! ## Bodies that are cut off -/

theorem fixed_cut {σ : Type} {dec : Step σ} {k : Nat} (hk : FixedSize dec k) {E : Err → Prop} (hs : Safe E dec)
    (h0 : 0 < k) {zero : σ} (he : FailsAll dec zero [] .eof) (r : Rd) (hr : r.Ok .eof) :
    ∃ xs e, Collects true dec zero r xs e ∧ xs.length = r.content.length / k ∧
      (e = none ↔ r.content.length % k = 0) := by
  generalize hn : r.content.length = n
  induction n using Nat.strongRecOn generalizing r with
  | ind n ih =>
    subst hn
    rcases Nat.lt_or_ge r.content.length k with hlt | hge
    · obtain ⟨h1, h2⟩ := (hk zero r hr).2 hlt
      rw [Nat.div_eq_of_lt hlt, Nat.mod_eq_of_lt hlt]
      rcases Nat.eq_zero_or_pos r.content.length with hz | hz
      · exact ⟨[], none, .stop r (he r hr (List.length_eq_zero_iff.1 hz)) (by simp [h2, hz]), rfl, by simp [hz]⟩
      · rcases h1 with h1 | h1
        · exact ⟨[], some .eof, .fail r _ h1 (by simp [h2]; intro h; simp [h] at hz), rfl, by simp; intro h; simp [h] at hz⟩
        · exact ⟨[], some .unexpectedEOF, .fail r _ h1 (by simp), rfl, by simp; intro h; simp [h] at hz⟩
    · obtain ⟨h1, h2, h3⟩ := (hk zero r hr).1 hge
      obtain ⟨xs, e, g1, g2, g3⟩ := ih (r.content.length - k) (by omega) (dec zero r).rd (hs zero r hr).ok (by rw [h3]; simp)
      refine ⟨_, e, .next r xs e h1 g1, ?_, ?_⟩
      · rw [List.length_cons, g2, Nat.div_eq_sub_div h0 hge]
      · rw [g3, Nat.mod_eq_sub_mod hge]

/-- The stricter test finds every body that is no whole number of records, for records of a fixed
size: the program returns the whole records, and an error if there is more. -/
def CutsReported {σ : Type} (dec : Step σ) (k : Nat) : Prop :=
  ∀ (zero : σ) (r : Rd), r.Ok .eof → ∃ xs e, Collects true dec zero r xs e ∧ xs.length = r.content.length / k ∧
    (e = none ↔ r.content.length % k = 0)

theorem tableStats_cut_reported : CutsReported TableStats.readFrom 24 := fun zero r hr =>
  fixed_cut tableStats_fixed (TableStats.flat.safe (E := ShortErr)) (by omega)
    (EndsEmpty.failsAll (readFrom_eof (k := 1) (by omega) _)) r hr

theorem portStats_cut_reported : CutsReported PortStats.readFrom 112 := fun zero r hr =>
  fixed_cut portStats_fixed (PortStats.flat.safe (E := ShortErr)) (by omega)
    (EndsEmpty.failsAll (readFrom_eof (k := 4) (by omega) _)) r hr

theorem queueStats_cut_reported : CutsReported QueueStats.readFrom 40 := fun zero r hr =>
  fixed_cut QueueStats.flat.fixed (QueueStats.flat.safe (E := ShortErr)) (by omega)
    (EndsEmpty.failsAll (readFrom_eof (k := 4) (by omega) _)) r hr

theorem port_cut_reported : CutsReported Port.readFrom 64 := fun zero r hr =>
  fixed_cut Port.flat.fixed (Port.flat.safe (E := ShortErr)) (by omega)
    (EndsEmpty.failsAll (EndsEmpty.withLocal (EndsEmpty.always (EndsEmpty.assignCons (readFrom_eof (k := 4) (by omega) _))))) r hr

theorem collects_then {σ : Type} {E : Err → Prop} {dec : Step σ} (hs : Safe E dec) {zero : σ} {strict : Bool}
    (ps : List (Bytes × σ)) (h : ∀ p ∈ ps, DecodesFrom dec zero p.1 p.2) (tail : Bytes) {ys : List σ} {e : Option Err}
    (ht : ∀ r : Rd, r.Ok .eof → r.content = tail → Collects strict dec zero r ys e)
    (r : Rd) (hr : r.Ok .eof) (hc : r.content = ps.flatMap (·.1) ++ tail) :
    Collects strict dec zero r (ps.map (·.2) ++ ys) e := by
  induction ps generalizing r with
  | nil => exact ht r hr (by simpa using hc)
  | cons p ps ih =>
    obtain ⟨h1, _, h3, h4⟩ := h p (by simp) r (ps.flatMap (·.1) ++ tail) hr (by simpa using hc)
    have := ih (fun q hq => h q (by simp [hq])) (dec zero r).rd (hs zero r hr).ok h4
    rw [List.map_cons, List.cons_append, ← h1]
    exact .next r _ _ h3 this

/-- Without it a body that ends behind the number of a port is taken for complete, whatever records
come before. -/
theorem portStats_cut_false (zero : PortStats) (xs : List PortStats) (no : UInt32) (r : Rd) (hr : r.Ok .eof)
    (hc : r.content = xs.flatMap (fun x => x.writeTo.out) ++ be no) :
    Collects false PortStats.readFrom zero r xs none := by
  have := collects_then (strict := false) (PortStats.flat.safe (E := ShortErr)) (zero := zero)
    (xs.map fun x => (x.writeTo.out, x)) (by
      intro p hp
      obtain ⟨x, _, rfl⟩ := List.mem_map.1 hp
      exact fun r t => (portStats_roundtrip x).2 zero r t) (be no) (ys := []) (e := none)
    (fun r hr hc => .stop r (FailsAll.cons (Reads.num _) (FailsAll.here (Stops.skip (b := []) (d := 0) (by simp)).failsAll) r hr
      (by simpa using hc)) (by simp)) r hr (by simpa [List.flatMap_map] using hc)
  simpa [Function.comp_def] using this

/-! ## Bodies the program never gets to the end of -/

theorem never_collects {σ : Type} {E : Err → Prop} {dec : Step σ} (hs : Safe E dec) {zero : σ}
    (h : ∀ r : Rd, r.Ok .eof → r.content = [] → (dec zero r).err = none) {strict : Bool} {r : Rd} (hr : r.Ok .eof)
    (hc : r.content = []) (xs : List σ) (e : Option Err) : ¬ Collects strict dec zero r xs e := by
  intro hcol
  induction hcol with
  | stop r h1 _ => rw [h r hr hc] at h1; cases h1
  | fail r e h1 _ => rw [h r hr hc] at h1; cases h1
  | next r xs e _ _ ih =>
    obtain ⟨⟨m, _, h2⟩, hok, _⟩ := hs zero r hr
    have := h2.content.2
    exact ih hok (by rw [this, hc]; simp)

theorem never_of {σ : Type} {E : Err → Prop} {dec : Step σ} (hs : Safe E dec) {zero : σ}
    (h : ∀ r : Rd, r.Ok .eof → r.content = [] → (dec zero r).err = none) {strict : Bool}
    (ps : List (Bytes × σ)) (hp : ∀ p ∈ ps, DecodesFrom dec zero p.1 p.2) (r : Rd) (hr : r.Ok .eof)
    (hc : r.content = ps.flatMap (·.1)) (xs : List σ) (e : Option Err) : ¬ Collects strict dec zero r xs e := by
  induction ps generalizing r xs with
  | nil => exact never_collects hs h hr hc xs e
  | cons p ps ih =>
    obtain ⟨_, _, h3, h4⟩ := hp p (by simp) r (ps.flatMap (·.1)) hr (by simpa using hc)
    intro hcol
    cases hcol with
    | stop _ h1 _ => rw [h3] at h1; cases h1
    | fail _ e h1 _ => rw [h3] at h1; cases h1
    | next _ xs _ _ h5 => exact ih (fun q hq => hp q (by simp [hq])) _ (hs zero r hr).ok h4 xs h5

theorem parts_some {σ ν : Type} {dec : Step σ} {zero : σ} {f : Bytes → Option ν} {Q : Bytes → Prop} {P : ν → Prop}
    (h1 : ∀ b v, f b = some v → Q b → P v → ∃ x, DecodesFrom dec zero b x)
    (bs : List Bytes) (vs : List ν) (h : Spec.each f bs = some vs) (hQ : ∀ b ∈ bs, Q b) (hP : ∀ v ∈ vs, P v) :
    ∃ ps : List (Bytes × σ), bs.flatten = ps.flatMap (·.1) ∧ ∀ p ∈ ps, DecodesFrom dec zero p.1 p.2 := by
  induction bs generalizing vs with
  | nil => exact ⟨[], rfl, by simp⟩
  | cons b bs ih =>
    obtain ⟨v, vs', rfl, h2, h3⟩ := Spec.each_cons_inv h
    obtain ⟨x, a1⟩ := h1 b v h2 (hQ b (by simp)) (hP v (by simp))
    obtain ⟨ps, c1, c2⟩ := ih vs' h3 (fun c hc => hQ c (by simp [hc])) (fun w hw => hP w (by simp [hw]))
    refine ⟨(b, x) :: ps, by simp [c1], ?_⟩
    intro p hp
    rcases List.mem_cons.1 hp with rfl | hp
    · exact a1
    · exact c2 p hp

/-- Counters of meters: `[]ofp_meter_stats`, OFPMP_METER.  The decoder hides the end of the body, so the
program returns for no body at all, with either test. -/
theorem meterStats_records_false (zero : MeterStats) (strict : Bool) (b : Bytes) (vs : List (Spec.Record × List Spec.Record))
    (h : Spec.list 4 1 Spec.meterStats b = some vs) (r : Rd) (hr : r.Ok .eof) (hc : r.content = b)
    (xs : List MeterStats) (e : Option Err) : ¬ Collects strict MeterStats.readFrom zero r xs e := by
  obtain ⟨bs, rfl, h3, h4⟩ := list_split h
  obtain ⟨ps, c1, c2⟩ := parts_some (dec := MeterStats.readFrom) (zero := zero) (P := fun _ => True) (fun b v hb hl _ => by
    obtain ⟨x, hx, _⟩ := meterStats_understood_partial zero b v hb hl
    exact ⟨_, hx⟩) bs vs h4 h3 (by simp)
  exact never_of MeterStats.readFrom_safe (fun r hr hc => (meterStats_missing_unreported zero r hr (by simp [hc])).1)
    _ c2 r hr (hc.trans c1) xs e

/-- Descriptions of groups: `[]ofp_group_desc`, OFPMP_GROUP_DESC: the same. -/
theorem groupDescStats_records_false (zero : GroupDescStats) (strict : Bool) (b : Bytes)
    (vs : List (Spec.Record × List (Spec.Record × List Spec.Action)))
    (h : Spec.list 0 1 Spec.groupDesc b = some vs) (hk : ∀ v ∈ vs, ∀ c ∈ v.2, ∀ a ∈ c.2, a.Known)
    (r : Rd) (hr : r.Ok .eof) (hc : r.content = b)
    (xs : List GroupDescStats) (e : Option Err) : ¬ Collects strict GroupDescStats.readFrom zero r xs e := by
  obtain ⟨bs, rfl, h3, h4⟩ := list_split h
  obtain ⟨ps, c1, c2⟩ := parts_some (dec := GroupDescStats.readFrom) (zero := zero) (fun b v hb hl hP => by
    obtain ⟨x, hx, _⟩ := groupDescStats_understood_partial zero b v hb hl hP
    exact ⟨_, hx⟩) bs vs h4 h3 hk
  exact never_of GroupDescStats.readFrom_safe
    (fun r hr hc => (groupDescStats_missing_unreported zero r hr (by simp [hc])).1) _ c2 r hr (hc.trans c1) xs e

theorem many_of {σ : Type} {E : Err → Prop} {dec : Step σ} (hs : Safe E dec) {zero : σ} (ps : List (Bytes × σ))
    (h : ∀ p ∈ ps, DecodesFrom dec zero p.1 p.2) (r : Rd) (tail : Bytes) (hr : r.Ok .eof)
    (hc : r.content = ps.flatMap (·.1) ++ tail) :
    (decodeMany dec zero ps.length r).1 = ps.map (·.2) ∧ (decodeMany dec zero ps.length r).2.content = tail := by
  induction ps generalizing r with
  | nil => exact ⟨rfl, by simpa [decodeMany] using hc⟩
  | cons p ps ih =>
    obtain ⟨h1, _, h3, h4⟩ := h p (by simp) r (ps.flatMap (·.1) ++ tail) hr (by simpa using hc)
    have hok := (hs zero r hr).ok
    rcases hd : dec zero r with ⟨x, k, e, r'⟩
    rw [hd] at h1 h3 h4 hok
    simp only at h1 h3 h4 hok
    subst h1 h3
    have := ih (fun q hq => h q (by simp [hq])) r' hok h4
    simp [decodeMany, hd, this]

/-- A program that knows how many meters there are, or stops when the body is used up, has all of them;
missing: the counters of the bands, which are read and dropped, and the program above. -/
theorem meterStats_records_partial (zero : MeterStats) (b tail : Bytes) (vs : List (Spec.Record × List Spec.Record))
    (h : Spec.list 4 1 Spec.meterStats b = some vs) (r : Rd) (hr : r.Ok .eof) (hc : r.content = b ++ tail) :
    ∃ ys : List (Nat × MeterStats),
      (decodeMany MeterStats.readFrom zero vs.length r).1 = (ys.map fun y => { y.2 with bandStats := zero.bandStats }) ∧
      (decodeMany MeterStats.readFrom zero vs.length r).2.content = tail ∧
      (ys.map fun y => ([("meter_id", .num y.2.meter.toNat), ("len", .num y.1),
        ("flow_count", .num y.2.flowCount.toNat), ("packet_in_count", .num y.2.packetInCount.toNat),
        ("byte_in_count", .num y.2.byteInCount.toNat), ("duration_sec", .num y.2.durationSec.toNat),
        ("duration_nsec", .num y.2.durationNSec.toNat)], y.2.bandStats.map fun c =>
          [("packet_band_count", .num c.packetBandCount.toNat), ("byte_band_count", .num c.byteBandCount.toNat)])) = vs := by
  obtain ⟨bs, rfl, h3, h4⟩ := list_split h
  obtain ⟨ps, c1, c2, c3⟩ := parts_of (dec := MeterStats.readFrom) (zero := zero)
    (held := fun m => { m with bandStats := zero.bandStats })
    (said := fun n m => ([("meter_id", .num m.meter.toNat), ("len", .num n),
        ("flow_count", .num m.flowCount.toNat), ("packet_in_count", .num m.packetInCount.toNat),
        ("byte_in_count", .num m.byteInCount.toNat), ("duration_sec", .num m.durationSec.toNat),
        ("duration_nsec", .num m.durationNSec.toNat)], m.bandStats.map fun c =>
          [("packet_band_count", .num c.packetBandCount.toNat), ("byte_band_count", .num c.byteBandCount.toNat)]))
    (P := fun _ => True) (fun b v hb hl _ => meterStats_understood_partial zero b v hb hl) bs vs h4 h3 (by simp)
  have hl : vs.length = (ps.map fun p => (p.1, ({ p.2 with bandStats := zero.bandStats } : MeterStats))).length := by
    rw [← c3]; simp
  have := many_of MeterStats.readFrom_safe _ c2 r tail hr (by rw [hc, c1])
  rw [← hl] at this
  exact ⟨ps.map fun p => (p.1.length, p.2), by simpa [Function.comp_def] using this.1, this.2,
    by simpa [Function.comp_def] using c3⟩

/-- The same for groups; missing: the buckets, which are read and dropped, and the program above. -/
theorem groupDescStats_records_partial (zero : GroupDescStats) (b tail : Bytes)
    (vs : List (Spec.Record × List (Spec.Record × List Spec.Action)))
    (h : Spec.list 0 1 Spec.groupDesc b = some vs) (hk : ∀ v ∈ vs, ∀ c ∈ v.2, ∀ a ∈ c.2, a.Known)
    (r : Rd) (hr : r.Ok .eof) (hc : r.content = b ++ tail) :
    ∃ ys : List (Nat × GroupDescStats),
      (decodeMany GroupDescStats.readFrom zero vs.length r).1 = (ys.map fun y => { y.2 with buckets := zero.buckets }) ∧
      (decodeMany GroupDescStats.readFrom zero vs.length r).2.content = tail ∧
      (ys.map fun y => ([("length", .num y.1), ("type", .num y.2.type.toNat), ("group_id", .num y.2.group.toNat)],
        y.2.buckets.map bucketSaid)) = vs := by
  obtain ⟨bs, rfl, h3, h4⟩ := list_split h
  obtain ⟨ps, c1, c2, c3⟩ := parts_of (dec := GroupDescStats.readFrom) (zero := zero)
    (held := fun g => { g with buckets := zero.buckets })
    (said := fun n g => ([("length", .num n), ("type", .num g.type.toNat), ("group_id", .num g.group.toNat)],
        g.buckets.map bucketSaid))
    (fun b v hb hl hP => groupDescStats_understood_partial zero b v hb hl hP) bs vs h4 h3 hk
  have hl : vs.length = (ps.map fun p => (p.1, ({ p.2 with buckets := zero.buckets } : GroupDescStats))).length := by
    rw [← c3]; simp
  have := many_of GroupDescStats.readFrom_safe _ c2 r tail hr (by rw [hc, c1])
  rw [← hl] at this
  exact ⟨ps.map fun p => (p.1.length, p.2), by simpa [Function.comp_def] using this.1, this.2,
    by simpa [Function.comp_def] using c3⟩

/-! ## Cases -/

private theorem readsSome {α : Type} {o : Option α} {P : α → Prop} [DecidablePred P]
    (h : o.any (fun v => decide (P v)) = true) : ∃ v, o = some v ∧ P v := by
  cases o <;> simp_all

example : ∃ h vs, Spec.struct Spec.multipart [0, 3, 0, 1, 9, 9, 9, 9] = some h ∧
    Spec.array 24 (Spec.struct Spec.tableStats)
      ([1, 9, 9, 9, 0, 0, 0, 5] ++ zeros 16 ++ ([2, 9, 9, 9, 0, 0, 0, 6] ++ zeros 16)) = some vs ∧
    h.lookup "type" = some (.num 3) ∧ vs.map (fun v => v.lookup "active_count") = [some (.num 5), some (.num 6)] :=
  ⟨[("type", .num 3), ("flags", .num 1)],
    [[("table_id", .num 1), ("active_count", .num 5), ("lookup_count", .num 0), ("matched_count", .num 0)],
     [("table_id", .num 2), ("active_count", .num 6), ("lookup_count", .num 0), ("matched_count", .num 0)]],
    by decide +kernel, by decide +kernel, rfl, rfl⟩

/-- Two flows of 56 bytes, each with an empty match and no instructions. -/
private def twoFlows : Bytes :=
  [0, 56, 1, 9] ++ zeros 44 ++ [0, 1, 0, 4, 9, 9, 9, 9] ++ ([0, 56, 2, 9] ++ zeros 44 ++ [0, 1, 0, 4, 9, 9, 9, 9])

example : ∃ vs, Spec.list 0 1 (Spec.withFlow Spec.flowStatsHead) twoFlows = some vs ∧ vs.length = 2 ∧
    ∀ v ∈ vs, NoEmptyMask v.2.1 ∧ ∀ i ∈ v.2.2, i.Known :=
  readsSome (by decide +kernel)

example : ∃ vs, Spec.list 0 1 Spec.groupStats ([0, 56] ++ zeros 38 ++ zeros 16 ++ ([0, 40] ++ zeros 38)) = some vs ∧
    vs.map (fun v => v.2.length) = [1, 0] :=
  readsSome (by decide +kernel)

example : ∃ vs, Spec.list 0 1 Spec.meterConfig ([0, 24, 0, 1, 0, 0, 0, 1] ++ [0, 2, 0, 16, 0, 0, 0, 5, 0, 0, 0, 6, 7, 9, 9, 9] ++
    [0, 8, 0, 1, 0, 0, 0, 2]) = some vs ∧ vs.map (fun v => v.2.length) = [1, 0] :=
  readsSome (by decide +kernel)

example : ∃ vs, Spec.list 4 1 Spec.meterStats ([0, 0, 0, 1, 0, 56] ++ zeros 34 ++ zeros 16 ++ ([0, 0, 0, 2, 0, 40] ++ zeros 34)) =
    some vs ∧ vs.map (fun v => v.2.length) = [1, 0] :=
  readsSome (by decide +kernel)

example : ∃ vs, Spec.list 0 1 Spec.groupDesc ([0, 8, 1, 9, 0, 0, 0, 7] ++ [0, 8, 1, 9, 0, 0, 0, 8]) = some vs ∧ vs.length = 2 ∧
    ∀ v ∈ vs, ∀ c ∈ v.2, ∀ a ∈ c.2, a.Known :=
  readsSome (by decide +kernel)

/-- A reader that hands out a reply in two pieces. -/
example : let r : Rd := .src (([0, 3, 0, 1, 9, 9, 9, 9] ++ [1, 9, 9, 9, 0, 0, 0, 5] ++ zeros 16) : Bytes) [5] .eof false
    r.Ok .eof ∧ r.content.length = 32 := by
  simp [Rd.Ok, Rd.content, zeros]

end Verif.Props
