import Verif.EncodingSafe
import Verif.Ofp.Fixed
import Verif.Ofp.Flow
import Verif.Ofp.Group
import Verif.Ofp.Hello
import Verif.Ofp.Meter
import Verif.Ofp.Packet
import Verif.Ofp.Port
import Verif.Ofp.Queue
import Verif.Ofp.Raw
import Verif.Ofp.Table

/-!
# Decoders that report exactly what they consumed, on any input

`Counts` (see `Verif.Encoding`) for every decoder that does not go through a `bufio.Reader`.
-/

namespace Verif

variable {σ τ : Type}

theorem Flat.counts {st : Step σ} {k : Nat} (h : Flat st k) : Counts st := fun s r hr =>
  let h := h s r hr
  ⟨h.2.1, h.1⟩

theorem Counts.bin {k : Nat} {set : Bytes → σ → σ} : Counts (Enc.bin k set) := Flat.bin.counts
theorem Counts.num {α : Type} [Wire α] {set : α → σ → σ} : Counts (Enc.num set) := Flat.num.counts
theorem Counts.skip {k : Nat} : Counts (Enc.skip (σ := σ) k) := Flat.skip.counts
theorem Counts.nil : Counts (Enc.readFrom (σ := σ) []) := Flat.nil.counts
theorem Counts.assign {f : σ → σ} : Counts (Enc.assign f) := Flat.assign.counts

theorem Counts.cons {st : Step σ} {t : List (Step σ)} (h1 : Counts st)
    (h2 : Counts (Enc.readFrom t)) : Counts (Enc.readFrom (st :: t)) := by
  intro s r hr
  obtain ⟨a1, o1⟩ := h1 s r hr
  rcases hst : st s r with ⟨v, n, e, r1⟩
  rw [hst] at a1 o1
  simp only at a1 o1
  cases e with
  | some e => simp only [Enc.readFrom, hst]; exact ⟨a1, o1⟩
  | none =>
    obtain ⟨a2, o2⟩ := h2 v r1 o1
    simp only [Enc.readFrom, hst]
    exact ⟨a1.trans a2, o2⟩

theorem Counts.andThen {st : Step σ} {f : Nat → Step σ} (h1 : Counts st)
    (h2 : ∀ n, Counts (f n)) : Counts (Enc.andThen st f) := by
  intro s r hr
  obtain ⟨a1, o1⟩ := h1 s r hr
  rcases hst : st s r with ⟨v, n, e, r1⟩
  rw [hst] at a1 o1
  simp only at a1 o1
  cases e with
  | some e => simp only [Enc.andThen, hst]; exact ⟨a1, o1⟩
  | none =>
    obtain ⟨a2, o2⟩ := h2 n v r1 o1
    simp only [Enc.andThen, hst]
    exact ⟨a1.trans a2, o2⟩

theorem Counts.sub {get : σ → τ} {set : τ → σ → σ} {st : Step τ} (h : Counts st) :
    Counts (Enc.sub get set st) := fun s r hr => h (get s) r hr

theorem Counts.subVal {get : σ → τ} {st : Step τ} (h : Counts st) :
    Counts (Enc.subVal get st) := fun s r hr => h (get s) r hr

theorem Counts.dyn {f : σ → Step σ} (h : ∀ s, Counts (f s)) : Counts (Enc.dyn f) :=
  fun s r hr => h s s r hr

theorem Counts.withLocal {l : Type} {init : l} {st : Step (σ × l)} (h : Counts st) :
    Counts (Enc.withLocal init st) := fun s r hr => h (s, init) r hr

theorem Counts.always {f : σ → σ} {st : Step σ} (h : Counts st) : Counts (Enc.always f st) :=
  fun s r hr => h s r hr

theorem Counts.ignoreErr {st : Step σ} (h : Counts st) : Counts (Enc.ignoreErr st) :=
  fun s r hr => h s r hr

theorem Counts.limited {n : Nat} {st : Step σ} (h : Counts st) : Counts (Enc.limited n st) := by
  intro s r hr
  obtain ⟨a, o⟩ := h s (.lim n r) ⟨rfl, hr⟩
  exact ⟨a.unlimit, o.unlimit a⟩

theorem Counts.rest {set : Bytes → σ → σ} : Counts (Enc.rest set) := by
  intro s r hr
  obtain ⟨r', h1, h2, h3⟩ := readAll_spec .eof r hr
  simp only [Enc.rest, h1]
  exact ⟨h2, h3⟩

theorem Counts.rest0 {set : Bytes → σ → σ} : Counts (Enc.rest0 set) := by
  intro s r hr
  obtain ⟨r', h1, h2, h3⟩ := readAll_spec .eof r hr
  simp only [Enc.rest0, h1, skipEOF]
  exact ⟨h2, h3⟩

theorem Counts.readAllXM (p : Bool) : Counts (Verif.readAllXM p) := by
  intro s r hr
  obtain ⟨r', h1, h2, h3⟩ := readAll_spec .eof r hr
  simp only [Verif.readAllXM, h1, skipEOF]
  exact ⟨h2, h3⟩

theorem readFuncLoop_counts {zero : τ} {st : Step τ} (hs : Counts st) (hm : Moves st) :
    ∀ (fuel : Nat) (acc : List τ) (n : Nat) (r0 r : Rd), r.Ok .eof → Rd.Adv n r0 r →
      r.content.length < fuel →
      Rd.Adv (Enc.readFuncLoop zero st fuel acc n r).n r0 (Enc.readFuncLoop zero st fuel acc n r).rd ∧
        (Enc.readFuncLoop zero st fuel acc n r).rd.Ok .eof := by
  intro fuel
  induction fuel with
  | zero => intro acc n r0 r hr ha hf; omega
  | succ fuel ih =>
    intro acc n r0 r hr ha hf
    obtain ⟨a1, o1⟩ := hs zero r hr
    have hmv := hm zero r hr
    rcases hst : st zero r with ⟨v, n1, e, r1⟩
    rw [hst] at a1 o1 hmv
    simp only at a1 o1 hmv
    cases e with
    | some e =>
      simp only [Enc.readFuncLoop, hst]
      exact ⟨ha.trans a1, o1⟩
    | none =>
      simp only [Enc.readFuncLoop, hst]
      have hl : r1.content.length = r.content.length - n1 := by rw [a1.content.2]; simp
      have := a1.content.1
      exact ih _ _ r0 r1 o1 (ha.trans a1) (by have := hmv rfl; omega)

theorem Counts.readSliceFrom {zero : τ} {st : Step τ} (hs : Counts st) (hm : Moves st) :
    Counts (Enc.readSliceFrom zero st) := fun _ r hr =>
  readFuncLoop_counts (zero := zero) hs hm (r.content.length + 1) [] 0 r r hr (Rd.Adv.refl r) (by omega)

/-- Proves `Counts` of a combination of steps; facts about the named decoders are taken from
the context. -/
macro "counts" : tactic => `(tactic|
  with_reducible repeat' first
    | assumption
    | exact Counts.nil
    | exact Counts.assign
    | exact Counts.rest
    | exact Counts.rest0
    | exact Counts.num
    | exact Counts.skip
    | exact Counts.bin
    | exact Counts.readAllXM _
    | apply Counts.cons
    | apply Counts.withLocal
    | apply Counts.sub
    | apply Counts.subVal
    | apply Counts.always
    | apply Counts.ignoreErr
    | apply Counts.limited
    | (refine Counts.andThen ?_ (fun _ => ?_))
    | (apply Counts.dyn; intro _))

theorem XM.read_counts (p : Bool) : Counts (XM.read p) := by
  refine Counts.withLocal ?_
  refine Counts.cons Counts.num ?_
  refine Counts.cons Counts.num ?_
  refine Counts.cons Counts.num ?_
  refine Counts.cons Counts.assign ?_
  refine Counts.cons ?_ ?_
  · cases p
    · exact Counts.assign
    · simp only [if_true]; exact Counts.dyn fun s => Counts.bin
  · exact Counts.cons Counts.assign Counts.nil

theorem Match.readFrom_counts : Counts Match.readFrom := by unfold Match.readFrom; counts

theorem setField_counts : Counts setField.readFrom := by
  have h1 : Counts actionHeader.readFrom := actionHeader.flat.counts
  have h2 : Counts XM.readFrom := XM.read_counts true
  unfold setField.readFrom; counts

theorem Action.readFrom_counts : Counts Action.readFrom := by
  intro a r hr
  have h1 : ∀ {σ : Type}, Counts (skipActionHeader (σ := σ)) := fun {σ} => Counts.subVal actionHeader.flat.counts
  have h1' := @h1 (UInt32 × UInt16)
  have h2 := @h1 UInt8
  have h3 := setField_counts
  cases a <;> simp only [Action.readFrom] <;> refine (?_ : Counts _) _ r hr <;> counts

theorem PacketIn.readFrom_counts : Counts PacketIn.readFrom := by
  have h1 := Match.readFrom_counts
  unfold PacketIn.readFrom; counts

theorem FlowRemoved.readFrom_counts : Counts FlowRemoved.readFrom := by
  have h1 := Match.readFrom_counts
  unfold FlowRemoved.readFrom; counts

theorem FlowStatsRequest.readFrom_counts : Counts FlowStatsRequest.readFrom := by
  have h1 := Match.readFrom_counts
  unfold FlowStatsRequest.readFrom; counts

theorem AggregateStatsRequest.readFrom_counts : Counts AggregateStatsRequest.readFrom := by
  have h1 := Match.readFrom_counts
  unfold AggregateStatsRequest.readFrom; counts

theorem GroupStats.readFrom_counts : Counts GroupStats.readFrom := by
  have h1 : Counts (Enc.readSliceFrom ⟨0, 0⟩ BucketCounter.readFrom) :=
    Counts.readSliceFrom BucketCounter.flat.counts (BucketCounter.flat.moves (by omega))
  unfold GroupStats.readFrom; counts

theorem MeterStats.readFrom_counts : Counts MeterStats.readFrom := by
  have h1 : Counts (Enc.readSliceFrom ⟨0, 0⟩ MeterBandStats.readFrom) :=
    Counts.readSliceFrom MeterBandStats.flat.counts (MeterBandStats.flat.moves (by omega))
  have h2 : Counts MeterStats.header := MeterStats.header_flat.counts
  unfold MeterStats.readFrom; counts

theorem HelloElem.readFrom_counts : Counts HelloElem.readFrom := by
  intro a r hr
  cases a; simp only [HelloElem.readFrom]; refine (?_ : Counts _) _ r hr
  unfold HelloElem.readBitmap; counts

theorem QueueProp.readFrom_counts : Counts QueueProp.readFrom := by
  intro a r hr
  cases a <;> simp only [QueueProp.readFrom] <;> refine (?_ : Counts _) _ r hr
  · unfold QueueProp.readRate; counts
  · unfold QueueProp.readRate; counts
  · unfold QueueProp.readExperimenter; counts

theorem readTypeCodes_counts : Counts (readTypeCodes actionHeader.readFrom) := fun _ r hr =>
  readFuncLoop_counts (zero := (0, 0)) actionHeader.flat.counts (actionHeader.flat.moves (by omega))
    (r.content.length + 1) [] 0 r r hr (Rd.Adv.refl r) (by omega)

theorem TableProp.readFrom_counts : Counts TableProp.readFrom := by
  have h1 : Counts (readTablePropCodes actionHeader.readFrom) := by
    have h := readTypeCodes_counts
    unfold readTablePropCodes yieldTableProp; counts
  have h2 : Counts readNextTables := by unfold readNextTables yieldTableProp; counts
  have h3 : ∀ hm, Counts (readTablePropXM hm) := by
    intro hm; unfold readTablePropXM yieldTableProp; counts
  have h4 : Counts readTablePropExperimenter := by unfold readTablePropExperimenter; counts
  intro p r hr
  cases p
  · exact h1 _ r hr
  · exact h2 _ r hr
  · exact h1 _ r hr
  · exact h1 _ r hr
  · exact h3 _ _ r hr
  · exact h3 _ _ r hr
  · exact h3 _ _ r hr
  · exact h3 _ _ r hr
  · exact h4 _ r hr

theorem PortMod.readFrom_counts : Counts PortMod.readFrom := by unfold PortMod.readFrom; counts

theorem EchoRequest.readFrom_counts : Counts EchoRequest.readFrom := Counts.rest0
theorem EchoReply.readFrom_counts : Counts EchoReply.readFrom := Counts.rest0
theorem OfpError.readFrom_counts : Counts OfpError.readFrom := by unfold OfpError.readFrom; counts
theorem ErrorExperimenter.readFrom_counts : Counts ErrorExperimenter.readFrom := by
  unfold ErrorExperimenter.readFrom; counts
theorem MultipartRequest.readFrom_counts : Counts MultipartRequest.readFrom := by
  unfold MultipartRequest.readFrom; counts

theorem Ports.loop_counts : ∀ (fuel : Nat) (acc : List Port) (n : Nat) (r0 r : Rd),
    r.Ok .eof → Rd.Adv n r0 r → r.content.length < fuel →
    Rd.Adv (Ports.loop fuel acc n r).n r0 (Ports.loop fuel acc n r).rd ∧
      (Ports.loop fuel acc n r).rd.Ok .eof := by
  intro fuel
  induction fuel with
  | zero => intro acc n r0 r _ _ h; omega
  | succ fuel ih =>
    intro acc n r0 r hr ha hf
    obtain ⟨h1, h2, h3, h4⟩ := Port.flat Port.zero r hr
    rcases ho : Port.readFrom Port.zero r with ⟨v, k, ee, r'⟩
    rw [ho] at h1 h2 h3 h4
    simp only at h1 h2 h3 h4
    by_cases hk : 64 ≤ r.content.length
    · obtain ⟨h5, h6⟩ := h3 hk
      subst h5
      have hl : r'.content.length = r.content.length - k := by rw [h2.content.2]; simp
      have := ih (acc ++ [v]) (n + k) r0 r' h1 (ha.trans h2) (by omega)
      simpa [Ports.loop, ho] using this
    · obtain ⟨⟨e, h5, h6⟩, h7⟩ := h4 (by omega)
      subst h5
      rcases h6 with h6 | h6 <;> subst h6 <;> simp only [Ports.loop, ho] <;> exact ⟨ha.trans h2, h1⟩

theorem Ports.readFrom_counts : Counts Ports.readFrom := fun s r hr =>
  Ports.loop_counts _ s 0 r r hr (Rd.Adv.refl r) (by omega)

end Verif
