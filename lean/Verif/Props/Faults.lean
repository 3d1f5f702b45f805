import Verif.Spec.Wire
import Verif.Ofp.Fixed
import Verif.Ofp.Raw
import Verif.Ofp.Port

/-!
# Property C58: a stream that breaks is reported

Readers here end with an error `F` other than `io.EOF`: a connection that was reset, an
expired deadline.  The decoders below read the stream they are given directly (without an
`io.LimitReader` or look-ahead), so the error they see is the error of the stream.
-/

namespace Verif

/-- A fixed-size record of `k` bytes on a stream that ends with `F`. -/
def Breaks {σ : Type} (st : Step σ) (k : Nat) : Prop :=
  ∀ (F : Err) (s : σ) (r : Rd), F ≠ .eof → r.Ok F →
    (st s r).rd.Ok F ∧ Rd.Adv (st s r).n r (st s r).rd ∧
    (k ≤ r.content.length → (st s r).err = none ∧ (st s r).n = k) ∧
    (r.content.length < k → (st s r).err = some F ∧ (st s r).n = r.content.length)

section
variable {σ τ : Type}

theorem Breaks.bin {k : Nat} {set : Bytes → σ → σ} : Breaks (Enc.bin k set) k := by
  intro F s r hF hr
  rcases readFull_spec F k r hr with ⟨hk, r', h1, h2, h3⟩ | ⟨hk, r', h1, h2, h3⟩
  · have hl : (List.take k r.content).length = k := by simp; omega
    simp only [Enc.bin, h1, hl]
    exact ⟨h3, h2, fun _ => by simp, fun h => by omega⟩
  · simp only [Enc.bin, h1]
    exact ⟨h3, h2, fun h => by omega, fun _ => ⟨by simp [shortErr, hF], by trivial⟩⟩

theorem Breaks.num {α : Type} [Wire α] {set : α → σ → σ} : Breaks (Enc.num set) (Wire.size α) :=
  Breaks.bin
theorem Breaks.skip {k : Nat} : Breaks (Enc.skip (σ := σ) k) k := Breaks.bin
theorem Breaks.pair32 {set : UInt32 × UInt32 → σ → σ} : Breaks (Enc.pair32 set) 8 := Breaks.bin
theorem Breaks.quad32 {set : UInt32 × UInt32 × UInt32 × UInt32 → σ → σ} : Breaks (Enc.quad32 set) 16 :=
  Breaks.bin

theorem Breaks.nil : Breaks (Enc.readFrom (σ := σ) []) 0 := by
  intro F s r _ hr
  simp only [Enc.readFrom]
  exact ⟨hr, Rd.Adv.refl r, by simp, by simp⟩

theorem Breaks.cons {st : Step σ} {t : List (Step σ)} {a b : Nat} (h1 : Breaks st a)
    (h2 : Breaks (Enc.readFrom t) b) : Breaks (Enc.readFrom (st :: t)) (a + b) := by
  intro F s r hF hr
  obtain ⟨o1, a1, ok1, sh1⟩ := h1 F s r hF hr
  have hlen := a1.content
  by_cases ha : a ≤ r.content.length
  · obtain ⟨he, hn⟩ := ok1 ha
    rcases hst : st s r with ⟨v, n, e, r1⟩
    rw [hst] at he hn o1 a1 hlen
    simp only at he hn o1 a1 hlen
    subst he; subst hn
    have hl : r1.content.length = r.content.length - n := by rw [hlen.2]; simp
    obtain ⟨o2, a2, ok2, sh2⟩ := h2 F v r1 hF o1
    simp only [Enc.readFrom, hst]
    refine ⟨o2, a1.trans a2, ?_, ?_⟩
    · intro hk
      obtain ⟨h3, h4⟩ := ok2 (by omega)
      exact ⟨h3, by omega⟩
    · intro hk
      obtain ⟨h3, h4⟩ := sh2 (by omega)
      exact ⟨h3, by omega⟩
  · obtain ⟨he, hn⟩ := sh1 (by omega)
    rcases hst : st s r with ⟨v, n, e, r1⟩
    rw [hst] at he hn o1 a1 hlen
    simp only at he hn o1 a1 hlen
    subst he
    simp only [Enc.readFrom, hst]
    exact ⟨o1, a1, fun h => by omega, fun _ => ⟨by trivial, hn⟩⟩

theorem Breaks.sub {get : σ → τ} {set : τ → σ → σ} {st : Step τ} {k : Nat} (h : Breaks st k) :
    Breaks (Enc.sub get set st) k := fun F s r hF hr => h F (get s) r hF hr

theorem Breaks.withLocal {l : Type} {init : l} {st : Step (σ × l)} {k : Nat} (h : Breaks st k) :
    Breaks (Enc.withLocal init st) k := fun F s r hF hr => h F (s, init) r hF hr

theorem Breaks.assign {f : σ → σ} : Breaks (Enc.assign f) 0 := by
  intro F s r _ hr
  exact ⟨hr, Rd.Adv.refl r, by simp [Enc.assign], by simp⟩

theorem Breaks.always {f : σ → σ} {st : Step σ} {k : Nat} (h : Breaks st k) :
    Breaks (Enc.always f st) k := fun F s r hF hr => h F s r hF hr

end

namespace Props

/-- On a stream that ends with any error `F` other than `io.EOF`: with at least `k` bytes the
decoder succeeds, with fewer it returns `F` itself, never success and never an end-of-input
error, and reports all the bytes there were. -/
def ReportsFault {σ : Type} (dec : Step σ) (k : Nat) : Prop :=
  ∀ (F : Err) (s : σ) (r : Rd), F ≠ .eof → r.Ok F →
    (k ≤ r.content.length → (dec s r).err = none ∧ (dec s r).n = k ∧
      (dec s r).rd.content = r.content.drop k) ∧
    (r.content.length < k → (dec s r).err = some F ∧ (dec s r).n = r.content.length)

/-- The same for messages whose payload extends to the end of the stream: a broken stream is
never taken for the end of the payload. -/
def ReportsFaultAlways {σ : Type} (dec : Step σ) : Prop :=
  ∀ (F : Err) (s : σ) (r : Rd), F ≠ .eof → r.Ok F → (dec s r).err = some F

/-- A connection that is reset after five bytes. -/
private def broken : Rd := .src [0, 4, 0, 9, 7] [1, 0] (.io 7) true

example : broken.Ok (.io 7) ∧ Err.io 7 ≠ .eof ∧ broken.content.length = 5 := ⟨rfl, by decide, rfl⟩

private theorem reports {σ : Type} {dec : Step σ} {k : Nat} (h : Breaks dec k) : ReportsFault dec k := by
  intro F s r hF hr
  obtain ⟨_, h2, h3, h4⟩ := h F s r hF hr
  refine ⟨fun hk => ⟨(h3 hk).1, (h3 hk).2, ?_⟩, h4⟩
  rw [h2.content.2, (h3 hk).2]

private theorem rest_fault {σ : Type} {set : Bytes → σ → σ} : ReportsFaultAlways (Enc.rest set) := by
  intro F s r hF hr
  obtain ⟨r', h1, _⟩ := readAll_spec F r hr
  cases F <;> simp_all [Enc.rest, skipEOF]

private theorem rest0_fault {σ : Type} {set : Bytes → σ → σ} : ReportsFaultAlways (Enc.rest0 set) := by
  intro F s r hF hr
  obtain ⟨r', h1, _⟩ := readAll_spec F r hr
  cases F <;> simp_all [Enc.rest0, skipEOF]

private theorem last_fault {σ : Type} {st : Step σ} (h : ReportsFaultAlways st) :
    ReportsFaultAlways (Enc.readFrom [st]) := by
  intro F s r hF hr
  have := h F s r hF hr
  rcases hst : st s r with ⟨v, n, e, r1⟩
  rw [hst] at this
  simp only at this
  subst this
  simp [Enc.readFrom, hst]

private theorem cons_fault {σ : Type} {st : Step σ} {k : Nat} {t : List (Step σ)} (h1 : Breaks st k)
    (h2 : ReportsFaultAlways (Enc.readFrom t)) : ReportsFaultAlways (Enc.readFrom (st :: t)) := by
  intro F s r hF hr
  obtain ⟨o1, a1, ok1, sh1⟩ := h1 F s r hF hr
  rcases hst : st s r with ⟨v, n, e, r1⟩
  rw [hst] at o1 ok1 sh1
  simp only at o1 ok1 sh1
  by_cases ha : k ≤ r.content.length
  · have := (ok1 ha).1
    subst this
    simp only [Enc.readFrom, hst]
    exact h2 F v r1 hF o1
  · have := (sh1 (by omega)).1
    subst this
    simp [Enc.readFrom, hst]

/-- C58. -/
theorem aggregateStats_fault : ReportsFault AggregateStats.readFrom 24 := by
  refine reports (k := 24) ?_
  unfold AggregateStats.readFrom
  exact Breaks.cons Breaks.num <| Breaks.cons Breaks.num <| Breaks.cons Breaks.num <| Breaks.cons Breaks.skip <| Breaks.nil

example : (AggregateStats.readFrom default broken).err = some (.io 7) ∧ (AggregateStats.readFrom default broken).n = 5 := by
  decide +kernel

/-- C58. -/
theorem switchFeatures_fault : ReportsFault SwitchFeatures.readFrom 24 := by
  refine reports (k := 24) ?_
  unfold SwitchFeatures.readFrom
  exact Breaks.cons Breaks.num <| Breaks.cons Breaks.num <| Breaks.cons Breaks.num <| Breaks.cons Breaks.num <| Breaks.cons Breaks.skip <| Breaks.cons Breaks.num <| Breaks.cons Breaks.num <| Breaks.nil

example : (SwitchFeatures.readFrom default broken).err = some (.io 7) ∧ (SwitchFeatures.readFrom default broken).n = 5 := by
  decide +kernel

/-- C58. -/
theorem switchConfig_fault : ReportsFault SwitchConfig.readFrom 4 := by
  refine reports (k := 4) ?_
  unfold SwitchConfig.readFrom
  exact Breaks.cons Breaks.num <| Breaks.cons Breaks.num <| Breaks.nil

example : (SwitchConfig.readFrom default broken).err = none ∧ (SwitchConfig.readFrom default broken).n = 4 := by
  decide +kernel

/-- C58. -/
theorem multipartReply_fault : ReportsFault MultipartReply.readFrom 8 := by
  refine reports (k := 8) ?_
  unfold MultipartReply.readFrom
  exact Breaks.cons Breaks.num <| Breaks.cons Breaks.num <| Breaks.cons Breaks.skip <| Breaks.nil

example : (MultipartReply.readFrom default broken).err = some (.io 7) ∧ (MultipartReply.readFrom default broken).n = 5 := by
  decide +kernel

/-- C58. -/
theorem experimenterMultipartHeader_fault : ReportsFault ExperimenterMultipartHeader.readFrom 8 := by
  refine reports (k := 8) ?_
  unfold ExperimenterMultipartHeader.readFrom
  exact Breaks.cons Breaks.num <| Breaks.cons Breaks.num <| Breaks.nil

example : (ExperimenterMultipartHeader.readFrom default broken).err = some (.io 7) ∧ (ExperimenterMultipartHeader.readFrom default broken).n = 5 := by
  decide +kernel

/-- C58. -/
theorem experimenter_fault : ReportsFault Experimenter.readFrom 8 := by
  refine reports (k := 8) ?_
  unfold Experimenter.readFrom
  exact Breaks.cons Breaks.num <| Breaks.cons Breaks.num <| Breaks.nil

example : (Experimenter.readFrom default broken).err = some (.io 7) ∧ (Experimenter.readFrom default broken).n = 5 := by
  decide +kernel

/-- C58. -/
theorem roleRequest_fault : ReportsFault RoleRequest.readFrom 16 := by
  refine reports (k := 16) ?_
  unfold RoleRequest.readFrom
  exact Breaks.cons Breaks.num <| Breaks.cons Breaks.skip <| Breaks.cons Breaks.num <| Breaks.nil

example : (RoleRequest.readFrom default broken).err = some (.io 7) ∧ (RoleRequest.readFrom default broken).n = 5 := by
  decide +kernel

/-- C58. -/
theorem asyncConfig_fault : ReportsFault AsyncConfig.readFrom 24 := by
  refine reports (k := 24) ?_
  unfold AsyncConfig.readFrom
  exact Breaks.cons Breaks.pair32 <| Breaks.cons Breaks.pair32 <| Breaks.cons Breaks.pair32 <| Breaks.nil

example : (AsyncConfig.readFrom default broken).err = some (.io 7) ∧ (AsyncConfig.readFrom default broken).n = 5 := by
  decide +kernel

/-- C58. -/
theorem tableMod_fault : ReportsFault TableMod.readFrom 8 := by
  refine reports (k := 8) ?_
  unfold TableMod.readFrom
  exact Breaks.cons Breaks.num <| Breaks.cons Breaks.skip <| Breaks.cons Breaks.num <| Breaks.nil

example : (TableMod.readFrom default broken).err = some (.io 7) ∧ (TableMod.readFrom default broken).n = 5 := by
  decide +kernel

/-- C58. -/
theorem tableStats_fault : ReportsFault TableStats.readFrom 24 := by
  refine reports (k := 24) ?_
  unfold TableStats.readFrom
  exact Breaks.cons Breaks.num <| Breaks.cons Breaks.skip <| Breaks.cons Breaks.num <| Breaks.cons Breaks.num <| Breaks.cons Breaks.num <| Breaks.nil

example : (TableStats.readFrom default broken).err = some (.io 7) ∧ (TableStats.readFrom default broken).n = 5 := by
  decide +kernel

/-- C58. -/
theorem portStatsRequest_fault : ReportsFault PortStatsRequest.readFrom 8 := by
  refine reports (k := 8) ?_
  unfold PortStatsRequest.readFrom
  exact Breaks.cons Breaks.num <| Breaks.cons Breaks.skip <| Breaks.nil

example : (PortStatsRequest.readFrom default broken).err = some (.io 7) ∧ (PortStatsRequest.readFrom default broken).n = 5 := by
  decide +kernel

/-- C58. -/
theorem portStats_fault : ReportsFault PortStats.readFrom 112 := by
  refine reports (k := 112) ?_
  unfold PortStats.readFrom
  exact Breaks.cons Breaks.num <| Breaks.cons Breaks.skip <| Breaks.cons Breaks.num <| Breaks.cons Breaks.num <| Breaks.cons Breaks.num <| Breaks.cons Breaks.num <| Breaks.cons Breaks.num <| Breaks.cons Breaks.num <| Breaks.cons Breaks.num <| Breaks.cons Breaks.num <| Breaks.cons Breaks.num <| Breaks.cons Breaks.num <| Breaks.cons Breaks.num <| Breaks.cons Breaks.num <| Breaks.cons Breaks.num <| Breaks.cons Breaks.num <| Breaks.nil

example : (PortStats.readFrom default broken).err = some (.io 7) ∧ (PortStats.readFrom default broken).n = 5 := by
  decide +kernel

/-- C58. -/
theorem meterConfigRequest_fault : ReportsFault MeterConfigRequest.readFrom 8 := by
  refine reports (k := 8) ?_
  unfold MeterConfigRequest.readFrom
  exact Breaks.cons Breaks.num <| Breaks.cons Breaks.skip <| Breaks.nil

example : (MeterConfigRequest.readFrom default broken).err = some (.io 7) ∧ (MeterConfigRequest.readFrom default broken).n = 5 := by
  decide +kernel

/-- C58. -/
theorem meterFeatures_fault : ReportsFault MeterFeatures.readFrom 16 := by
  refine reports (k := 16) ?_
  unfold MeterFeatures.readFrom
  exact Breaks.cons Breaks.num <| Breaks.cons Breaks.num <| Breaks.cons Breaks.num <| Breaks.cons Breaks.num <| Breaks.cons Breaks.num <| Breaks.cons Breaks.skip <| Breaks.nil

example : (MeterFeatures.readFrom default broken).err = some (.io 7) ∧ (MeterFeatures.readFrom default broken).n = 5 := by
  decide +kernel

/-- C58. -/
theorem meterBandStats_fault : ReportsFault MeterBandStats.readFrom 16 := by
  refine reports (k := 16) ?_
  unfold MeterBandStats.readFrom
  exact Breaks.cons Breaks.num <| Breaks.cons Breaks.num <| Breaks.nil

example : (MeterBandStats.readFrom default broken).err = some (.io 7) ∧ (MeterBandStats.readFrom default broken).n = 5 := by
  decide +kernel

/-- C58. -/
theorem meterStatsRequest_fault : ReportsFault MeterStatsRequest.readFrom 8 := by
  refine reports (k := 8) ?_
  unfold MeterStatsRequest.readFrom
  exact Breaks.cons Breaks.num <| Breaks.cons Breaks.skip <| Breaks.nil

example : (MeterStatsRequest.readFrom default broken).err = some (.io 7) ∧ (MeterStatsRequest.readFrom default broken).n = 5 := by
  decide +kernel

/-- C58. -/
theorem groupStatsRequest_fault : ReportsFault GroupStatsRequest.readFrom 8 := by
  refine reports (k := 8) ?_
  unfold GroupStatsRequest.readFrom
  exact Breaks.cons Breaks.num <| Breaks.cons Breaks.skip <| Breaks.nil

example : (GroupStatsRequest.readFrom default broken).err = some (.io 7) ∧ (GroupStatsRequest.readFrom default broken).n = 5 := by
  decide +kernel

/-- C58. -/
theorem bucketCounter_fault : ReportsFault BucketCounter.readFrom 16 := by
  refine reports (k := 16) ?_
  unfold BucketCounter.readFrom
  exact Breaks.cons Breaks.num <| Breaks.cons Breaks.num <| Breaks.nil

example : (BucketCounter.readFrom default broken).err = some (.io 7) ∧ (BucketCounter.readFrom default broken).n = 5 := by
  decide +kernel

/-- C58. -/
theorem groupFeatures_fault : ReportsFault GroupFeatures.readFrom 40 := by
  refine reports (k := 40) ?_
  unfold GroupFeatures.readFrom
  exact Breaks.cons Breaks.num <| Breaks.cons Breaks.num <| Breaks.cons Breaks.quad32 <| Breaks.cons Breaks.quad32 <| Breaks.nil

example : (GroupFeatures.readFrom default broken).err = some (.io 7) ∧ (GroupFeatures.readFrom default broken).n = 5 := by
  decide +kernel

/-- C58. -/
theorem queueStatsRequest_fault : ReportsFault QueueStatsRequest.readFrom 8 := by
  refine reports (k := 8) ?_
  unfold QueueStatsRequest.readFrom
  exact Breaks.cons Breaks.num <| Breaks.cons Breaks.num <| Breaks.nil

example : (QueueStatsRequest.readFrom default broken).err = some (.io 7) ∧ (QueueStatsRequest.readFrom default broken).n = 5 := by
  decide +kernel

/-- C58. -/
theorem queueStats_fault : ReportsFault QueueStats.readFrom 40 := by
  refine reports (k := 40) ?_
  unfold QueueStats.readFrom
  exact Breaks.cons Breaks.num <| Breaks.cons Breaks.num <| Breaks.cons Breaks.num <| Breaks.cons Breaks.num <| Breaks.cons Breaks.num <| Breaks.cons Breaks.num <| Breaks.cons Breaks.num <| Breaks.nil

example : (QueueStats.readFrom default broken).err = some (.io 7) ∧ (QueueStats.readFrom default broken).n = 5 := by
  decide +kernel

/-- C58. -/
theorem queueGetConfigRequest_fault : ReportsFault QueueGetConfigRequest.readFrom 8 := by
  refine reports (k := 8) ?_
  unfold QueueGetConfigRequest.readFrom
  exact Breaks.cons Breaks.num <| Breaks.cons Breaks.skip <| Breaks.nil

example : (QueueGetConfigRequest.readFrom default broken).err = some (.io 7) ∧ (QueueGetConfigRequest.readFrom default broken).n = 5 := by
  decide +kernel

/-- C58. -/
theorem description_fault : ReportsFault Description.readFrom 1056 :=
  reports <| Breaks.withLocal <| Breaks.cons Breaks.bin <| Breaks.cons Breaks.bin <| Breaks.cons Breaks.bin <|
    Breaks.cons Breaks.bin <| Breaks.cons Breaks.bin <| Breaks.cons Breaks.assign Breaks.nil

example : (Description.readFrom default broken).err = some (.io 7) ∧ (Description.readFrom default broken).n = 5 := by
  decide +kernel

/-- C58. -/
theorem echoRequest_fault : ReportsFaultAlways EchoRequest.readFrom := rest0_fault

example : (EchoRequest.readFrom default broken).err = some (.io 7) ∧ (EchoRequest.readFrom default broken).n = 0 := by
  decide +kernel

/-- C58. -/
theorem echoReply_fault : ReportsFaultAlways EchoReply.readFrom := rest0_fault

example : (EchoReply.readFrom default broken).err = some (.io 7) ∧ (EchoReply.readFrom default broken).n = 0 := by
  decide +kernel

/-- C58. -/
theorem error_fault : ReportsFaultAlways OfpError.readFrom :=
  cons_fault Breaks.num <| cons_fault Breaks.num <| last_fault rest0_fault

example : (OfpError.readFrom default broken).err = some (.io 7) ∧ (OfpError.readFrom default broken).n = 4 := by
  decide +kernel

/-- C58. -/
theorem errorExperimenter_fault : ReportsFaultAlways ErrorExperimenter.readFrom :=
  cons_fault Breaks.num <| cons_fault Breaks.num <| cons_fault Breaks.num <| last_fault rest0_fault

example : (ErrorExperimenter.readFrom default broken).err = some (.io 7) ∧ (ErrorExperimenter.readFrom default broken).n = 5 := by
  decide +kernel

/-- C58. -/
theorem multipartRequest_fault : ReportsFaultAlways MultipartRequest.readFrom :=
  cons_fault Breaks.num <| cons_fault Breaks.num <| cons_fault Breaks.skip <| last_fault rest_fault

example : (MultipartRequest.readFrom default broken).err = some (.io 7) ∧ (MultipartRequest.readFrom default broken).n = 5 := by
  decide +kernel

/-- C58, C41.  What such a message counts on a broken stream: all of it is consumed, `n` bytes of it
are reported. -/
def FaultCount {σ : Type} (dec : Step σ) (n : Nat → Nat) : Prop :=
  ∀ (F : Err) (s : σ) (r : Rd), F ≠ .eof → r.Ok F →
    (dec s r).n = n r.content.length ∧ (dec s r).rd.content = []

private theorem rest0_count {σ : Type} {set : Bytes → σ → σ} : FaultCount (Enc.rest0 set) (fun _ => 0) := by
  intro F s r hF hr
  obtain ⟨r', h1, h2, _⟩ := readAll_spec F r hr
  have := h2.content.2
  cases F <;> simp_all [Enc.rest0, skipEOF]

private theorem rest_count {σ : Type} {set : Bytes → σ → σ} : FaultCount (Enc.rest set) (fun l => l) := by
  intro F s r hF hr
  obtain ⟨r', h1, h2, _⟩ := readAll_spec F r hr
  have := h2.content.2
  simp_all [Enc.rest]

private theorem last_count {σ : Type} {st : Step σ} {n : Nat → Nat} (h : FaultCount st n)
    (he : ReportsFaultAlways st) : FaultCount (Enc.readFrom [st]) n := by
  intro F s r hF hr
  have h1 := h F s r hF hr
  have h2 := he F s r hF hr
  rcases hst : st s r with ⟨v, n, e, r1⟩
  rw [hst] at h1 h2
  simp only at h2
  subst h2
  simpa [Enc.readFrom, hst] using h1

private theorem cons_count {σ : Type} {st : Step σ} {k : Nat} {n : Nat → Nat} {t : List (Step σ)} (h1 : Breaks st k)
    (h2 : FaultCount (Enc.readFrom t) n) :
    FaultCount (Enc.readFrom (st :: t)) (fun l => if l < k then l else k + n (l - k)) := by
  intro F s r hF hr
  obtain ⟨o1, a1, ok1, sh1⟩ := h1 F s r hF hr
  have hc := a1.content.2
  rcases hst : st s r with ⟨v, n', e, r1⟩
  rw [hst] at o1 ok1 sh1 hc
  simp only at o1 ok1 sh1 hc
  by_cases ha : k ≤ r.content.length
  · obtain ⟨h3, h4⟩ := ok1 ha
    subst h3; subst h4
    have := h2 F v r1 hF o1
    rw [hc, List.length_drop] at this
    simp only [Enc.readFrom, hst]
    rw [if_neg (by omega)]
    exact ⟨by rw [this.1], this.2⟩
  · obtain ⟨h3, h4⟩ := sh1 (by omega)
    subst h3; subst h4
    simp only [Enc.readFrom, hst]
    rw [if_pos (by omega)]
    exact ⟨rfl, by simp [hc]⟩

/-- C58, C41.  An echo on a stream that breaks: the bytes that came are consumed, and none of them
is counted. -/
theorem echo_fault_count : FaultCount EchoRequest.readFrom (fun _ => 0) ∧ FaultCount EchoReply.readFrom (fun _ => 0) :=
  ⟨rest0_count, rest0_count⟩

/-- C58, C41.  An error message: the two numbers at its beginning are counted, as far as they came,
the data is not. -/
theorem error_fault_count : FaultCount OfpError.readFrom (fun l => min l 4) := by
  have := cons_count (Breaks.num (set := fun x (s : OfpError) => { s with type := x })) <|
    cons_count (Breaks.num (set := fun x (s : OfpError) => { s with code := x })) <|
    last_count (rest0_count (set := fun x (s : OfpError) => { s with data := x })) rest0_fault
  intro F s r hF hr
  have := this F s r hF hr
  refine ⟨this.1.trans ?_, this.2⟩
  simp only [Wire.size]
  split
  · omega
  · split <;> omega

/-- C58, C41.  An experimenter error: its first eight bytes. -/
theorem errorExperimenter_fault_count : FaultCount ErrorExperimenter.readFrom (fun l => min l 8) := by
  have := cons_count (Breaks.num (set := fun (_ : UInt16) (s : ErrorExperimenter) => s)) <|
    cons_count (Breaks.num (set := fun x (s : ErrorExperimenter) => { s with expType := x })) <|
    cons_count (Breaks.num (set := fun x (s : ErrorExperimenter) => { s with experimenter := x })) <|
    last_count (rest0_count (set := fun x (s : ErrorExperimenter) => { s with data := x })) rest0_fault
  intro F s r hF hr
  have := this F s r hF hr
  refine ⟨this.1.trans ?_, this.2⟩
  simp only [Wire.size]
  split
  · omega
  · split
    · omega
    · split <;> omega

/-- C58, C41.  A multipart request counts all that came. -/
theorem multipartRequest_fault_count : FaultCount MultipartRequest.readFrom (fun l => l) := by
  have := cons_count (Breaks.num (set := fun x (s : MultipartRequest) => { s with type := x })) <|
    cons_count (Breaks.num (set := fun x (s : MultipartRequest) => { s with flags := x })) <|
    cons_count (Breaks.skip (k := 4)) <|
    last_count (rest_count (set := fun x (s : MultipartRequest) => { s with body := .buffer x })) rest_fault
  intro F s r hF hr
  have := this F s r hF hr
  refine ⟨this.1.trans ?_, this.2⟩
  simp only [Wire.size]
  split
  · omega
  · split
    · omega
    · split <;> omega

private theorem port_breaks : Breaks Port.readFrom 64 := by
  unfold Port.readFrom Port.fields
  exact Breaks.withLocal <| Breaks.always <| Breaks.cons Breaks.assign <| Breaks.cons Breaks.num <|
    Breaks.cons Breaks.skip <| Breaks.cons Breaks.bin <| Breaks.cons Breaks.skip <| Breaks.cons Breaks.bin <|
    Breaks.cons Breaks.num <| Breaks.cons Breaks.num <| Breaks.cons Breaks.num <| Breaks.cons Breaks.num <|
    Breaks.cons Breaks.num <| Breaks.cons Breaks.num <| Breaks.cons Breaks.num <|
    Breaks.cons Breaks.num Breaks.nil

/-- C58. -/
theorem port_fault : ReportsFault Port.readFrom 64 := reports port_breaks

example : (Port.readFrom default broken).err = some (.io 7) ∧ (Port.readFrom default broken).n = 5 := by
  decide +kernel

/-- C58. -/
theorem portStatus_fault : ReportsFault PortStatus.readFrom 72 :=
  reports <| Breaks.cons Breaks.num <| Breaks.cons Breaks.skip <| Breaks.cons (Breaks.sub port_breaks) Breaks.nil

example : (PortStatus.readFrom default broken).err = some (.io 7) ∧ (PortStatus.readFrom default broken).n = 5 := by
  decide +kernel

private theorem ports_loop_fault (F : Err) (hF : F ≠ .eof) : ∀ (fuel : Nat) (acc : List Port) (n : Nat) (r : Rd),
    r.Ok F → r.content.length < fuel → (Ports.loop fuel acc n r).err = some F
  | 0, _, _, _, _, h => by omega
  | fuel + 1, acc, n, r, hr, h => by
    obtain ⟨o1, a1, ok1, sh1⟩ := port_breaks F Port.zero r hF hr
    rcases hst : Port.readFrom Port.zero r with ⟨p, k, e, r1⟩
    rw [hst] at o1 a1 ok1 sh1
    simp only at o1 a1 ok1 sh1
    by_cases ha : 64 ≤ r.content.length
    · obtain ⟨he, hk⟩ := ok1 ha
      subst he; subst hk
      have hl : r1.content.length = r.content.length - 64 := by rw [a1.content.2]; simp
      simp only [Ports.loop, hst]
      exact ports_loop_fault F hF fuel _ _ r1 o1 (by omega)
    · have := (sh1 (by omega)).1
      subst this
      simp only [Ports.loop, hst]

/-- C58. -/
theorem ports_fault : ReportsFaultAlways Ports.readFrom := by
  intro F s r hF hr
  exact ports_loop_fault F hF _ s 0 r hr (by omega)

example : (Ports.readFrom default broken).err = some (.io 7) ∧ (Ports.readFrom default broken).n = 5 := by
  decide +kernel

/-- Non-vacuity: a reset connection, after three bytes, delivered one by one. -/
example : Rd.Ok (.io 7) (.src [1, 2, 3] [0, 0, 0] (.io 7) true) ∧ Err.io 7 ≠ .eof := ⟨rfl, by decide⟩

end Props

end Verif
