import Verif.Ofp.Packet
import Verif.Ofp.Port
import Verif.Ofp.Fixed
import Verif.Ofp.Flow
import Verif.Ofp.Raw
import Verif.Ofp.Group
import Verif.Ofp.Meter

/-!
# The padding variables of package ofp (ofp/pad.go:15-25)

Decoders throw padding away by reading it into package variables: `&defaultPad4` and so on, one
variable for every size.  The variables are the same for all goroutines and nothing guards them.
Here each decoder of the model is paired with the list of the variables it stores to, in order.
`Logged.step` is the decoder as it is defined elsewhere (the `*_step` lemmas), so that the pairs
say nothing new about results.
-/

namespace Verif

/-- A decoder together with the padding variables (by their size) that a call stores to, in
order.  `binary.Read` stores only after all bytes were read, encoding/binary `Read`. -/
structure Logged (σ : Type) where
  step : Step σ
  log : σ → Rd → List Nat

namespace Logged

variable {σ τ : Type}

/-- A step that stores to variables of the caller only. -/
def own (st : Step σ) : Logged σ := ⟨st, fun _ _ => []⟩

/-- `&defaultPadN` as an argument of `encoding.ReadFrom`, encoding.go:104: stored to when the
bytes are there. -/
def pad (k : Nat) : Logged σ :=
  ⟨Enc.skip k, fun _ r => match (readFull k r).2.1 with | none => [k] | some _ => []⟩

/-- `encoding.ReadFrom`, encoding.go:90-113: the arguments before the first failing one. -/
def readFromLog : List (Logged σ) → σ → Rd → List Nat
  | [], _, _ => []
  | a :: t, s, r =>
    a.log s r ++
      match (a.step s r).err with
      | some _ => []
      | none => readFromLog t (a.step s r).val (a.step s r).rd

/-- `encoding.ReadFrom`, encoding.go:90-113. -/
def readFrom (l : List (Logged σ)) : Logged σ :=
  ⟨Enc.readFrom (l.map step), readFromLog l⟩

/-- An argument that is an `io.ReaderFrom`, encoding.go:100-102. -/
def sub (get : σ → τ) (set : τ → σ → σ) (a : Logged τ) : Logged σ :=
  ⟨Enc.sub get set a.step, fun s r => a.log (get s) r⟩

/-- A decoder with local variables. -/
def withLocal {l : Type} (init : l) (a : Logged (σ × l)) : Logged σ :=
  ⟨Enc.withLocal init a.step, fun s r => a.log (s, init) r⟩

/-- Code behind a call that runs in any case. -/
def always (f : σ → σ) (a : Logged σ) : Logged σ := ⟨Enc.always f a.step, a.log⟩

end Logged

/-- `(p *Port) ReadFrom`, ofp/port.go:307-318. -/
def Port.logged : Logged Port :=
  .withLocal (zeros 16) <| .always (fun s => ({ s.1 with name := s.2 }, s.2)) <| .readFrom [
    .own (Enc.assign (fun s => ({ s.1 with hwAddr := zeros 6 }, s.2))),
    .own (Enc.num (fun v s => ({ s.1 with portNo := v }, s.2))), .pad 4,
    .own (Enc.bin 6 (fun v s => ({ s.1 with hwAddr := v }, s.2))), .pad 2,
    .own (Enc.bin 16 (fun v s => (s.1, v))),
    .own (Enc.num (fun v s => ({ s.1 with config := v }, s.2))),
    .own (Enc.num (fun v s => ({ s.1 with state := v }, s.2))),
    .own (Enc.num (fun v s => ({ s.1 with curr := v }, s.2))),
    .own (Enc.num (fun v s => ({ s.1 with advertised := v }, s.2))),
    .own (Enc.num (fun v s => ({ s.1 with supported := v }, s.2))),
    .own (Enc.num (fun v s => ({ s.1 with peer := v }, s.2))),
    .own (Enc.num (fun v s => ({ s.1 with currSpeed := v }, s.2))),
    .own (Enc.num (fun v s => ({ s.1 with maxSpeed := v }, s.2)))]

/-- `(p *PortStatus) ReadFrom`, ofp/port.go:429-431. -/
def PortStatus.logged : Logged PortStatus :=
  .readFrom [
    .own (Enc.num (fun v s => { s with reason := v })), .pad 7,
    .sub (fun s => s.port) (fun v s => { s with port := v }) Port.logged]

/-- `(p *PacketIn) ReadFrom`, ofp/packet.go:112-127.  The padding of the match has memory of its
own (`makePad`, ofp/match.go:491). -/
def PacketIn.logged : Logged PacketIn :=
  .readFrom [
    .own (Enc.num (fun v s => { s with buffer := v })), .own (Enc.num (fun v s => { s with length := v })),
    .own (Enc.num (fun v s => { s with reason := v })), .own (Enc.num (fun v s => { s with table := v })),
    .own (Enc.num (fun v s => { s with cookie := v })),
    .own (Enc.sub (fun s => s.mtch) (fun v s => { s with mtch := v }) Match.readFrom), .pad 2,
    .own (Enc.rest (fun b s => { s with data := b }))]

/-- `(m *MultipartReply) ReadFrom`, ofp/multipart.go:278-280. -/
def MultipartReply.logged : Logged MultipartReply :=
  .readFrom [
    .own (Enc.num (fun v s => { s with type := v })), .own (Enc.num (fun v s => { s with flags := v })),
    .pad 4]

/-- `(s *SwitchFeatures) ReadFrom`, ofp/switch.go:107-111. -/
def SwitchFeatures.logged : Logged SwitchFeatures :=
  .readFrom [
    .own (Enc.num (fun v s => { s with datapathID := v })),
    .own (Enc.num (fun v s => { s with numBuffers := v })),
    .own (Enc.num (fun v s => { s with numTables := v })),
    .own (Enc.num (fun v s => { s with auxiliaryID := v })), .pad 2,
    .own (Enc.num (fun v s => { s with capabilities := v })),
    .own (Enc.num (fun v s => { s with reserved := v }))]

/-- `(t *TableStats) ReadFrom`, ofp/table.go:94-97. -/
def TableStats.logged : Logged TableStats :=
  .readFrom [
    .own (Enc.num (fun v s => { s with table := v })), .pad 3,
    .own (Enc.num (fun v s => { s with activeCount := v })),
    .own (Enc.num (fun v s => { s with lookupCount := v })),
    .own (Enc.num (fun v s => { s with matchedCount := v }))]

/-- `(p *PortStats) ReadFrom`, ofp/port.go:526-532. -/
def PortStats.logged : Logged PortStats :=
  .readFrom [
    .own (Enc.num (fun v s => { s with portNo := v })), .pad 4,
    .own (Enc.num (fun v s => { s with rxPackets := v })),
    .own (Enc.num (fun v s => { s with txPackets := v })),
    .own (Enc.num (fun v s => { s with rxBytes := v })),
    .own (Enc.num (fun v s => { s with txBytes := v })),
    .own (Enc.num (fun v s => { s with rxDropped := v })),
    .own (Enc.num (fun v s => { s with txDropped := v })),
    .own (Enc.num (fun v s => { s with rxErrors := v })),
    .own (Enc.num (fun v s => { s with txErrors := v })),
    .own (Enc.num (fun v s => { s with rxFrameErr := v })),
    .own (Enc.num (fun v s => { s with rxOverErr := v })),
    .own (Enc.num (fun v s => { s with rxCrcErr := v })),
    .own (Enc.num (fun v s => { s with collisions := v })),
    .own (Enc.num (fun v s => { s with durationSec := v })),
    .own (Enc.num (fun v s => { s with durationNSec := v }))]

/-- `(a *AggregateStats) ReadFrom`, ofp/aggregate.go:104-107. -/
def AggregateStats.logged : Logged AggregateStats :=
  .readFrom [
    .own (Enc.num (fun v s => { s with packetCount := v })),
    .own (Enc.num (fun v s => { s with byteCount := v })),
    .own (Enc.num (fun v s => { s with flowCount := v })), .pad 4]

/-- `(m *MeterFeatures) ReadFrom`, ofp/meter.go:388-391. -/
def MeterFeatures.logged : Logged MeterFeatures :=
  .readFrom [
    .own (Enc.num (fun v s => { s with maxMeter := v })),
    .own (Enc.num (fun v s => { s with bandTypes := v })),
    .own (Enc.num (fun v s => { s with capabilities := v })),
    .own (Enc.num (fun v s => { s with maxBands := v })),
    .own (Enc.num (fun v s => { s with maxColor := v })), .pad 2]

/-- `(rr *RoleRequest) ReadFrom`, ofp/handshake.go:248-250. -/
def RoleRequest.logged : Logged RoleRequest :=
  .readFrom [
    .own (Enc.num (fun v s => { s with role := v })), .pad 4,
    .own (Enc.num (fun v s => { s with generationID := v }))]

/-- `(f *FlowRemoved) ReadFrom`, ofp/flow.go:330-335: no padding but that of the match, which has
memory of its own (ofp/match.go:491). -/
def FlowRemoved.logged : Logged FlowRemoved := .own FlowRemoved.readFrom

/-- `(t *TableMod) ReadFrom`, ofp/table.go:64-66: a padding array of the call (`&pad3{}`). -/
def TableMod.logged : Logged TableMod := .own TableMod.readFrom

/-! ## Goroutines that decode -/

/-- A goroutine that decodes one message: its decoder, its variable and its reader. -/
structure Decoding where
  σ : Type
  dec : Logged σ
  into : σ
  rd : Rd

/-- The stores of the goroutine to padding variables, in order. -/
def Decoding.stores (d : Decoding) : List Nat := d.dec.log d.into d.rd

/-- The goroutine decodes its message without an error. -/
def Decoding.Succeeds (d : Decoding) : Prop := (d.dec.step d.into d.rd).err = none

/-- The stores of goroutine `i` in a trace. -/
def storesOf {ι : Type} [DecidableEq ι] (i : ι) (tr : List (ι × Nat)) : List Nat :=
  (tr.filter (fun e => e.1 = i)).map (·.2)

/-- An execution of the goroutines up to the end of all: the stores of each in its own order,
and any order between goroutines (decoders contain no synchronisation). -/
def Executes {ι : Type} [DecidableEq ι] (g : ι → Decoding) (tr : List (ι × Nat)) : Prop :=
  ∀ i, storesOf i tr = (g i).stores

/-- A data race (The Go Memory Model): two goroutines access a variable, one of them stores to
it, and nothing orders the accesses. -/
def Race {ι : Type} (tr : List (ι × Nat)) : Prop :=
  ∃ i j k, i ≠ j ∧ (i, k) ∈ tr ∧ (j, k) ∈ tr

/-! ## Helper lemmas -/

theorem mem_storesOf {ι : Type} [DecidableEq ι] {i : ι} {tr : List (ι × Nat)} {k : Nat} :
    k ∈ storesOf i tr ↔ (i, k) ∈ tr := by
  constructor
  · intro h
    obtain ⟨⟨j, k'⟩, h1, h2⟩ := List.mem_map.mp h
    obtain ⟨h3, h4⟩ := List.mem_filter.mp h1
    have h4 : j = i := by simpa using h4
    subst h4
    cases h2
    exact h3
  · intro h
    exact List.mem_map.mpr ⟨(i, k), List.mem_filter.mpr ⟨h, by simp⟩, rfl⟩

namespace Logged

variable {σ τ : Type}

/-- The call stores to `k` whenever it succeeds. -/
def Stores (a : Logged σ) (k : Nat) : Prop := ∀ s r, (a.step s r).err = none → k ∈ a.log s r

/-- The call stores to the variables in `ks` only. -/
def Within (a : Logged σ) (ks : List Nat) : Prop := ∀ s r, ∀ k ∈ a.log s r, k ∈ ks

theorem Stores.pad {k : Nat} : Stores (Logged.pad k : Logged σ) k := by
  intro s r h
  simp only [Logged.pad, Enc.skip, Enc.bin] at h ⊢
  rcases hf : readFull k r with ⟨o, e, r'⟩
  rw [hf] at h
  cases e with
  | none => simp
  | some e => simp at h

theorem Stores.head {a : Logged σ} {l : List (Logged σ)} {k : Nat} (ha : Stores a k) :
    Stores (Logged.readFrom (a :: l)) k := by
  intro s r h
  refine List.mem_append_left _ (ha s r ?_)
  simp only [Logged.readFrom, List.map_cons, Enc.readFrom] at h
  rcases hf : a.step s r with ⟨v, n, e, r'⟩
  rw [hf] at h
  cases e with
  | none => rfl
  | some e => simp at h

theorem Stores.tail {a : Logged σ} {l : List (Logged σ)} {k : Nat} (hl : Stores (Logged.readFrom l) k) :
    Stores (Logged.readFrom (a :: l)) k := by
  intro s r h
  refine List.mem_append_right _ ?_
  simp only [Logged.readFrom, List.map_cons, Enc.readFrom] at h
  rcases hf : a.step s r with ⟨v, n, e, r'⟩
  rw [hf] at h
  cases e with
  | none => exact hl v r' h
  | some e => simp at h

theorem Stores.sub {a : Logged τ} {get : σ → τ} {set : τ → σ → σ} {k : Nat} (ha : Stores a k) :
    Stores (Logged.sub get set a) k := fun s r h => ha (get s) r h

theorem Stores.withLocal {l : Type} {init : l} {a : Logged (σ × l)} {k : Nat} (ha : Stores a k) :
    Stores (Logged.withLocal init a) k := fun s r h => ha (s, init) r h

theorem Stores.always {f : σ → σ} {a : Logged σ} {k : Nat} (ha : Stores a k) :
    Stores (Logged.always f a) k := fun s r h => ha s r h

theorem Within.own {st : Step σ} {ks : List Nat} : Within (Logged.own st) ks := by
  intro s r k h
  simp [Logged.own] at h

theorem Within.pad {k : Nat} {ks : List Nat} (h : k ∈ ks) : Within (Logged.pad k : Logged σ) ks := by
  intro s r j hj
  simp only [Logged.pad] at hj
  split at hj
  · simpa using List.mem_singleton.mp hj ▸ h
  · simp at hj

theorem Within.nil {ks : List Nat} : Within (Logged.readFrom ([] : List (Logged σ))) ks := by
  intro s r k h
  simp [Logged.readFrom, readFromLog] at h

theorem Within.cons {a : Logged σ} {l : List (Logged σ)} {ks : List Nat} (ha : Within a ks)
    (hl : Within (Logged.readFrom l) ks) : Within (Logged.readFrom (a :: l)) ks := by
  intro s r k h
  rcases List.mem_append.mp h with h | h
  · exact ha s r k h
  · split at h
    · simp at h
    · exact hl _ _ k h

theorem Within.sub {a : Logged τ} {get : σ → τ} {set : τ → σ → σ} {ks : List Nat} (ha : Within a ks) :
    Within (Logged.sub get set a) ks := fun s r k h => ha (get s) r k h

theorem Within.withLocal {l : Type} {init : l} {a : Logged (σ × l)} {ks : List Nat} (ha : Within a ks) :
    Within (Logged.withLocal init a) ks := fun s r k h => ha (s, init) r k h

theorem Within.always {f : σ → σ} {a : Logged σ} {ks : List Nat} (ha : Within a ks) :
    Within (Logged.always f a) ks := fun s r k h => ha s r k h

end Logged

/-- Finds a padding argument that is always reached. -/
macro "stores" : tactic => `(tactic|
  repeat' first
    | exact Logged.Stores.pad
    | exact Logged.Stores.head Logged.Stores.pad
    | apply Logged.Stores.tail)

/-- Goes through the arguments of a decoder. -/
macro "within" : tactic => `(tactic|
  repeat' first
    | exact Logged.Within.nil
    | exact Logged.Within.own
    | exact Logged.Within.pad (by decide)
    | apply Logged.Within.cons
    | apply Logged.Within.sub
    | apply Logged.Within.withLocal
    | apply Logged.Within.always)

end Verif
