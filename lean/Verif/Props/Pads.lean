import Verif.Pads
import Verif.Props.Packet
import Verif.Props.Fixed
import Verif.Props.Port

/-!
# C96: decoding in several goroutines

Each message is decoded by a goroutine of its own, as with the default runner, into a variable of
its own and from a reader of its own.  Nevertheless the goroutines store to the same variables.
-/

namespace Verif.Props

open Logged

/-! ## The decoders are the ones of the other theorems -/

theorem port_logged : Port.logged.step = Port.readFrom := id rfl
theorem portStatus_logged : PortStatus.logged.step = PortStatus.readFrom := id rfl
theorem packetIn_logged : PacketIn.logged.step = PacketIn.readFrom := id rfl
theorem multipartReply_logged : MultipartReply.logged.step = MultipartReply.readFrom := id rfl
theorem switchFeatures_logged : SwitchFeatures.logged.step = SwitchFeatures.readFrom := id rfl
theorem tableStats_logged : TableStats.logged.step = TableStats.readFrom := id rfl
theorem portStats_logged : PortStats.logged.step = PortStats.readFrom := id rfl
theorem aggregateStats_logged : AggregateStats.logged.step = AggregateStats.readFrom := id rfl
theorem meterFeatures_logged : MeterFeatures.logged.step = MeterFeatures.readFrom := id rfl
theorem roleRequest_logged : RoleRequest.logged.step = RoleRequest.readFrom := id rfl

/-! ## Which executions race -/

/-- Some pair of goroutines stores to a variable in common: then, and only then, an execution
races, in whatever order the goroutines run. -/
theorem decoding_race_iff {ι : Type} [DecidableEq ι] (g : ι → Decoding) (tr : List (ι × Nat))
    (h : Executes g tr) :
    Race tr ↔ ∃ i j k, i ≠ j ∧ k ∈ (g i).stores ∧ k ∈ (g j).stores := by
  constructor
  · rintro ⟨i, j, k, hij, hi, hj⟩
    exact ⟨i, j, k, hij, h i ▸ mem_storesOf.mpr hi, h j ▸ mem_storesOf.mpr hj⟩
  · rintro ⟨i, j, k, hij, hi, hj⟩
    exact ⟨i, j, k, hij, mem_storesOf.mp (h i ▸ hi), mem_storesOf.mp (h j ▸ hj)⟩

/-- There is an execution, whatever two goroutines decode: one after the other. -/
theorem decoding_executes (d e : Decoding) :
    Executes (fun b : Bool => if b then e else d)
      (d.stores.map (fun k => (false, k)) ++ e.stores.map (fun k => (true, k))) := by
  have key : ∀ (i b : Bool) (ks : List Nat),
      storesOf i (ks.map (fun k => (b, k))) = if b = i then ks else [] := by
    intro i b ks
    induction ks with
    | nil => cases i <;> cases b <;> rfl
    | cons k ks ih =>
      simp only [storesOf, List.map_cons, List.filter_cons] at ih ⊢
      by_cases hb : b = i <;> simp_all
  intro i
  have happ : ∀ a c : List (Bool × Nat), storesOf i (a ++ c) = storesOf i a ++ storesOf i c := by
    intro a c; simp [storesOf]
  rw [happ, key, key]
  cases i <;> simp

/-- Two goroutines whose decoders both reach padding of one size race, in every execution. -/
theorem decoding_race {ι : Type} [DecidableEq ι] (g : ι → Decoding) (tr : List (ι × Nat))
    (h : Executes g tr) {i j : ι} (hij : i ≠ j) {k : Nat}
    (hi : (g i).dec.Stores k) (hj : (g j).dec.Stores k)
    (oi : (g i).Succeeds) (oj : (g j).Succeeds) : Race tr :=
  (decoding_race_iff g tr h).mpr ⟨i, j, k, hij, hi _ _ oi, hj _ _ oj⟩

/-- Goroutines whose decoders have no size of padding in common do not race. -/
theorem decoding_no_race_partial {ι : Type} [DecidableEq ι] (g : ι → Decoding) (tr : List (ι × Nat))
    (h : Executes g tr) (ks : ι → List Nat) (hw : ∀ i, (g i).dec.Within (ks i))
    (hd : ∀ i j, i ≠ j → ∀ k ∈ ks i, k ∉ ks j) : ¬ Race tr := by
  intro hr
  obtain ⟨i, j, k, hij, hi, hj⟩ := (decoding_race_iff g tr h).mp hr
  exact hd i j hij k (hw i _ _ k hi) (hw j _ _ k hj)

/-- With one goroutine at a time, as with the sequential runner on one connection, there is no
race. -/
theorem decoding_alone {ι : Type} [DecidableEq ι] (hone : ∀ i j : ι, i = j) (tr : List (ι × Nat)) :
    ¬ Race tr := fun ⟨i, j, _, hij, _, _⟩ => hij (hone i j)

/-! ## What the decoders store to -/

theorem packetIn_stores : PacketIn.logged.Stores 2 := by unfold PacketIn.logged; stores
theorem switchFeatures_stores : SwitchFeatures.logged.Stores 2 := by unfold SwitchFeatures.logged; stores
theorem meterFeatures_stores : MeterFeatures.logged.Stores 2 := by unfold MeterFeatures.logged; stores
theorem multipartReply_stores : MultipartReply.logged.Stores 4 := by unfold MultipartReply.logged; stores
theorem portStats_stores : PortStats.logged.Stores 4 := by unfold PortStats.logged; stores
theorem aggregateStats_stores : AggregateStats.logged.Stores 4 := by unfold AggregateStats.logged; stores
theorem roleRequest_stores : RoleRequest.logged.Stores 4 := by unfold RoleRequest.logged; stores
theorem tableStats_stores : TableStats.logged.Stores 3 := by unfold TableStats.logged; stores
theorem portStatus_stores : PortStatus.logged.Stores 7 := by unfold PortStatus.logged; stores

theorem port_stores : Port.logged.Stores 4 ∧ Port.logged.Stores 2 := by
  constructor
  · unfold Port.logged
    refine Stores.withLocal (Stores.always ?_)
    exact Stores.tail <| Stores.tail <| Stores.head Stores.pad
  · unfold Port.logged
    refine Stores.withLocal (Stores.always ?_)
    exact Stores.tail <| Stores.tail <| Stores.tail <| Stores.tail <| Stores.head Stores.pad

theorem packetIn_within : PacketIn.logged.Within [2] := by unfold PacketIn.logged; within
theorem switchFeatures_within : SwitchFeatures.logged.Within [2] := by unfold SwitchFeatures.logged; within
theorem meterFeatures_within : MeterFeatures.logged.Within [2] := by unfold MeterFeatures.logged; within
theorem multipartReply_within : MultipartReply.logged.Within [4] := by unfold MultipartReply.logged; within
theorem portStats_within : PortStats.logged.Within [4] := by unfold PortStats.logged; within
theorem aggregateStats_within : AggregateStats.logged.Within [4] := by unfold AggregateStats.logged; within
theorem roleRequest_within : RoleRequest.logged.Within [4] := by unfold RoleRequest.logged; within
theorem tableStats_within : TableStats.logged.Within [3] := by unfold TableStats.logged; within
theorem port_within : Port.logged.Within [4, 2] := by
  unfold Port.logged
  refine Within.withLocal (Within.always ?_)
  within
theorem portStatus_within : PortStatus.logged.Within [7, 4, 2] := by
  unfold PortStatus.logged
  refine Within.cons Within.own <| Within.cons (Within.pad (by decide)) <| Within.cons ?_ Within.nil
  refine Within.sub ?_
  unfold Port.logged
  refine Within.withLocal (Within.always ?_)
  within

/-! ## The claim and what becomes of it -/

/-- The claim: goroutines that decode into variables of their own, from readers of their own, do
not race. -/
def DecodingRaceFree {σ : Type} (dec : Logged σ) : Prop :=
  ∀ (ι : Type) [DecidableEq ι] (g : ι → Decoding), (∀ i, ∃ s r, g i = ⟨σ, dec, s, r⟩) →
    ∀ tr, Executes g tr → ¬ Race tr

/-- It holds for decoders that use no padding variables. -/
theorem flowRemoved_race_free : DecodingRaceFree FlowRemoved.logged := by
  intro ι _ g hg tr h
  refine decoding_no_race_partial g tr h (fun _ => []) ?_ (by simp)
  intro i
  obtain ⟨s, r, hi⟩ := hg i
  rw [hi]
  exact Within.own

/-- The padding of table modifications belongs to the call. -/
theorem tableMod_race_free : DecodingRaceFree TableMod.logged := by
  intro ι _ g hg tr h
  refine decoding_no_race_partial g tr h (fun _ => []) ?_ (by simp)
  intro i
  obtain ⟨s, r, hi⟩ := hg i
  rw [hi]
  exact Within.own

/-- It fails for every decoder that reaches a padding variable and can succeed. -/
theorem not_race_free {σ : Type} {dec : Logged σ} {k : Nat} (hk : dec.Stores k)
    (s : σ) (r : Rd) (hs : (dec.step s r).err = none) : ¬ DecodingRaceFree dec := by
  intro hf
  let d : Decoding := ⟨σ, dec, s, r⟩
  refine hf Bool (fun b => if b then d else d) (fun i => ⟨s, r, by cases i <;> rfl⟩) _
    (decoding_executes d d) ?_
  exact decoding_race _ _ (decoding_executes d d) (i := false) (j := true) (by simp) (k := k)
    hk hk hs hs

/-- Two goroutines that decode packet-ins, whatever these are, race in every execution. -/
theorem packetIns_race_false (p q : PacketIn) (hp : p.mtch.Valid) (hq : q.mtch.Valid)
    {ι : Type} [DecidableEq ι] (g : ι → Decoding) (tr : List (ι × Nat)) (h : Executes g tr)
    {i j : ι} (hij : i ≠ j) (s t : PacketIn) (r r' : Rd)
    (hi : g i = ⟨PacketIn, PacketIn.logged, s, r⟩) (hj : g j = ⟨PacketIn, PacketIn.logged, t, r'⟩)
    (hr : r.Ok .eof) (hr' : r'.Ok .eof)
    (hc : r.content = p.writeTo.out) (hc' : r'.content = q.writeTo.out) : Race tr := by
  have oi := ((packetIn_roundtrip p hp).2 s r hr hc).2.2.1
  have oj := ((packetIn_roundtrip q hq).2 t r' hr' hc').2.2.1
  refine decoding_race g tr h hij (k := 2) ?_ ?_ ?_ ?_
  · rw [hi]; exact packetIn_stores
  · rw [hj]; exact packetIn_stores
  · rw [hi]; exact oi
  · rw [hj]; exact oj

/-- A reader with enough zero bytes for one message of any of these types. -/
private def blank : Rd := .src (zeros 120) [] .eof false

/-- The claim is false of every decoder that uses the padding variables. -/
theorem decoding_race_free_false :
    ¬ DecodingRaceFree PacketIn.logged ∧ ¬ DecodingRaceFree SwitchFeatures.logged ∧
    ¬ DecodingRaceFree MeterFeatures.logged ∧ ¬ DecodingRaceFree MultipartReply.logged ∧
    ¬ DecodingRaceFree PortStats.logged ∧ ¬ DecodingRaceFree AggregateStats.logged ∧
    ¬ DecodingRaceFree RoleRequest.logged ∧ ¬ DecodingRaceFree TableStats.logged ∧
    ¬ DecodingRaceFree PortStatus.logged ∧ ¬ DecodingRaceFree Port.logged :=
  ⟨not_race_free packetIn_stores default blank (by decide +kernel),
    not_race_free switchFeatures_stores default blank (by decide +kernel),
    not_race_free meterFeatures_stores default blank (by decide +kernel),
    not_race_free multipartReply_stores default blank (by decide +kernel),
    not_race_free portStats_stores default blank (by decide +kernel),
    not_race_free aggregateStats_stores default blank (by decide +kernel),
    not_race_free roleRequest_stores default blank (by decide +kernel),
    not_race_free tableStats_stores default blank (by decide +kernel),
    not_race_free portStatus_stores default blank (by decide +kernel),
    not_race_free port_stores.1 default blank (by decide +kernel)⟩

/-- Messages of different types race as well: the features of a switch and a packet-in. -/
theorem features_packetIn_race_false (x : SwitchFeatures) (p : PacketIn) (hp : p.mtch.Valid)
    {ι : Type} [DecidableEq ι] (g : ι → Decoding) (tr : List (ι × Nat)) (h : Executes g tr)
    {i j : ι} (hij : i ≠ j) (s : SwitchFeatures) (t : PacketIn) (r r' : Rd)
    (hi : g i = ⟨SwitchFeatures, SwitchFeatures.logged, s, r⟩)
    (hj : g j = ⟨PacketIn, PacketIn.logged, t, r'⟩)
    (hr : r.Ok .eof) (hr' : r'.Ok .eof)
    (hc : r.content = x.writeTo.out) (hc' : r'.content = p.writeTo.out) : Race tr := by
  have oi := ((switchFeatures_roundtrip x).2 s r [] hr (by simpa using hc)).2.2.1
  have oj := ((packetIn_roundtrip p hp).2 t r' hr' hc').2.2.1
  refine decoding_race g tr h hij (k := 2) ?_ ?_ ?_ ?_
  · rw [hi]; exact switchFeatures_stores
  · rw [hj]; exact packetIn_stores
  · rw [hi]; exact oi
  · rw [hj]; exact oj

/-- What does not race: a packet-in, a multipart reply, table statistics and a removed flow have no
padding of one size in common. -/
theorem mixed_no_race (tr : List (Fin 4 × Nat)) (g : Fin 4 → Decoding) (h : Executes g tr)
    (p : PacketIn) (m : MultipartReply) (t : TableStats) (f : FlowRemoved) (r0 r1 r2 r3 : Rd)
    (h0 : g 0 = ⟨_, PacketIn.logged, p, r0⟩) (h1 : g 1 = ⟨_, MultipartReply.logged, m, r1⟩)
    (h2 : g 2 = ⟨_, TableStats.logged, t, r2⟩) (h3 : g 3 = ⟨_, FlowRemoved.logged, f, r3⟩) :
    ¬ Race tr := by
  refine decoding_no_race_partial g tr h (fun i => [[2], [4], [3], []][i]) ?_ (by decide)
  intro i
  match i with
  | 0 => rw [h0]; exact packetIn_within
  | 1 => rw [h1]; exact multipartReply_within
  | 2 => rw [h2]; exact tableStats_within
  | 3 => rw [h3]; exact Within.own

/-! ## Cases -/

/-- A packet-in that ends inside its padding stores to nothing. -/
example : PacketIn.logged.log default (.src (zeros 21) [] .eof false) = [] := by decide +kernel

/-- One that has its padding stores once. -/
example : PacketIn.logged.log default (.src (zeros 22) [] .eof false) = [2] := by decide +kernel

/-- A port stores to three variables. -/
example : PortStatus.logged.log default (.src (zeros 72) [] .eof false) = [7, 4, 2] := by
  decide +kernel

/-- An execution of two goroutines that decode empty packet-ins; it races. -/
example : Executes (fun _ : Bool => ⟨PacketIn, PacketIn.logged, default, .src (zeros 22) [] .eof false⟩)
    [(true, 2), (false, 2)] := by
  intro i; cases i <;> decide +kernel

end Verif.Props
