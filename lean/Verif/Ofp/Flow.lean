import Verif.Ofp.Instruction
import Verif.Ofp.Fixed

/-!
# ofp/flow.go and the request of ofp/aggregate.go
-/

namespace Verif

/-! ## Model -/

/-- `FlowMod`, ofp/flow.go:83-170. -/
structure FlowMod where
  cookie : UInt64
  cookieMask : UInt64
  table : UInt8
  command : UInt8
  idleTimeout : UInt16
  hardTimeout : UInt16
  priority : UInt16
  buffer : UInt32
  outPort : UInt32
  outGroup : UInt32
  flags : UInt16
  mtch : Match
  instructions : List Instruction
  deriving DecidableEq, Repr, Inhabited

/-- `(f *FlowMod) WriteTo`, ofp/flow.go:225-231. -/
def FlowMod.writeTo (f : FlowMod) : Wr :=
  Enc.writeTo [.bin (be f.cookie), .bin (be f.cookieMask), .bin (be f.table), .bin (be f.command),
    .bin (be f.idleTimeout), .bin (be f.hardTimeout), .bin (be f.priority), .bin (be f.buffer),
    .bin (be f.outPort), .bin (be f.outGroup), .bin (be f.flags), .bin (zeros 2),
    .writer f.mtch.writeTo, .writer (Instructions.writeTo f.instructions)]

/-- `(f *FlowMod) ReadFrom`, ofp/flow.go:235-245. -/
def FlowMod.readFrom : Step FlowMod :=
  Enc.readFrom [
    Enc.assign (fun s => { s with instructions := [] }),
    Enc.num (fun v s => { s with cookie := v }), Enc.num (fun v s => { s with cookieMask := v }),
    Enc.num (fun v s => { s with table := v }), Enc.num (fun v s => { s with command := v }),
    Enc.num (fun v s => { s with idleTimeout := v }), Enc.num (fun v s => { s with hardTimeout := v }),
    Enc.num (fun v s => { s with priority := v }), Enc.num (fun v s => { s with buffer := v }),
    Enc.num (fun v s => { s with outPort := v }), Enc.num (fun v s => { s with outGroup := v }),
    Enc.num (fun v s => { s with flags := v }), Enc.skip 2,
    Enc.sub (fun s => s.mtch) (fun v s => { s with mtch := v }) Match.readFrom,
    Enc.sub (fun s => s.instructions) (fun v s => { s with instructions := v }) Instructions.readFrom]

/-- `FlowRemoved`, ofp/flow.go:269-307. -/
structure FlowRemoved where
  cookie : UInt64
  priority : UInt16
  reason : UInt8
  table : UInt8
  durationSec : UInt32
  durationNSec : UInt32
  idleTimeout : UInt16
  hardTimeout : UInt16
  packetCount : UInt64
  byteCount : UInt64
  mtch : Match
  deriving DecidableEq, Repr, Inhabited

/-- `(f *FlowRemoved) WriteTo`, ofp/flow.go:321-326. -/
def FlowRemoved.writeTo (f : FlowRemoved) : Wr :=
  Enc.writeTo [.bin (be f.cookie), .bin (be f.priority), .bin (be f.reason), .bin (be f.table),
    .bin (be f.durationSec), .bin (be f.durationNSec), .bin (be f.idleTimeout),
    .bin (be f.hardTimeout), .bin (be f.packetCount), .bin (be f.byteCount), .writer f.mtch.writeTo]

/-- `(f *FlowRemoved) ReadFrom`, ofp/flow.go:330-335. -/
def FlowRemoved.readFrom : Step FlowRemoved :=
  Enc.readFrom [
    Enc.num (fun v s => { s with cookie := v }), Enc.num (fun v s => { s with priority := v }),
    Enc.num (fun v s => { s with reason := v }), Enc.num (fun v s => { s with table := v }),
    Enc.num (fun v s => { s with durationSec := v }), Enc.num (fun v s => { s with durationNSec := v }),
    Enc.num (fun v s => { s with idleTimeout := v }), Enc.num (fun v s => { s with hardTimeout := v }),
    Enc.num (fun v s => { s with packetCount := v }), Enc.num (fun v s => { s with byteCount := v }),
    Enc.sub (fun s => s.mtch) (fun v s => { s with mtch := v }) Match.readFrom]

/-- `FlowStatsRequest`, ofp/flow.go:355-377. -/
structure FlowStatsRequest where
  table : UInt8
  outPort : UInt32
  outGroup : UInt32
  cookie : UInt64
  cookieMask : UInt64
  mtch : Match
  deriving DecidableEq, Repr, Inhabited

/-- `(f *FlowStatsRequest) WriteTo`, ofp/flow.go:393-397. -/
def FlowStatsRequest.writeTo (f : FlowStatsRequest) : Wr :=
  Enc.writeTo [.bin (be f.table), .bin (zeros 3), .bin (be f.outPort), .bin (be f.outGroup),
    .bin (zeros 4), .bin (be f.cookie), .bin (be f.cookieMask), .writer f.mtch.writeTo]

/-- `(f *FlowStatsRequest) ReadFrom`, ofp/flow.go:401-405. -/
def FlowStatsRequest.readFrom : Step FlowStatsRequest :=
  Enc.readFrom [
    Enc.num (fun v s => { s with table := v }), Enc.skip 3,
    Enc.num (fun v s => { s with outPort := v }), Enc.num (fun v s => { s with outGroup := v }),
    Enc.skip 4, Enc.num (fun v s => { s with cookie := v }),
    Enc.num (fun v s => { s with cookieMask := v }),
    Enc.sub (fun s => s.mtch) (fun v s => { s with mtch := v }) Match.readFrom]

/-- `AggregateStatsRequest`, ofp/aggregate.go:28-50. -/
structure AggregateStatsRequest where
  table : UInt8
  outPort : UInt32
  outGroup : UInt32
  cookie : UInt64
  cookieMask : UInt64
  mtch : Match
  deriving DecidableEq, Repr, Inhabited

/-- `(a *AggregateStatsRequest) WriteTo`, ofp/aggregate.go:67-71. -/
def AggregateStatsRequest.writeTo (f : AggregateStatsRequest) : Wr :=
  Enc.writeTo [.bin (be f.table), .bin (zeros 3), .bin (be f.outPort), .bin (be f.outGroup),
    .bin (zeros 4), .bin (be f.cookie), .bin (be f.cookieMask), .writer f.mtch.writeTo]

/-- `(a *AggregateStatsRequest) ReadFrom`, ofp/aggregate.go:75-79. -/
def AggregateStatsRequest.readFrom : Step AggregateStatsRequest :=
  Enc.readFrom [
    Enc.num (fun v s => { s with table := v }), Enc.skip 3,
    Enc.num (fun v s => { s with outPort := v }), Enc.num (fun v s => { s with outGroup := v }),
    Enc.skip 4, Enc.num (fun v s => { s with cookie := v }),
    Enc.num (fun v s => { s with cookieMask := v }),
    Enc.sub (fun s => s.mtch) (fun v s => { s with mtch := v }) Match.readFrom]

/-- `FlowStats`, ofp/flow.go:409-446. -/
structure FlowStats where
  table : UInt8
  durationSec : UInt32
  durationNSec : UInt32
  priority : UInt16
  idleTimeout : UInt16
  hardTimeout : UInt16
  flags : UInt16
  cookie : UInt64
  packetCount : UInt64
  byteCount : UInt64
  mtch : Match
  instructions : List Instruction
  deriving DecidableEq, Repr, Inhabited

/-- `(f *FlowStats) WriteTo`, ofp/flow.go:462-476. -/
def FlowStats.writeTo (f : FlowStats) : Wr :=
  let buf := Enc.writeTo [.bin (be f.table), .bin (zeros 1), .bin (be f.durationSec),
    .bin (be f.durationNSec), .bin (be f.priority), .bin (be f.idleTimeout),
    .bin (be f.hardTimeout), .bin (be f.flags), .bin (zeros 4), .bin (be f.cookie),
    .bin (be f.packetCount), .bin (be f.byteCount), .writer f.mtch.writeTo,
    .writer (Instructions.writeTo f.instructions)]
  match buf.err with
  | some e => ⟨[], 0, some e⟩
  | none => Enc.writeTo [.bin (be (UInt16.ofNat (buf.out.length + 2))), .bin buf.out]

/-- `(f *FlowStats) ReadFrom`, ofp/flow.go:480-497. -/
def FlowStats.readFrom : Step FlowStats :=
  Enc.withLocal (0 : UInt16) <| Enc.andThen
    (Enc.readFrom [
      Enc.num (fun v s => (s.1, v)), Enc.num (fun v s => ({ s.1 with table := v }, s.2)),
      Enc.skip 1, Enc.num (fun v s => ({ s.1 with durationSec := v }, s.2)),
      Enc.num (fun v s => ({ s.1 with durationNSec := v }, s.2)),
      Enc.num (fun v s => ({ s.1 with priority := v }, s.2)),
      Enc.num (fun v s => ({ s.1 with idleTimeout := v }, s.2)),
      Enc.num (fun v s => ({ s.1 with hardTimeout := v }, s.2)),
      Enc.num (fun v s => ({ s.1 with flags := v }, s.2)), Enc.skip 4,
      Enc.num (fun v s => ({ s.1 with cookie := v }, s.2)),
      Enc.num (fun v s => ({ s.1 with packetCount := v }, s.2)),
      Enc.num (fun v s => ({ s.1 with byteCount := v }, s.2)),
      Enc.sub (fun s => s.1.mtch) (fun v s => ({ s.1 with mtch := v }, s.2)) Match.readFrom])
    (fun n => Enc.readFrom [
      Enc.assign (fun s => ({ s.1 with instructions := [] }, s.2)),
      Enc.dyn (fun s => Enc.limited (s.2.toNat - n)
        (Enc.sub (fun s => s.1.instructions) (fun v s => ({ s.1 with instructions := v }, s.2))
          Instructions.readFrom))])

/-- The fields of `PacketIn` that `NewFlowMod` uses are passed as `some (buffer, match)`;
`none` is a nil packet.  `NewFlowMod`, ofp/flow.go:177-210, with `NoBuffer`
(packet.go:15), `PortAny` (port.go:247), `GroupAny` (group.go:55), `FlowDelete` = 3,
`FlowDeleteStrict` = 4 (flow.go:16-33), `FlowFlagSendFlowRem` = 1 (flow.go:39). -/
def newFlowMod (c : UInt8) (p : Option (UInt32 × Match)) : FlowMod :=
  let flags : UInt16 := if c = 3 ∨ c = 4 then 0 else 1
  let bm : UInt32 × Match := match p with
    | none => (0xffffffff, Match.zero)
    | some q => q
  { cookie := 0, cookieMask := 0, table := 0, command := c, idleTimeout := 0, hardTimeout := 0,
    priority := 0, buffer := bm.1, outPort := 0xffffffff, outGroup := 0xffffffff, flags := flags,
    mtch := bm.2, instructions := [] }

/-! ## Helper lemmas -/

theorem FlowMod.out_eq (f : FlowMod) : f.writeTo =
    ⟨be f.cookie ++ (be f.cookieMask ++ (be f.table ++ (be f.command ++ (be f.idleTimeout ++
      (be f.hardTimeout ++ (be f.priority ++ (be f.buffer ++ (be f.outPort ++ (be f.outGroup ++
        (be f.flags ++ (zeros 2 ++ (f.mtch.bytes ++ Instructions.bytes f.instructions)))))))))))),
      48 - 8 + f.mtch.bytes.length + (Instructions.bytes f.instructions).length, none⟩ := by
  simp [FlowMod.writeTo, Enc.writeTo, Enc.gather, Match.writeTo_eq, Instructions.writeTo_eq]
  omega

theorem FlowMod.readsAll (f : FlowMod) (hm : f.mtch.Valid) (hi : ∀ i ∈ f.instructions, i.Valid)
    (s : FlowMod) : ReadsAll FlowMod.readFrom s f.writeTo.out f := by
  rw [FlowMod.out_eq]
  unfold FlowMod.readFrom
  reads
  refine ReadsAll.cons (Reads.sub (f.mtch.reads hm _)) ?_
  exact ReadsAll.last (ReadsAll.sub (Instructions.readsAll f.instructions hi []))

theorem FlowRemoved.reads (f : FlowRemoved) (hm : f.mtch.Valid) (s : FlowRemoved) :
    Reads FlowRemoved.readFrom s f.writeTo.out f := by
  simp only [FlowRemoved.writeTo, Enc.writeTo, Enc.gather, Match.writeTo_eq, List.append_nil]
  unfold FlowRemoved.readFrom
  reads
  exact Reads.last (Reads.sub (f.mtch.reads hm _))

theorem FlowStatsRequest.reads (f : FlowStatsRequest) (hm : f.mtch.Valid) (s : FlowStatsRequest) :
    Reads FlowStatsRequest.readFrom s f.writeTo.out f := by
  simp only [FlowStatsRequest.writeTo, Enc.writeTo, Enc.gather, Match.writeTo_eq, List.append_nil]
  unfold FlowStatsRequest.readFrom
  reads
  exact Reads.last (Reads.sub (f.mtch.reads hm _))

theorem AggregateStatsRequest.reads (f : AggregateStatsRequest) (hm : f.mtch.Valid)
    (s : AggregateStatsRequest) : Reads AggregateStatsRequest.readFrom s f.writeTo.out f := by
  simp only [AggregateStatsRequest.writeTo, Enc.writeTo, Enc.gather, Match.writeTo_eq, List.append_nil]
  unfold AggregateStatsRequest.readFrom
  reads
  exact Reads.last (Reads.sub (f.mtch.reads hm _))

/-- The size of a flow statistics entry. -/
def FlowStats.size (f : FlowStats) : Nat :=
  48 + f.mtch.writeTo.out.length + (Instructions.writeTo f.instructions).out.length

def FlowStats.len (f : FlowStats) : UInt16 := UInt16.ofNat f.size

theorem FlowStats.out_eq (f : FlowStats) : f.writeTo =
    ⟨(be f.len ++ (be f.table ++ (zeros 1 ++ (be f.durationSec ++ (be f.durationNSec ++
      (be f.priority ++ (be f.idleTimeout ++ (be f.hardTimeout ++ (be f.flags ++ (zeros 4 ++
        (be f.cookie ++ (be f.packetCount ++ (be f.byteCount ++ f.mtch.bytes))))))))))))) ++
        Instructions.bytes f.instructions, f.size, none⟩ := by
  have : f.len = UInt16.ofNat (1 + (1 + (4 + (4 + (2 + (2 + (2 + (2 + (4 + (8 + (8 + (8 +
      (f.mtch.bytes.length + (Instructions.bytes f.instructions).length))))))))))) ) + 2) := by
    simp only [FlowStats.len, FlowStats.size, Match.writeTo_eq, Instructions.writeTo_eq]
    congr 1; omega
  simp [FlowStats.writeTo, Enc.writeTo, Enc.gather, Match.writeTo_eq, Instructions.writeTo_eq, this,
    FlowStats.size]
  omega

theorem FlowStats.reads (f : FlowStats) (hm : f.mtch.Valid) (hi : ∀ i ∈ f.instructions, i.Valid)
    (hs : f.size ≤ 65535) (s : FlowStats) : Reads FlowStats.readFrom s f.writeTo.out f := by
  rw [FlowStats.out_eq]
  unfold FlowStats.readFrom
  refine Reads.withLocal (l' := f.len) ?_
  refine Reads.andThen (s1 := ({ f with instructions := s.instructions }, f.len)) ?_ ?_
  · reads
    exact Reads.last (Reads.sub (f.mtch.reads hm _))
  · refine Reads.assignCons ?_
    refine Reads.last (Reads.dyn (Reads.limited (ReadsAll.sub (Instructions.readsAll f.instructions hi [])) ?_))
    have hl : f.len.toNat = f.size := u16_ofNat_toNat hs
    simp only [hl]
    simp only [FlowStats.size, Match.writeTo_eq, Instructions.writeTo_eq]
    simp; omega

theorem FlowMod.readFrom_safe : Safe ActErr FlowMod.readFrom := by
  have h1 : Safe ActErr Match.readFrom := Match.readFrom_safe
  have h2 := Instructions.readFrom_safe
  unfold FlowMod.readFrom; safe

theorem FlowRemoved.readFrom_safe : Safe ShortErr FlowRemoved.readFrom := by
  have h1 : Safe ShortErr Match.readFrom := Match.readFrom_safe
  unfold FlowRemoved.readFrom; safe

theorem FlowStatsRequest.readFrom_safe : Safe ShortErr FlowStatsRequest.readFrom := by
  have h1 : Safe ShortErr Match.readFrom := Match.readFrom_safe
  unfold FlowStatsRequest.readFrom; safe

theorem AggregateStatsRequest.readFrom_safe : Safe ShortErr AggregateStatsRequest.readFrom := by
  have h1 : Safe ShortErr Match.readFrom := Match.readFrom_safe
  unfold AggregateStatsRequest.readFrom; safe

theorem FlowStats.readFrom_safe : Safe ActErr FlowStats.readFrom := by
  have h1 : Safe ActErr Match.readFrom := Match.readFrom_safe
  have h2 := Instructions.readFrom_safe
  unfold FlowStats.readFrom; safe

end Verif
