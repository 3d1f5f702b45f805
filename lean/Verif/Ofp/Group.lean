import Verif.Ofp.Action
import Verif.Ofp.Fixed

/-!
# ofp/group.go (without the fixed-size messages)
-/

namespace Verif

/-! ## Model -/

/-- `Bucket`, ofp/group.go:127-144. -/
structure Bucket where
  weight : UInt16
  watchPort : UInt32
  watchGroup : UInt32
  actions : List Action
  deriving DecidableEq, Repr, Inhabited

/-- The zero value. -/
def Bucket.zero : Bucket := ⟨0, 0, 0, []⟩

/-- `(b *Bucket) WriteTo`, ofp/group.go:148-160. -/
def Bucket.writeTo (b : Bucket) : Wr :=
  match Actions.buf b.actions with
  | (_, some e) => ⟨[], 0, some e⟩
  | (buf, none) =>
    Enc.writeTo [.bin (be (UInt16.ofNat (16 + buf.length))), .bin (be b.weight),
      .bin (be b.watchPort), .bin (be b.watchGroup), .bin (zeros 4), .bin buf]

/-- `(b *Bucket) ReadFrom`, ofp/group.go:166-181.  `length-bucketLen` wraps around for
lengths below 16. -/
def Bucket.readFrom : Step Bucket :=
  Enc.withLocal (0 : UInt16) <| Enc.readFrom [
    Enc.num (fun v s => (s.1, v)), Enc.num (fun v s => ({ s.1 with weight := v }, s.2)),
    Enc.num (fun v s => ({ s.1 with watchPort := v }, s.2)),
    Enc.num (fun v s => ({ s.1 with watchGroup := v }, s.2)), Enc.skip 4,
    Enc.assign (fun s => ({ s.1 with actions := [] }, s.2)),
    Enc.dyn (fun s => Enc.limited (s.2 - 16).toNat
      (Enc.sub (fun s => s.1.actions) (fun v s => ({ s.1 with actions := v }, s.2)) Actions.readFrom))]

/-- `GroupMod`, ofp/group.go:74-92. -/
structure GroupMod where
  command : UInt16
  type : UInt8
  group : UInt32
  buckets : List Bucket
  deriving DecidableEq, Repr, Inhabited

/-- `(g *GroupMod) WriteTo`, ofp/group.go:96-104: the buckets go to the writer one by one,
after the header.  Here the writer does not fail; see Verif/Dest.lean. -/
def GroupMod.writeTo (g : GroupMod) : Wr :=
  let w := Enc.writeTo [.bin (be g.command), .bin (be g.type), .bin (zeros 1), .bin (be g.group)]
  match w.err with
  | some _ => w
  | none =>
    let w2 := Enc.writeSliceTo (g.buckets.map Bucket.writeTo)
    ⟨w.out ++ w2.out, w.n + w2.n, w2.err⟩

/-- `(g *GroupMod) ReadFrom`, ofp/group.go:108-118. -/
def GroupMod.readFrom : Step GroupMod :=
  Enc.readFrom [
    Enc.num (fun v s => { s with command := v }), Enc.num (fun v s => { s with type := v }),
    Enc.skip 1, Enc.num (fun v s => { s with group := v }),
    Enc.sub (fun s => s.buckets) (fun v s => { s with buckets := v })
      (Enc.readSliceFrom Bucket.zero Bucket.readFrom)]

/-- `GroupStats`, ofp/group.go:216-239. -/
structure GroupStats where
  group : UInt32
  refCount : UInt32
  packetCount : UInt64
  byteCount : UInt64
  durationSec : UInt32
  durationNSec : UInt32
  bucketStats : List BucketCounter
  deriving DecidableEq, Repr, Inhabited

/-- `(g *GroupStats) WriteTo`, ofp/group.go:243-254. -/
def GroupStats.writeTo (g : GroupStats) : Wr :=
  let buf := Enc.writeSliceTo (g.bucketStats.map BucketCounter.writeTo)
  match buf.err with
  | some e => ⟨[], 0, some e⟩
  | none => Enc.writeTo [.bin (be (UInt16.ofNat (40 + buf.out.length))), .bin (zeros 2),
      .bin (be g.group), .bin (be g.refCount), .bin (zeros 4), .bin (be g.packetCount),
      .bin (be g.byteCount), .bin (be g.durationSec), .bin (be g.durationNSec), .bin buf.out]

/-- `(g *GroupStats) ReadFrom`, ofp/group.go:258-274. -/
def GroupStats.readFrom : Step GroupStats :=
  Enc.withLocal (0 : UInt16) <| Enc.readFrom [
    Enc.num (fun v s => (s.1, v)), Enc.skip 2,
    Enc.num (fun v s => ({ s.1 with group := v }, s.2)),
    Enc.num (fun v s => ({ s.1 with refCount := v }, s.2)), Enc.skip 4,
    Enc.num (fun v s => ({ s.1 with packetCount := v }, s.2)),
    Enc.num (fun v s => ({ s.1 with byteCount := v }, s.2)),
    Enc.num (fun v s => ({ s.1 with durationSec := v }, s.2)),
    Enc.num (fun v s => ({ s.1 with durationNSec := v }, s.2)),
    Enc.dyn (fun s => Enc.limited (s.2 - 40).toNat
      (Enc.sub (fun s => s.1.bucketStats) (fun v s => ({ s.1 with bucketStats := v }, s.2))
        (Enc.readSliceFrom ⟨0, 0⟩ BucketCounter.readFrom)))]

/-- `GroupDescStats`, ofp/group.go:306-316. -/
structure GroupDescStats where
  type : UInt8
  group : UInt32
  buckets : List Bucket
  deriving DecidableEq, Repr, Inhabited

/-- `(g *GroupDescStats) WriteTo`, ofp/group.go:320-333. -/
def GroupDescStats.writeTo (g : GroupDescStats) : Wr :=
  let buf := Enc.writeSliceTo (g.buckets.map Bucket.writeTo)
  match buf.err with
  | some e => ⟨[], 0, some e⟩
  | none => Enc.writeTo [.bin (be (UInt16.ofNat (8 + buf.out.length))), .bin (be g.type),
      .bin (zeros 1), .bin (be g.group), .bin buf.out]

/-- `(g *GroupDescStats) ReadFrom`, ofp/group.go:337-350: the error of the header is
overwritten by that of the buckets. -/
def GroupDescStats.readFrom : Step GroupDescStats :=
  Enc.withLocal (0 : UInt16) <| Enc.readFrom [
    Enc.ignoreErr (Enc.readFrom [
      Enc.num (fun v s => (s.1, v)), Enc.num (fun v s => ({ s.1 with type := v }, s.2)),
      Enc.skip 1, Enc.num (fun v s => ({ s.1 with group := v }, s.2))]),
    Enc.dyn (fun s => Enc.limited (s.2 - 8).toNat
      (Enc.sub (fun s => s.1.buckets) (fun v s => ({ s.1 with buckets := v }, s.2))
        (Enc.readSliceFrom Bucket.zero Bucket.readFrom)))]

/-! ## Helper lemmas -/

theorem u16_ofNat_sub {c : UInt16} {L : Nat} (h : c.toNat + L ≤ 65535) :
    (UInt16.ofNat (c.toNat + L) - c).toNat = L := by
  have hl := u16_ofNat_toNat h
  rw [UInt16.toNat_sub_of_le]
  · omega
  · rw [UInt16.le_iff_toNat_le]; omega

theorem le_sum_of_mem {n : Nat} {l : List Nat} (h : n ∈ l) : n ≤ l.sum := by
  induction l with
  | nil => simp at h
  | cons a l ih =>
    simp only [List.mem_cons] at h
    simp only [List.sum_cons]
    rcases h with h | h
    · omega
    · have := ih h; omega

def Bucket.size (b : Bucket) : Nat := 16 + (b.actions.map Action.size).sum

/-- What the wire format can represent. -/
def Bucket.Valid (b : Bucket) : Prop := (∀ a ∈ b.actions, a.Valid) ∧ b.size ≤ 65535

instance Bucket.decValid (b : Bucket) : Decidable b.Valid := by unfold Bucket.Valid; infer_instance

def Bucket.bytes (b : Bucket) : Bytes := b.writeTo.out

theorem Bucket.bytes_eq (b : Bucket) : b.bytes =
    be (UInt16.ofNat (16 + (Actions.bytes b.actions).length)) ++ (be b.weight ++ (be b.watchPort ++
      (be b.watchGroup ++ (zeros 4 ++ Actions.bytes b.actions)))) := by
  simp [Bucket.bytes, Bucket.writeTo, Actions.buf_eq, Enc.writeTo, Enc.gather]

theorem Bucket.writeTo_eq (b : Bucket) : b.writeTo = ⟨b.bytes, b.bytes.length, none⟩ := by
  simp [Bucket.bytes, Bucket.writeTo, Actions.buf_eq, Enc.writeTo, Enc.gather]

theorem Bucket.bytes_length (b : Bucket) : b.bytes.length = b.size := by
  rw [Bucket.bytes_eq, Bucket.size, ← Actions.bytes_length]; simp; omega

theorem Bucket.reads (b : Bucket) (hv : b.Valid) (s : Bucket) : Reads Bucket.readFrom s b.bytes b := by
  obtain ⟨h1, h2⟩ := hv
  rw [Bucket.size, ← Actions.bytes_length] at h2
  rw [Bucket.bytes_eq]
  unfold Bucket.readFrom
  refine Reads.withLocal (l' := UInt16.ofNat (16 + (Actions.bytes b.actions).length)) ?_
  reads
  exact Reads.last (Reads.dyn (Reads.limited (ReadsAll.sub (Actions.readsAll b.actions h1 _))
    (u16_ofNat_sub (c := 16) h2)))

theorem Bucket.readFrom_safe : Safe ActErr Bucket.readFrom := by
  have h2 := Actions.readFrom_safe
  unfold Bucket.readFrom; safe

theorem Bucket.readFrom_moves : Moves Bucket.readFrom := by
  unfold Bucket.readFrom; moves

theorem Bucket.eof : EndsEmpty Bucket.readFrom Bucket.zero :=
  EndsEmpty.withLocal (readFrom_eof (k := 2) (by omega) _)

/-- The bytes of a list of buckets. -/
def Buckets.bytes (bs : List Bucket) : Bytes := bs.flatMap Bucket.bytes

theorem Buckets.writeTo_eq (bs : List Bucket) : Enc.writeSliceTo (bs.map Bucket.writeTo) =
    ⟨Buckets.bytes bs, (Buckets.bytes bs).length, none⟩ :=
  writeSliceTo_map Bucket.writeTo Bucket.bytes bs (fun x _ => x.writeTo_eq)

theorem Buckets.bytes_length (bs : List Bucket) :
    (Buckets.bytes bs).length = (bs.map Bucket.size).sum := by
  simp only [Buckets.bytes, List.length_flatMap, Bucket.bytes_length]

theorem Buckets.readsAll (s bs : List Bucket) (hv : ∀ b ∈ bs, b.Valid) :
    ReadsAll (Enc.readSliceFrom Bucket.zero Bucket.readFrom) s (Buckets.bytes bs) s :=
  ReadsAll.readSliceFrom s bs (fun b hb => b.reads (hv b hb) _)
    (fun b _ => by rw [Bucket.bytes_length, Bucket.size]; omega) Bucket.eof

theorem GroupMod.out_eq (g : GroupMod) : g.writeTo =
    ⟨be g.command ++ (be g.type ++ (zeros 1 ++ (be g.group ++ Buckets.bytes g.buckets))),
      8 + (Buckets.bytes g.buckets).length, none⟩ := by
  simp [GroupMod.writeTo, Enc.writeTo, Enc.gather, Buckets.writeTo_eq]

theorem GroupMod.readsAll (g : GroupMod) (hv : ∀ b ∈ g.buckets, b.Valid) (s : GroupMod) :
    ReadsAll GroupMod.readFrom s g.writeTo.out { g with buckets := s.buckets } := by
  rw [GroupMod.out_eq]
  unfold GroupMod.readFrom
  reads
  exact ReadsAll.last (ReadsAll.sub (Buckets.readsAll _ _ hv))

theorem GroupMod.readFrom_safe : Safe ActErr GroupMod.readFrom := by
  have h : Safe ActErr (Enc.readSliceFrom Bucket.zero Bucket.readFrom) :=
    Safe.readSliceFrom Bucket.readFrom_safe Bucket.readFrom_moves
  unfold GroupMod.readFrom; safe

theorem GroupMod.keeps : Keeps (fun g : GroupMod => g.buckets) GroupMod.readFrom :=
  Keeps.cons (Keeps.num fun _ _ => rfl) <| Keeps.cons (Keeps.num fun _ _ => rfl) <|
  Keeps.cons Keeps.skip <| Keeps.cons (Keeps.num fun _ _ => rfl) <|
  Keeps.cons (Keeps.sub fun _ _ => rfl) Keeps.nil

def BucketCounters.bytes (bs : List BucketCounter) : Bytes := bs.flatMap (fun b => b.writeTo.out)

theorem BucketCounters.writeTo_eq (bs : List BucketCounter) :
    Enc.writeSliceTo (bs.map BucketCounter.writeTo) =
    ⟨BucketCounters.bytes bs, (BucketCounters.bytes bs).length, none⟩ :=
  writeSliceTo_map BucketCounter.writeTo (fun b => b.writeTo.out) bs
    (fun x _ => by simp [BucketCounter.writeTo, Enc.writeTo, Enc.gather])

theorem BucketCounters.bytes_length (bs : List BucketCounter) :
    (BucketCounters.bytes bs).length = 16 * bs.length := by
  induction bs with
  | nil => rfl
  | cons b bs ih =>
    have : (BucketCounters.bytes (b :: bs)) = b.writeTo.out ++ BucketCounters.bytes bs := rfl
    rw [this, List.length_append, ih, List.length_cons]
    simp [BucketCounter.writeTo, Enc.writeTo, Enc.gather]
    omega

theorem BucketCounter.eof : EndsEmpty BucketCounter.readFrom ⟨0, 0⟩ :=
  readFrom_eof (k := 8) (by omega) _

theorem BucketCounters.readsAll (s bs : List BucketCounter) :
    ReadsAll (Enc.readSliceFrom ⟨0, 0⟩ BucketCounter.readFrom) s (BucketCounters.bytes bs) s :=
  ReadsAll.readSliceFrom s bs (fun b _ => b.reads _)
    (fun b _ => by simp [BucketCounter.writeTo, Enc.writeTo, Enc.gather]) BucketCounter.eof

theorem GroupStats.out_eq (g : GroupStats) : g.writeTo =
    ⟨be (UInt16.ofNat (40 + (BucketCounters.bytes g.bucketStats).length)) ++ (zeros 2 ++
      (be g.group ++ (be g.refCount ++ (zeros 4 ++ (be g.packetCount ++ (be g.byteCount ++
        (be g.durationSec ++ (be g.durationNSec ++ BucketCounters.bytes g.bucketStats)))))))),
      40 + (BucketCounters.bytes g.bucketStats).length, none⟩ := by
  simp [GroupStats.writeTo, Enc.writeTo, Enc.gather, BucketCounters.writeTo_eq]; omega

theorem GroupStats.reads (g : GroupStats) (hs : 40 + 16 * g.bucketStats.length ≤ 65535)
    (s : GroupStats) :
    Reads GroupStats.readFrom s g.writeTo.out { g with bucketStats := s.bucketStats } := by
  rw [← BucketCounters.bytes_length] at hs
  rw [GroupStats.out_eq]
  unfold GroupStats.readFrom
  refine Reads.withLocal (l' := UInt16.ofNat (40 + (BucketCounters.bytes g.bucketStats).length)) ?_
  reads
  exact Reads.last (Reads.dyn (Reads.limited (ReadsAll.sub (BucketCounters.readsAll _ _))
    (u16_ofNat_sub (c := 40) hs)))

theorem GroupStats.readFrom_safe : Safe ShortErr GroupStats.readFrom := by
  have h : Safe ShortErr (Enc.readSliceFrom ⟨0, 0⟩ BucketCounter.readFrom) :=
    Safe.readSliceFrom BucketCounter.flat.safe (BucketCounter.flat.moves (by omega))
  unfold GroupStats.readFrom; safe

theorem GroupStats.keeps : Keeps (fun g : GroupStats => g.bucketStats) GroupStats.readFrom :=
  Keeps.withLocal <|
  Keeps.cons (Keeps.num fun _ _ => rfl) <| Keeps.cons Keeps.skip <|
  Keeps.cons (Keeps.num fun _ _ => rfl) <| Keeps.cons (Keeps.num fun _ _ => rfl) <|
  Keeps.cons Keeps.skip <| Keeps.cons (Keeps.num fun _ _ => rfl) <|
  Keeps.cons (Keeps.num fun _ _ => rfl) <| Keeps.cons (Keeps.num fun _ _ => rfl) <|
  Keeps.cons (Keeps.num fun _ _ => rfl) <|
  Keeps.cons (Keeps.dyn fun _ => Keeps.limited (Keeps.sub fun _ _ => rfl)) Keeps.nil

theorem GroupDescStats.out_eq (g : GroupDescStats) : g.writeTo =
    ⟨(be (UInt16.ofNat (8 + (Buckets.bytes g.buckets).length)) ++ (be g.type ++ (zeros 1 ++
      be g.group))) ++ Buckets.bytes g.buckets, 8 + (Buckets.bytes g.buckets).length, none⟩ := by
  simp [GroupDescStats.writeTo, Enc.writeTo, Enc.gather, Buckets.writeTo_eq]; omega

theorem GroupDescStats.reads (g : GroupDescStats) (hv : ∀ b ∈ g.buckets, b.Valid)
    (hs : 8 + (g.buckets.map Bucket.size).sum ≤ 65535) (s : GroupDescStats) :
    ReadsC GroupDescStats.readFrom s g.writeTo.out { g with buckets := s.buckets } := by
  rw [← Buckets.bytes_length] at hs
  rw [GroupDescStats.out_eq]
  unfold GroupDescStats.readFrom
  refine ReadsC.withLocal (l' := UInt16.ofNat (8 + (Buckets.bytes g.buckets).length)) ?_
  refine ReadsC.ignoreErr (Reads.cons (s1 := ({ g with buckets := s.buckets }, UInt16.ofNat (8 + (Buckets.bytes g.buckets).length)))
    ?_ ?_)
  · reads
  · exact Reads.last (Reads.dyn (Reads.limited (ReadsAll.sub (Buckets.readsAll _ _ hv))
      (u16_ofNat_sub (c := 8) hs)))

theorem GroupDescStats.header_flat : Flat (Enc.readFrom [
      Enc.num (fun v s => (s.1, v)), Enc.num (fun v s => ({ s.1 with type := v }, s.2)),
      Enc.skip 1, Enc.num (fun v s => ({ s.1 with group := v }, s.2))] : Step (GroupDescStats × UInt16)) 8 :=
  Flat.cons Flat.num <| Flat.cons Flat.num <| Flat.cons Flat.skip <| Flat.cons Flat.num Flat.nil

theorem GroupDescStats.readFrom_safe : Safe ActErr GroupDescStats.readFrom := by
  have h : Safe ActErr (Enc.readSliceFrom Bucket.zero Bucket.readFrom) :=
    Safe.readSliceFrom Bucket.readFrom_safe Bucket.readFrom_moves
  unfold GroupDescStats.readFrom
  refine Safe.withLocal (Safe.cons (Safe.ignoreErr (E' := ActErr) GroupDescStats.header_flat.safe) ?_)
  safe

theorem GroupDescStats.keeps : Keeps (fun g : GroupDescStats => g.buckets) GroupDescStats.readFrom :=
  Keeps.withLocal <| Keeps.cons (Keeps.ignoreErr <|
    Keeps.cons (Keeps.num fun _ _ => rfl) <| Keeps.cons (Keeps.num fun _ _ => rfl) <|
    Keeps.cons Keeps.skip <| Keeps.cons (Keeps.num fun _ _ => rfl) Keeps.nil) <|
  Keeps.cons (Keeps.dyn fun _ => Keeps.limited (Keeps.sub fun _ _ => rfl)) Keeps.nil

/-- A list read after a header whose error is ignored: when the header is cut short there is
nothing left, and the list reports no error. -/
theorem ignored_header {σ τ : Type} {hd : Step σ} {k : Nat} (hf : Flat hd k) {n : σ → Nat}
    {get : σ → List τ} {set : List τ → σ → σ} {zero : τ} {st : Step τ}
    (heof : EndsEmpty st zero)
    (s : σ) (r : Rd) (hr : r.Ok .eof) (hc : r.content.length < k) :
    (Enc.readFrom [Enc.ignoreErr hd, Enc.dyn (fun s => Enc.limited (n s)
      (Enc.sub get set (Enc.readSliceFrom zero st)))] s r).err = none ∧
    (Enc.readFrom [Enc.ignoreErr hd, Enc.dyn (fun s => Enc.limited (n s)
      (Enc.sub get set (Enc.readSliceFrom zero st)))] s r).n = r.content.length := by
  obtain ⟨h1, h2, _, h4⟩ := hf s r hr
  obtain ⟨_, h5⟩ := h4 hc
  rcases ho : hd s r with ⟨v, m, e, r1⟩
  rw [ho] at h1 h2 h5
  simp only at h1 h2 h5
  have hc1 : r1.content = [] := by rw [h2.content.2, h5]; simp
  obtain ⟨r2, e2, _, _⟩ := ReadsAll.readSliceFrom (zero := zero) (st := st) (enc := fun _ => []) (val := fun x => x)
    (get v) [] (by simp) (by simp) heof (.lim (n v) r1) ⟨rfl, h1⟩ (by simp [Rd.content, hc1])
  have e3 := congrArg Out.err e2
  have e4 := congrArg Out.n e2
  simp only [List.flatMap_nil, List.length_nil] at e3 e4
  constructor
  · simp only [Enc.readFrom, Enc.ignoreErr, ho, Enc.dyn, Enc.limited, Enc.sub]
    rw [e3]
  · simp only [Enc.readFrom, Enc.ignoreErr, ho, Enc.dyn, Enc.limited, Enc.sub]
    rw [e3, e4]; simp [h5]

end Verif
