import Verif.Ofp.Group

/-!
# ofp/queue.go (without the fixed-size messages)
-/

namespace Verif

/-! ## Model -/

/-- The implementations of `QueueProp`: `QueuePropMinRate`, ofp/queue.go:160-164,
`QueuePropMaxRate`, 186-190, `QueuePropExperimenter`, 212-218. -/
inductive QueueProp where
  | minRate (rate : UInt16)
  | maxRate (rate : UInt16)
  | experimenter (exp : UInt32) (data : Bytes)
  deriving DecidableEq, Repr, Inhabited

/-- The `Type` methods, ofp/queue.go:168-170, 194-196, 222-224; constants 16-26. -/
def QueueProp.type : QueueProp → UInt16
  | .minRate _ => 1
  | .maxRate _ => 2
  | .experimenter .. => 0xffff

/-- The `WriteTo` methods of the properties. -/
def QueueProp.writeTo (q : QueueProp) : Wr :=
  match q with
  -- ofp/queue.go:174-177
  | .minRate x => Enc.writeTo [.bin (be q.type ++ be (16 : UInt16)), .bin (zeros 4), .bin (be x),
      .bin (zeros 6)]
  -- ofp/queue.go:200-203
  | .maxRate x => Enc.writeTo [.bin (be q.type ++ be (16 : UInt16)), .bin (zeros 4), .bin (be x),
      .bin (zeros 6)]
  -- ofp/queue.go:228-232, the length wraps around above 65519 bytes of data
  | .experimenter e d => Enc.writeTo [.bin (be q.type ++ be (16 + UInt16.ofNat d.length)),
      .bin (zeros 4), .bin (be e), .bin (zeros 4), .bin d]

/-- `ReadFrom` of `QueuePropMinRate` and `QueuePropMaxRate`, ofp/queue.go:181-183, 207-209. -/
def QueueProp.readRate : Step UInt16 :=
  Enc.readFrom [Enc.skip 8, Enc.num (fun v _ => v), Enc.skip 6]

/-- `(q *QueuePropExperimenter) ReadFrom`, ofp/queue.go:236-248; the header is one
`binary.Read` of four bytes, its `Type` is never looked at. -/
def QueueProp.readExperimenter : Step (UInt32 × Bytes) :=
  Enc.withLocal (0 : UInt16) <| Enc.readFrom [
    Enc.bin 4 (fun b s => (s.1, ofBE UInt16 (b.drop 2))), Enc.skip 4,
    Enc.num (fun v s => ((v, s.1.2), s.2)), Enc.skip 4,
    Enc.dyn (fun s => Enc.limited (s.2 - 16).toNat (Enc.rest (fun b s => ((s.1.1, b), s.2))))]

/-- The `ReadFrom` methods of the properties. -/
def QueueProp.readFrom : Step QueueProp := fun q r =>
  match q with
  | .minRate x => Enc.wrap .minRate QueueProp.readRate x r
  | .maxRate x => Enc.wrap .maxRate QueueProp.readRate x r
  | .experimenter e d => Enc.wrap (fun s => .experimenter s.1 s.2) QueueProp.readExperimenter (e, d) r

/-- `queuePropTypeMap`, ofp/queue.go:30-34, and the reader maker, 75-84. -/
def queuePropMake (code : UInt16) : Except Err QueueProp :=
  match code.toNat with
  | 1 => .ok (.minRate 0)
  | 2 => .ok (.maxRate 0)
  | 65535 => .ok (.experimenter 0 [])
  | _ => .error .unknownType

/-- `(q QueueProps) WriteTo`, ofp/queue.go:57-68. -/
def QueueProps.writeTo (ps : List QueueProp) : Wr :=
  let buf := Enc.writeSliceTo (ps.map QueueProp.writeTo)
  match buf.err with
  | some e => ⟨[], 0, some e⟩
  | none => Enc.writeTo [.bin buf.out]

/-- The body of `(q QueueProps) ReadFrom`, ofp/queue.go:72-88, on the method's own copy. -/
def QueueProps.scan : Step (List QueueProp) := Enc.scanFrom queuePropMake QueueProp.readFrom

/-- `(q QueueProps) ReadFrom`, ofp/queue.go:72-88: the receiver is a value, the caller's
list is unchanged. -/
def QueueProps.readFrom : Step (List QueueProp) := Enc.subVal id QueueProps.scan

/-- `PacketQueue`, ofp/queue.go:100-109. -/
structure PacketQueue where
  queue : UInt32
  port : UInt32
  properties : List QueueProp
  deriving DecidableEq, Repr, Inhabited

/-- The zero value. -/
def PacketQueue.zero : PacketQueue := ⟨0, 0, []⟩

/-- `(q *PacketQueue) WriteTo`, ofp/queue.go:113-122. -/
def PacketQueue.writeTo (q : PacketQueue) : Wr :=
  let buf := QueueProps.writeTo q.properties
  match buf.err with
  | some e => ⟨[], 0, some e⟩
  | none => Enc.writeTo [.bin (be q.queue), .bin (be q.port),
      .bin (be (UInt16.ofNat (buf.out.length + 16))), .bin (zeros 6), .bin buf.out]

/-- `(q *PacketQueue) ReadFrom`, ofp/queue.go:126-138. -/
def PacketQueue.readFrom : Step PacketQueue :=
  Enc.withLocal (0 : UInt16) <| Enc.readFrom [
    Enc.num (fun v s => ({ s.1 with queue := v }, s.2)),
    Enc.num (fun v s => ({ s.1 with port := v }, s.2)),
    Enc.num (fun v s => (s.1, v)), Enc.skip 6,
    Enc.dyn (fun s => Enc.limited (s.2 - 16).toNat
      (Enc.sub (fun s => s.1.properties) (fun v s => ({ s.1 with properties := v }, s.2))
        QueueProps.readFrom))]

/-- `QueueGetConfigReply`, ofp/queue.go:343-349. -/
structure QueueGetConfigReply where
  port : UInt32
  queues : List PacketQueue
  deriving DecidableEq, Repr, Inhabited

/-- `(q *QueueGetConfigReply) WriteTo`, ofp/queue.go:353-363. -/
def QueueGetConfigReply.writeTo (q : QueueGetConfigReply) : Wr :=
  let buf := Enc.writeSliceTo (q.queues.map PacketQueue.writeTo)
  match buf.err with
  | some e => ⟨[], 0, some e⟩
  | none => Enc.writeTo [.bin (be q.port), .bin (zeros 4), .bin buf.out]

/-- `(q *QueueGetConfigReply) ReadFrom`, ofp/queue.go:367-380. -/
def QueueGetConfigReply.readFrom : Step QueueGetConfigReply :=
  Enc.readFrom [
    Enc.num (fun v s => { s with port := v }), Enc.skip 4,
    Enc.sub (fun s => s.queues) (fun v s => { s with queues := v })
      (Enc.readSliceFrom PacketQueue.zero PacketQueue.readFrom)]

/-! ## Helper lemmas -/

def QueueProp.bytes (b : QueueProp) : Bytes := b.writeTo.out

def QueueProp.zero : QueueProp → QueueProp
  | .minRate _ => .minRate 0
  | .maxRate _ => .maxRate 0
  | .experimenter .. => .experimenter 0 []

def QueueProp.size : QueueProp → Nat
  | .experimenter _ d => 16 + d.length
  | _ => 16

/-- What the wire format can represent. -/
def QueueProp.Valid (q : QueueProp) : Prop := q.size ≤ 65535

instance QueueProp.decValid (q : QueueProp) : Decidable q.Valid := by
  unfold QueueProp.Valid; infer_instance

theorem QueueProp.writeTo_eq (b : QueueProp) : b.writeTo = ⟨b.bytes, b.bytes.length, none⟩ := by
  cases b <;> simp [QueueProp.bytes, QueueProp.writeTo, Enc.writeTo, Enc.gather]

theorem QueueProp.bytes_length (b : QueueProp) : b.bytes.length = b.size := by
  cases b <;> simp [QueueProp.bytes, QueueProp.writeTo, Enc.writeTo, Enc.gather, QueueProp.size]
  omega

theorem QueueProp.bytes_type (b : QueueProp) : ∃ t, b.bytes = be b.type ++ t := by
  cases b <;> simp [QueueProp.bytes, QueueProp.writeTo, Enc.writeTo, Enc.gather, QueueProp.type]

theorem queuePropMake_type (b : QueueProp) : queuePropMake b.type = .ok b.zero := by cases b <;> rfl

theorem QueueProp.readRate_reads (x s t : UInt16) :
    Reads QueueProp.readRate s (be t ++ (be (16 : UInt16) ++ (zeros 4 ++ (be x ++ zeros 6)))) x := by
  have h := Reads.cons (Reads.skip (s := s) (k := 8)
      (b := be t ++ (be (16 : UInt16) ++ zeros 4)) (by simp))
    (Reads.cons (Reads.num (set := fun v _ => v) x) (Reads.last (Reads.skip (k := 6) (zeros_length 6))))
  unfold QueueProp.readRate
  simpa using h

theorem QueueProp.readExperimenter_reads (e : UInt32) (d : Bytes) (s : UInt32 × Bytes) (t : UInt16)
    (hd : 16 + d.length ≤ 65535) :
    Reads QueueProp.readExperimenter s (be t ++ (be (16 + UInt16.ofNat d.length) ++ (zeros 4 ++
      (be e ++ (zeros 4 ++ d))))) (e, d) := by
  have hsub : ((16 + UInt16.ofNat d.length) - 16 : UInt16).toNat = d.length := by
    have : ((16 + UInt16.ofNat d.length) - 16 : UInt16) = UInt16.ofNat d.length := by
      rw [UInt16.add_comm, UInt16.add_sub_cancel]
    rw [this]; exact u16_ofNat_toNat (by omega)
  refine Reads.withLocal (l' := 16 + UInt16.ofNat d.length) ?_
  have h := Reads.cons (Reads.bin (s := (s, (0 : UInt16))) (k := 4)
      (b := be t ++ be (16 + UInt16.ofNat d.length))
      (set := fun b s => (s.1, ofBE UInt16 (b.drop 2))) (by simp))
    (Reads.cons (Reads.skip (k := 4) (zeros_length 4))
      (Reads.cons (Reads.num (set := fun v s => ((v, s.1.2), s.2)) e)
        (Reads.cons (Reads.skip (k := 4) (zeros_length 4))
          (Reads.last (Reads.dyn (f := fun s => Enc.limited (s.2 - 16).toNat
            (Enc.rest (fun b s => ((s.1.1, b), s.2)))) (Reads.limited (ReadsAll.rest d)
              (by simpa using hsub)))))))
  simpa using h

theorem QueueProp.reads' (b s : QueueProp) (hv : b.Valid) (hs : s.type = b.type) :
    Reads QueueProp.readFrom s b.bytes b := by
  cases b with
  | minRate x =>
    obtain ⟨p, rfl⟩ : ∃ p, s = .minRate p := by cases s <;> simp_all [QueueProp.type]
    have := Reads.wrap (dec := QueueProp.readFrom) (s := .minRate p) (f := QueueProp.minRate)
      (QueueProp.readRate_reads x p 1) (fun r => rfl)
    simpa [QueueProp.bytes, QueueProp.writeTo, Enc.writeTo, Enc.gather, QueueProp.type] using this
  | maxRate x =>
    obtain ⟨p, rfl⟩ : ∃ p, s = .maxRate p := by cases s <;> simp_all [QueueProp.type]
    have := Reads.wrap (dec := QueueProp.readFrom) (s := .maxRate p) (f := QueueProp.maxRate)
      (QueueProp.readRate_reads x p 2) (fun r => rfl)
    simpa [QueueProp.bytes, QueueProp.writeTo, Enc.writeTo, Enc.gather, QueueProp.type] using this
  | experimenter e d =>
    obtain ⟨p, q, rfl⟩ : ∃ p q, s = .experimenter p q := by cases s <;> simp_all [QueueProp.type]
    have := Reads.wrap (dec := QueueProp.readFrom) (s := .experimenter p q)
      (f := fun s : UInt32 × Bytes => QueueProp.experimenter s.1 s.2)
      (QueueProp.readExperimenter_reads e d (p, q) 0xffff hv) (fun r => rfl)
    simpa [QueueProp.bytes, QueueProp.writeTo, Enc.writeTo, Enc.gather, QueueProp.type] using this

theorem QueueProp.readRate_flat : Flat QueueProp.readRate 16 :=
  Flat.cons Flat.skip <| Flat.cons Flat.num <| Flat.cons Flat.skip Flat.nil

theorem QueueProp.readExperimenter_safe : Safe ShortErr QueueProp.readExperimenter := by
  unfold QueueProp.readExperimenter; safe

theorem QueueProp.readExperimenter_moves : Moves QueueProp.readExperimenter :=
  Moves.withLocal (Moves.cons (Flat.bin.moves (by omega)) (t := _))

theorem QueueProp.readFrom_safe : Safe ShortErr QueueProp.readFrom := by
  intro q r hr
  cases q with
  | minRate => exact SafeAt.wrap QueueProp.readRate_flat.safe hr
  | maxRate => exact SafeAt.wrap QueueProp.readRate_flat.safe hr
  | experimenter =>
    exact SafeAt.wrap (f := fun s : UInt32 × Bytes => QueueProp.experimenter s.1 s.2)
      QueueProp.readExperimenter_safe hr

theorem QueueProp.readFrom_moves : Moves QueueProp.readFrom := by
  intro q r hr
  cases q with
  | minRate => exact Moves.wrap (QueueProp.readRate_flat.moves (by omega)) hr
  | maxRate => exact Moves.wrap (QueueProp.readRate_flat.moves (by omega)) hr
  | experimenter => exact Moves.wrap QueueProp.readExperimenter_moves hr

def QueueProps.bytes (bs : List QueueProp) : Bytes := bs.flatMap QueueProp.bytes

theorem QueueProps.writeTo_eq (bs : List QueueProp) :
    QueueProps.writeTo bs = ⟨QueueProps.bytes bs, (QueueProps.bytes bs).length, none⟩ := by
  have := writeSliceTo_map QueueProp.writeTo QueueProp.bytes bs (fun x _ => x.writeTo_eq)
  simp [QueueProps.writeTo, this, Enc.writeTo, Enc.gather, QueueProps.bytes]

theorem QueueProps.bytes_length (bs : List QueueProp) :
    (QueueProps.bytes bs).length = (bs.map QueueProp.size).sum := by
  induction bs with
  | nil => rfl
  | cons b bs ih =>
    have : QueueProps.bytes (b :: bs) = b.bytes ++ QueueProps.bytes bs := rfl
    rw [this, List.length_append, ih, List.map_cons, List.sum_cons, b.bytes_length]

theorem QueueProps.scan_readsAll (bs s : List QueueProp) (hv : ∀ b ∈ bs, b.Valid) :
    ReadsAll QueueProps.scan s (QueueProps.bytes bs) (s ++ bs) :=
  ReadsAll.scanFrom (enc := QueueProp.bytes) (zero := QueueProp.zero) (code := QueueProp.type) s bs
    (fun b hb => b.reads' _ (hv b hb) (by cases b <;> rfl)) (fun b _ => queuePropMake_type b)
    (fun b _ => b.bytes_type)

theorem QueueProps.readsAll (bs s : List QueueProp) (hv : ∀ b ∈ bs, b.Valid) :
    ReadsAll QueueProps.readFrom s (QueueProps.bytes bs) s :=
  ReadsAll.subVal (QueueProps.scan_readsAll bs _ hv)

theorem queuePropMake_err (c : UInt16) (e : Err) (h : queuePropMake c = .error e) :
    e = .unknownType := by
  unfold queuePropMake at h
  split at h <;> simp at h
  exact h.symm

theorem QueueProps.readFrom_safe : Safe DecErr QueueProps.readFrom :=
  Safe.subVal (Safe.scanFrom (QueueProp.readFrom_safe.mono fun _ => ShortErr.dec)
    QueueProp.readFrom_moves (fun c e h => by simp [DecErr, queuePropMake_err c e h]))

def PacketQueue.bytes (q : PacketQueue) : Bytes := q.writeTo.out

def PacketQueue.size (q : PacketQueue) : Nat := 16 + (q.properties.map QueueProp.size).sum

def PacketQueue.Valid (q : PacketQueue) : Prop := (∀ p ∈ q.properties, p.Valid) ∧ q.size ≤ 65535

instance PacketQueue.decValid (q : PacketQueue) : Decidable q.Valid := by
  unfold PacketQueue.Valid; infer_instance

theorem PacketQueue.bytes_eq (q : PacketQueue) : q.bytes =
    be q.queue ++ (be q.port ++ (be (UInt16.ofNat ((QueueProps.bytes q.properties).length + 16)) ++
      (zeros 6 ++ QueueProps.bytes q.properties))) := by
  simp [PacketQueue.bytes, PacketQueue.writeTo, QueueProps.writeTo_eq, Enc.writeTo, Enc.gather]

theorem PacketQueue.writeTo_eq (q : PacketQueue) : q.writeTo = ⟨q.bytes, q.bytes.length, none⟩ := by
  simp [PacketQueue.bytes, PacketQueue.writeTo, QueueProps.writeTo_eq, Enc.writeTo, Enc.gather]

theorem PacketQueue.bytes_length (q : PacketQueue) : q.bytes.length = q.size := by
  rw [PacketQueue.bytes_eq, PacketQueue.size, ← QueueProps.bytes_length]; simp; omega

theorem PacketQueue.reads (q s : PacketQueue) (hv : q.Valid) :
    Reads PacketQueue.readFrom s q.bytes { q with properties := s.properties } := by
  obtain ⟨h1, h2⟩ := hv
  rw [PacketQueue.size, ← QueueProps.bytes_length] at h2
  rw [PacketQueue.bytes_eq, Nat.add_comm]
  unfold PacketQueue.readFrom
  refine Reads.withLocal (l' := UInt16.ofNat (16 + (QueueProps.bytes q.properties).length)) ?_
  reads
  exact Reads.last (Reads.dyn (Reads.limited (ReadsAll.sub (QueueProps.readsAll _ _ h1))
    (u16_ofNat_sub (c := 16) h2)))

theorem PacketQueue.readFrom_safe : Safe DecErr PacketQueue.readFrom := by
  have h2 := QueueProps.readFrom_safe
  unfold PacketQueue.readFrom; safe

theorem PacketQueue.readFrom_moves : Moves PacketQueue.readFrom := by
  unfold PacketQueue.readFrom; moves

theorem PacketQueue.keeps : Keeps (fun m : PacketQueue => m.properties) PacketQueue.readFrom :=
  Keeps.withLocal <|
  Keeps.cons (Keeps.num fun _ _ => rfl) <| Keeps.cons (Keeps.num fun _ _ => rfl) <|
  Keeps.cons (Keeps.num fun _ _ => rfl) <| Keeps.cons Keeps.skip <|
  Keeps.cons (Keeps.dyn fun _ => Keeps.limited (Keeps.sub fun _ _ => rfl)) Keeps.nil

theorem PacketQueue.eof : EndsEmpty PacketQueue.readFrom PacketQueue.zero :=
  EndsEmpty.withLocal (readFrom_eof (k := 4) (by omega) _)

def PacketQueues.bytes (qs : List PacketQueue) : Bytes := qs.flatMap PacketQueue.bytes

theorem PacketQueues.writeTo_eq (bs : List PacketQueue) :
    Enc.writeSliceTo (bs.map PacketQueue.writeTo) =
    ⟨PacketQueues.bytes bs, (PacketQueues.bytes bs).length, none⟩ :=
  writeSliceTo_map PacketQueue.writeTo PacketQueue.bytes bs (fun x _ => x.writeTo_eq)

theorem QueueGetConfigReply.out_eq (q : QueueGetConfigReply) : q.writeTo =
    ⟨be q.port ++ (zeros 4 ++ PacketQueues.bytes q.queues),
      8 + (PacketQueues.bytes q.queues).length, none⟩ := by
  simp [QueueGetConfigReply.writeTo, Enc.writeTo, Enc.gather, PacketQueues.writeTo_eq]; omega

theorem PacketQueues.readsAll (s qs : List PacketQueue) (hv : ∀ q ∈ qs, q.Valid) :
    ReadsAll (Enc.readSliceFrom PacketQueue.zero PacketQueue.readFrom) s (PacketQueues.bytes qs) s :=
  ReadsAll.readSliceFrom (val := fun q => { q with properties := [] }) s qs
    (fun b hb => b.reads PacketQueue.zero (hv b hb))
    (fun b _ => by rw [PacketQueue.bytes_length, PacketQueue.size]; omega) PacketQueue.eof

theorem QueueGetConfigReply.readsAll (q s : QueueGetConfigReply) (hv : ∀ p ∈ q.queues, p.Valid) :
    ReadsAll QueueGetConfigReply.readFrom s q.writeTo.out { q with queues := s.queues } := by
  rw [QueueGetConfigReply.out_eq]
  unfold QueueGetConfigReply.readFrom
  reads
  exact ReadsAll.last (ReadsAll.sub (PacketQueues.readsAll _ _ hv))

theorem QueueGetConfigReply.readFrom_safe : Safe DecErr QueueGetConfigReply.readFrom := by
  have h : Safe DecErr (Enc.readSliceFrom PacketQueue.zero PacketQueue.readFrom) :=
    Safe.readSliceFrom PacketQueue.readFrom_safe PacketQueue.readFrom_moves
  unfold QueueGetConfigReply.readFrom; safe

theorem QueueGetConfigReply.keeps :
    Keeps (fun g : QueueGetConfigReply => g.queues) QueueGetConfigReply.readFrom :=
  Keeps.cons (Keeps.num fun _ _ => rfl) <| Keeps.cons Keeps.skip <|
  Keeps.cons (Keeps.sub fun _ _ => rfl) Keeps.nil

end Verif
