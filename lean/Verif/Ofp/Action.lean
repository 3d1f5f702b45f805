import Verif.Ofp.Match

/-!
# ofp/action.go
-/

namespace Verif

/-! ## Model -/

/-- The action types of ofp/action.go:216-642.  Simplifications: `Action` is a Go
interface, so a user could add implementations of their own or put nil into a list;
only the types of the package are modelled.  `ActionPopPBB` (ofp/action.go:619) has no
methods, hence is not an `Action` and cannot be in a list. -/
inductive Action where
  | output (port : UInt32) (maxLen : UInt16)
  | copyTTLOut
  | copyTTLIn
  | setMPLSTTL (ttl : UInt8)
  | decMPLSTTL
  | pushVLAN (etherType : UInt16)
  | popVLAN
  | pushMPLS (etherType : UInt16)
  | popMPLS (etherType : UInt16)
  | setQueue (queue : UInt32)
  | group (group : UInt32)
  | setNwTTL (ttl : UInt8)
  | decNwTTL
  | setField (field : XM)
  | pushPBB (etherType : UInt16)
  | experimenter (experimenter : UInt32)
  deriving DecidableEq, Repr, Inhabited

/-- `Type()` methods and the constants of ofp/action.go:26-88. -/
def Action.type : Action → UInt16
  | .output .. => 0
  | .copyTTLOut => 11
  | .copyTTLIn => 12
  | .setMPLSTTL .. => 15
  | .decMPLSTTL => 16
  | .pushVLAN .. => 17
  | .popVLAN => 18
  | .pushMPLS .. => 19
  | .popMPLS .. => 20
  | .setQueue .. => 21
  | .group .. => 22
  | .setNwTTL .. => 23
  | .decNwTTL => 24
  | .setField .. => 25
  | .pushPBB .. => 26
  | .experimenter .. => 0xffff

/-- `binary.Write` of the header `action{t, len}`, ofp/action.go:142-147. -/
def actionHeader (t len : UInt16) : WElem := .bin (be t ++ be len)

/-- `(a *action) ReadFrom`, ofp/action.go:149-151. -/
def actionHeader.readFrom : Step (UInt16 × UInt16) :=
  Enc.readFrom [Enc.num (fun v s => (v, s.2)), Enc.num (fun v s => (s.1, v))]

/-- The `WriteTo` methods of ofp/action.go. -/
def Action.writeTo (a : Action) : Wr :=
  match a with
  -- ofp/action.go:239-241
  | .output port maxLen => Enc.writeTo [actionHeader a.type 16, .bin (be port ++ be maxLen), .bin (zeros 6)]
  -- ofp/action.go:260-262, 281-283, 326-328, 375-377, 523-525
  | .copyTTLOut => Enc.writeTo [actionHeader a.type 8, .bin (zeros 4)]
  | .copyTTLIn => Enc.writeTo [actionHeader a.type 8, .bin (zeros 4)]
  | .decMPLSTTL => Enc.writeTo [actionHeader a.type 8, .bin (zeros 4)]
  | .popVLAN => Enc.writeTo [actionHeader a.type 8, .bin (zeros 4)]
  | .decNwTTL => Enc.writeTo [actionHeader a.type 8, .bin (zeros 4)]
  -- ofp/action.go:305-307, 502-504
  | .setMPLSTTL ttl => Enc.writeTo [actionHeader a.type 8, .bin (be ttl), .bin (zeros 3)]
  | .setNwTTL ttl => Enc.writeTo [actionHeader a.type 8, .bin (be ttl), .bin (zeros 3)]
  -- ofp/action.go:353-356, 398-401, 423-426, 606-609
  | .pushVLAN et => Enc.writeTo [actionHeader a.type 8, .bin (be et), .bin (zeros 2)]
  | .pushMPLS et => Enc.writeTo [actionHeader a.type 8, .bin (be et), .bin (zeros 2)]
  | .popMPLS et => Enc.writeTo [actionHeader a.type 8, .bin (be et), .bin (zeros 2)]
  | .pushPBB et => Enc.writeTo [actionHeader a.type 8, .bin (be et), .bin (zeros 2)]
  -- ofp/action.go:453-455, 478-480, 634-636
  | .setQueue q => Enc.writeTo [actionHeader a.type 8, .bin (be q)]
  | .group g => Enc.writeTo [actionHeader a.type 8, .bin (be g)]
  | .experimenter e => Enc.writeTo [actionHeader a.type 8, .bin (be e)]
  -- ofp/action.go:547-567
  | .setField f =>
    match f.writeTo with
    | ⟨_, _, some e⟩ => ⟨[], 0, some e⟩
    | ⟨b, _, none⟩ =>
      let length := b.length + 4
      let buf := if length % 8 ≠ 0 then b ++ zeros (8 - length % 8) else b
      Enc.writeTo [actionHeader a.type (UInt16.ofNat (buf.length + 4)), .bin buf]

/-- Decoding into a fresh header that is thrown away (`&action{}`). -/
def skipActionHeader {σ : Type} : Step σ := Enc.subVal (fun _ => (0, 0)) actionHeader.readFrom

/-- The decoder of `ActionSetField`, ofp/action.go:571-591.  `header.Len-4` is computed in
`uint16` and wraps around for lengths below four. -/
def setField.readFrom : Step XM :=
  Enc.withLocal ((0, 0) : UInt16 × UInt16) <| Enc.readFrom [
    Enc.sub (fun s => s.2) (fun h s => (s.1, h)) actionHeader.readFrom,
    Enc.dyn (fun s => Enc.limited (s.2.2 - 4).toNat (Enc.readFrom [
      Enc.sub (fun s => s.1) (fun x s => (x, s.2)) XM.readFrom,
      Enc.rest (fun _ s => s)]))]

/-- The `ReadFrom` methods of ofp/action.go; the receiver's dynamic type is the
constructor of the argument. -/
def Action.readFrom : Step Action := fun a r =>
  match a with
  -- ofp/action.go:245-247
  | .output p m =>
    Enc.wrap (fun s : UInt32 × UInt16 => Action.output s.1 s.2)
      (Enc.readFrom [skipActionHeader, Enc.num (fun v s => (v, s.2)), Enc.num (fun v s => (s.1, v)),
        Enc.skip 6]) (p, m) r
  -- ofp/action.go:266-268, 287-289, 332-334, 381-383, 529-531
  | .copyTTLOut => Enc.wrap (fun _ : Unit => Action.copyTTLOut) (Enc.readFrom [Enc.skip 8]) () r
  | .copyTTLIn => Enc.wrap (fun _ : Unit => Action.copyTTLIn) (Enc.readFrom [Enc.skip 8]) () r
  | .decMPLSTTL => Enc.wrap (fun _ : Unit => Action.decMPLSTTL) (Enc.readFrom [Enc.skip 8]) () r
  | .popVLAN => Enc.wrap (fun _ : Unit => Action.popVLAN) (Enc.readFrom [Enc.skip 8]) () r
  | .decNwTTL => Enc.wrap (fun _ : Unit => Action.decNwTTL) (Enc.readFrom [Enc.skip 8]) () r
  -- ofp/action.go:311-313
  | .setMPLSTTL t => Enc.wrap Action.setMPLSTTL
      (Enc.readFrom [skipActionHeader, Enc.num (fun v _ => v), Enc.skip 3]) t r
  -- ofp/action.go:508-510
  | .setNwTTL t => Enc.wrap Action.setNwTTL
      (Enc.readFrom [Enc.skip 4, Enc.num (fun v _ => v), Enc.skip 3]) t r
  -- ofp/action.go:360-362, 405-407, 430-432, 613-615
  | .pushVLAN t => Enc.wrap Action.pushVLAN
      (Enc.readFrom [Enc.skip 4, Enc.num (fun v _ => v), Enc.skip 2]) t r
  | .pushMPLS t => Enc.wrap Action.pushMPLS
      (Enc.readFrom [Enc.skip 4, Enc.num (fun v _ => v), Enc.skip 2]) t r
  | .popMPLS t => Enc.wrap Action.popMPLS
      (Enc.readFrom [Enc.skip 4, Enc.num (fun v _ => v), Enc.skip 2]) t r
  | .pushPBB t => Enc.wrap Action.pushPBB
      (Enc.readFrom [Enc.skip 4, Enc.num (fun v _ => v), Enc.skip 2]) t r
  -- ofp/action.go:459-461, 484-486, 640-642
  | .setQueue q => Enc.wrap Action.setQueue (Enc.readFrom [Enc.skip 4, Enc.num (fun v _ => v)]) q r
  | .group g => Enc.wrap Action.group (Enc.readFrom [Enc.skip 4, Enc.num (fun v _ => v)]) g r
  | .experimenter e =>
    Enc.wrap Action.experimenter (Enc.readFrom [Enc.skip 4, Enc.num (fun v _ => v)]) e r
  | .setField f => Enc.wrap Action.setField setField.readFrom f r

/-- `actionMap`, ofp/action.go:110-128, and the reader maker of `Actions.ReadFrom`,
ofp/action.go:201-210.  `MakeReader` for `ActionPopPBB` fails a type assertion, because
`*ActionPopPBB` is not an `io.ReaderFrom`: a panic. -/
def actionMake (code : UInt16) : Except Err Action :=
  match code.toNat with
  | 0 => .ok (.output 0 0)
  | 11 => .ok .copyTTLOut
  | 12 => .ok .copyTTLIn
  | 15 => .ok (.setMPLSTTL 0)
  | 16 => .ok .decMPLSTTL
  | 17 => .ok (.pushVLAN 0)
  | 18 => .ok .popVLAN
  | 19 => .ok (.pushMPLS 0)
  | 20 => .ok (.popMPLS 0)
  | 21 => .ok (.setQueue 0)
  | 22 => .ok (.group 0)
  | 23 => .ok (.setNwTTL 0)
  | 24 => .ok .decNwTTL
  | 25 => .ok (.setField XM.zero)
  | 26 => .ok (.pushPBB 0)
  | 27 => .error .panic
  | 65535 => .ok (.experimenter 0)
  | _ => .error .unknownType

/-- `(a *Actions) bytes`, ofp/action.go:172-183. -/
def Actions.buf (as : List Action) : Bytes × Option Err :=
  let w := Enc.writeSliceTo (as.map Action.writeTo)
  match w.err with
  | some e => ([], some e)
  | none => (w.out, none)

/-- `(a *Actions) WriteTo`, ofp/action.go:186-193. -/
def Actions.writeTo (as : List Action) : Wr :=
  match Actions.buf as with
  | (b, some e) => ⟨[], b.length, some e⟩
  | (b, none) => Enc.writeTo [.bin b]

/-- `(a *Actions) ReadFrom`, ofp/action.go:197-214. -/
def Actions.readFrom : Step (List Action) :=
  Enc.readFrom [Enc.assign (fun _ => []), Enc.scanFrom actionMake Action.readFrom]

/-! ## Helper lemmas -/

/-- What the wire format can represent. -/
def Action.Valid : Action → Prop
  | .setField f => f.Valid
  | _ => True

instance (a : Action) : Decidable a.Valid := by
  cases a <;> simp only [Action.Valid] <;> infer_instance

def Action.bytes (a : Action) : Bytes := a.writeTo.out

theorem Action.writeTo_eq (a : Action) : a.writeTo = ⟨a.bytes, a.bytes.length, none⟩ := by
  cases a <;> simp [Action.bytes, Action.writeTo, Enc.writeTo, Enc.gather, actionHeader, XM.writeTo_eq]

/-- The fresh receiver for an action of the same type. -/
def Action.zero : Action → Action
  | .output .. => .output 0 0
  | .setMPLSTTL .. => .setMPLSTTL 0
  | .pushVLAN .. => .pushVLAN 0
  | .pushMPLS .. => .pushMPLS 0
  | .popMPLS .. => .popMPLS 0
  | .setQueue .. => .setQueue 0
  | .group .. => .group 0
  | .setNwTTL .. => .setNwTTL 0
  | .setField .. => .setField XM.zero
  | .pushPBB .. => .pushPBB 0
  | .experimenter .. => .experimenter 0
  | a => a

theorem actionMake_type (a : Action) : actionMake a.type = .ok a.zero := by
  cases a <;> rfl

/-- The size of an action on the wire. -/
def Action.size : Action → Nat
  | .output .. => 16
  | .setField f => (4 + 4 + f.value.length + f.mask.length + 7) / 8 * 8
  | _ => 8

theorem setField_bytes (f : XM) : (Action.setField f).bytes =
    be (25 : UInt16) ++ (be (UInt16.ofNat (4 + f.bytes.length + padLen (4 + f.bytes.length))) ++
      (f.bytes ++ zeros (padLen (4 + f.bytes.length)))) := by
  have hb : (if (f.bytes.length + 4) % 8 ≠ 0 then f.bytes ++ zeros (8 - (f.bytes.length + 4) % 8)
      else f.bytes) = f.bytes ++ zeros (padLen (4 + f.bytes.length)) := by
    split
    · have hp : padLen (4 + f.bytes.length) = 8 - (f.bytes.length + 4) % 8 := by
        unfold padLen; omega
      rw [hp]
    · have hp : padLen (4 + f.bytes.length) = 0 := by unfold padLen; omega
      simp [hp, zeros]
  simp only [Action.bytes, Action.writeTo, XM.writeTo_eq, hb]
  simp only [Enc.writeTo, Enc.gather, actionHeader, Action.type, List.length_append, zeros_length,
    List.append_nil, List.append_assoc]
  rw [Nat.add_assoc 4, Nat.add_comm 4 (_ + _)]

theorem Action.bytes_length (a : Action) : a.bytes.length = a.size := by
  cases a with
  | setField f =>
    rw [setField_bytes]
    simp [Action.size, XM.bytes_length, padLen]
    omega
  | _ => simp [Action.bytes, Action.writeTo, Enc.writeTo, Enc.gather, actionHeader, Action.size]

theorem Action.bytes_type (a : Action) : ∃ t, a.bytes = be a.type ++ t := by
  cases a with
  | setField f => exact ⟨_, setField_bytes f⟩
  | _ => simp [Action.bytes, Action.writeTo, Enc.writeTo, Enc.gather, actionHeader, Action.type]

theorem actionHeader.reads (t l : UInt16) (s : UInt16 × UInt16) :
    Reads actionHeader.readFrom s (be t ++ be l) (t, l) :=
  Reads.cons (Reads.num _) (Reads.last (Reads.num _))

theorem skipActionHeader_reads {σ : Type} (t l : UInt16) (s : σ) :
    Reads skipActionHeader s (be t ++ be l) s := Reads.subVal (actionHeader.reads t l _)

theorem actionHeader.flat : Flat actionHeader.readFrom 4 :=
  Flat.cons Flat.num (Flat.cons Flat.num Flat.nil)

theorem setField.reads (f : XM) (hv : f.Valid) (s : XM) :
    Reads setField.readFrom s (Action.setField f).bytes f := by
  have hl : 4 + f.bytes.length + padLen (4 + f.bytes.length) ≤ 65535 := by
    have := hv.2.1
    have := padLen_lt (4 + f.bytes.length)
    rw [XM.bytes_length] at *; omega
  have hlen := u16_ofNat_toNat hl
  have hsub : (UInt16.ofNat (4 + f.bytes.length + padLen (4 + f.bytes.length)) - 4).toNat =
      f.bytes.length + padLen (4 + f.bytes.length) := by
    rw [UInt16.toNat_sub_of_le]
    · rw [hlen]; simp; omega
    · rw [UInt16.le_iff_toNat_le, hlen]; simp; omega
  rw [setField_bytes, ← List.append_assoc]
  refine Reads.withLocal (l' := (25, UInt16.ofNat (4 + f.bytes.length + padLen (4 + f.bytes.length)))) ?_
  refine Reads.cons (Reads.sub (actionHeader.reads _ _ _)) ?_
  refine Reads.last (Reads.dyn (Reads.limited (ReadsAll.cons (Reads.sub (f.reads hv _))
    (ReadsAll.last (ReadsAll.rest (set := fun _ s => s) _))) ?_))
  simp only [hsub, List.length_append, zeros_length]

theorem Action.reads' (a : Action) (hv : a.Valid) (s : Action) (hs : s.type = a.type) :
    Reads Action.readFrom s a.bytes a := by
  cases a with
  | output p m =>
    obtain ⟨p0, m0, rfl⟩ : ∃ p0 m0, s = .output p0 m0 := by cases s <;> simp_all [Action.type]
    have h := Reads.cons (skipActionHeader_reads 0 16 ((p0, m0) : UInt32 × UInt16))
      (Reads.cons (Reads.num (set := fun v s => (v, s.2)) p) (Reads.cons (Reads.num (set := fun v s => (s.1, v)) m)
        (Reads.last (Reads.skip (k := 6) (zeros_length 6)))))
    have := Reads.wrap (dec := Action.readFrom) (s := .output p0 m0)
      (f := fun s : UInt32 × UInt16 => Action.output s.1 s.2) h (fun r => rfl)
    simpa [Action.bytes, Action.writeTo, Enc.writeTo, Enc.gather, actionHeader, Action.type] using this
  | setField f =>
    obtain ⟨f0, rfl⟩ : ∃ f0, s = .setField f0 := by cases s <;> simp_all [Action.type]
    exact Reads.wrap (setField.reads f hv f0) (fun r => rfl)
  | setMPLSTTL t =>
    obtain ⟨t0, rfl⟩ : ∃ t0, s = .setMPLSTTL t0 := by cases s <;> simp_all [Action.type]
    have h := Reads.cons (skipActionHeader_reads 15 8 (t0 : UInt8))
      (Reads.cons (Reads.num (set := fun v _ => v) t) (Reads.last (Reads.skip (k := 3) (zeros_length 3))))
    have := Reads.wrap (dec := Action.readFrom) (s := .setMPLSTTL t0) (f := Action.setMPLSTTL) h (fun r => rfl)
    simpa [Action.bytes, Action.writeTo, Enc.writeTo, Enc.gather, actionHeader, Action.type] using this
  | setNwTTL t =>
    obtain ⟨t0, rfl⟩ : ∃ t0, s = .setNwTTL t0 := by cases s <;> simp_all [Action.type]
    have h := Reads.cons (Reads.skip (s := (t0 : UInt8)) (k := 4) (b := be (23 : UInt16) ++ be (8 : UInt16)) rfl)
      (Reads.cons (Reads.num (set := fun v _ => v) t) (Reads.last (Reads.skip (k := 3) (zeros_length 3))))
    have := Reads.wrap (dec := Action.readFrom) (s := .setNwTTL t0) (f := Action.setNwTTL) h (fun r => rfl)
    simpa [Action.bytes, Action.writeTo, Enc.writeTo, Enc.gather, actionHeader, Action.type] using this
  | pushVLAN t =>
    obtain ⟨t0, rfl⟩ : ∃ t0, s = .pushVLAN t0 := by cases s <;> simp_all [Action.type]
    have h := Reads.cons (Reads.skip (s := (t0 : UInt16)) (k := 4) (b := be (17 : UInt16) ++ be (8 : UInt16)) rfl)
      (Reads.cons (Reads.num (set := fun v _ => v) t) (Reads.last (Reads.skip (k := 2) (zeros_length 2))))
    have := Reads.wrap (dec := Action.readFrom) (s := .pushVLAN t0) (f := Action.pushVLAN) h (fun r => rfl)
    simpa [Action.bytes, Action.writeTo, Enc.writeTo, Enc.gather, actionHeader, Action.type] using this
  | pushMPLS t =>
    obtain ⟨t0, rfl⟩ : ∃ t0, s = .pushMPLS t0 := by cases s <;> simp_all [Action.type]
    have h := Reads.cons (Reads.skip (s := (t0 : UInt16)) (k := 4) (b := be (19 : UInt16) ++ be (8 : UInt16)) rfl)
      (Reads.cons (Reads.num (set := fun v _ => v) t) (Reads.last (Reads.skip (k := 2) (zeros_length 2))))
    have := Reads.wrap (dec := Action.readFrom) (s := .pushMPLS t0) (f := Action.pushMPLS) h (fun r => rfl)
    simpa [Action.bytes, Action.writeTo, Enc.writeTo, Enc.gather, actionHeader, Action.type] using this
  | popMPLS t =>
    obtain ⟨t0, rfl⟩ : ∃ t0, s = .popMPLS t0 := by cases s <;> simp_all [Action.type]
    have h := Reads.cons (Reads.skip (s := (t0 : UInt16)) (k := 4) (b := be (20 : UInt16) ++ be (8 : UInt16)) rfl)
      (Reads.cons (Reads.num (set := fun v _ => v) t) (Reads.last (Reads.skip (k := 2) (zeros_length 2))))
    have := Reads.wrap (dec := Action.readFrom) (s := .popMPLS t0) (f := Action.popMPLS) h (fun r => rfl)
    simpa [Action.bytes, Action.writeTo, Enc.writeTo, Enc.gather, actionHeader, Action.type] using this
  | pushPBB t =>
    obtain ⟨t0, rfl⟩ : ∃ t0, s = .pushPBB t0 := by cases s <;> simp_all [Action.type]
    have h := Reads.cons (Reads.skip (s := (t0 : UInt16)) (k := 4) (b := be (26 : UInt16) ++ be (8 : UInt16)) rfl)
      (Reads.cons (Reads.num (set := fun v _ => v) t) (Reads.last (Reads.skip (k := 2) (zeros_length 2))))
    have := Reads.wrap (dec := Action.readFrom) (s := .pushPBB t0) (f := Action.pushPBB) h (fun r => rfl)
    simpa [Action.bytes, Action.writeTo, Enc.writeTo, Enc.gather, actionHeader, Action.type] using this
  | setQueue t =>
    obtain ⟨t0, rfl⟩ : ∃ t0, s = .setQueue t0 := by cases s <;> simp_all [Action.type]
    have h := Reads.cons (Reads.skip (s := (t0 : UInt32)) (k := 4) (b := be (21 : UInt16) ++ be (8 : UInt16)) rfl)
      (Reads.last (Reads.num (set := fun v _ => v) t))
    have := Reads.wrap (dec := Action.readFrom) (s := .setQueue t0) (f := Action.setQueue) h (fun r => rfl)
    simpa [Action.bytes, Action.writeTo, Enc.writeTo, Enc.gather, actionHeader, Action.type] using this
  | group t =>
    obtain ⟨t0, rfl⟩ : ∃ t0, s = .group t0 := by cases s <;> simp_all [Action.type]
    have h := Reads.cons (Reads.skip (s := (t0 : UInt32)) (k := 4) (b := be (22 : UInt16) ++ be (8 : UInt16)) rfl)
      (Reads.last (Reads.num (set := fun v _ => v) t))
    have := Reads.wrap (dec := Action.readFrom) (s := .group t0) (f := Action.group) h (fun r => rfl)
    simpa [Action.bytes, Action.writeTo, Enc.writeTo, Enc.gather, actionHeader, Action.type] using this
  | experimenter t =>
    obtain ⟨t0, rfl⟩ : ∃ t0, s = .experimenter t0 := by cases s <;> simp_all [Action.type]
    have h := Reads.cons (Reads.skip (s := (t0 : UInt32)) (k := 4) (b := be (65535 : UInt16) ++ be (8 : UInt16)) rfl)
      (Reads.last (Reads.num (set := fun v _ => v) t))
    have := Reads.wrap (dec := Action.readFrom) (s := .experimenter t0) (f := Action.experimenter) h (fun r => rfl)
    simpa [Action.bytes, Action.writeTo, Enc.writeTo, Enc.gather, actionHeader, Action.type] using this
  | copyTTLOut =>
    obtain rfl : s = .copyTTLOut := by cases s <;> simp_all [Action.type]
    exact Reads.wrap (dec := Action.readFrom) (f := fun _ : Unit => Action.copyTTLOut) (t' := ())
      (Reads.last (Reads.skip (by rw [Action.bytes_length]; rfl))) (fun r => rfl)
  | copyTTLIn =>
    obtain rfl : s = .copyTTLIn := by cases s <;> simp_all [Action.type]
    exact Reads.wrap (dec := Action.readFrom) (f := fun _ : Unit => Action.copyTTLIn) (t' := ())
      (Reads.last (Reads.skip (by rw [Action.bytes_length]; rfl))) (fun r => rfl)
  | decMPLSTTL =>
    obtain rfl : s = .decMPLSTTL := by cases s <;> simp_all [Action.type]
    exact Reads.wrap (dec := Action.readFrom) (f := fun _ : Unit => Action.decMPLSTTL) (t' := ())
      (Reads.last (Reads.skip (by rw [Action.bytes_length]; rfl))) (fun r => rfl)
  | popVLAN =>
    obtain rfl : s = .popVLAN := by cases s <;> simp_all [Action.type]
    exact Reads.wrap (dec := Action.readFrom) (f := fun _ : Unit => Action.popVLAN) (t' := ())
      (Reads.last (Reads.skip (by rw [Action.bytes_length]; rfl))) (fun r => rfl)
  | decNwTTL =>
    obtain rfl : s = .decNwTTL := by cases s <;> simp_all [Action.type]
    exact Reads.wrap (dec := Action.readFrom) (f := fun _ : Unit => Action.decNwTTL) (t' := ())
      (Reads.last (Reads.skip (by rw [Action.bytes_length]; rfl))) (fun r => rfl)

theorem Action.reads (a : Action) (hv : a.Valid) : Reads Action.readFrom a.zero a.bytes a :=
  a.reads' hv _ (by cases a <;> rfl)

/-- The bytes of a list of actions. -/
def Actions.bytes (as : List Action) : Bytes := as.flatMap Action.bytes

theorem Actions.buf_eq (as : List Action) : Actions.buf as = (Actions.bytes as, none) := by
  simp [Actions.buf, writeSliceTo_map Action.writeTo Action.bytes as (fun x _ => x.writeTo_eq),
    Actions.bytes]

theorem Actions.writeTo_eq (as : List Action) :
    Actions.writeTo as = ⟨Actions.bytes as, (Actions.bytes as).length, none⟩ := by
  simp [Actions.writeTo, Actions.buf_eq, Enc.writeTo, Enc.gather]

theorem Actions.bytes_length (as : List Action) :
    (Actions.bytes as).length = (as.map Action.size).sum := by
  simp only [Actions.bytes, List.length_flatMap, Action.bytes_length]

theorem Actions.readsAll (as : List Action) (hv : ∀ a ∈ as, a.Valid) (s : List Action) :
    ReadsAll Actions.readFrom s (Actions.bytes as) as := by
  refine ReadsAll.assignCons (ReadsAll.last ?_)
  exact ReadsAll.scanFrom (enc := Action.bytes) (zero := Action.zero) (code := Action.type) [] as
    (fun a ha => a.reads (hv a ha)) (fun a _ => actionMake_type a) (fun a _ => a.bytes_type)

theorem skipActionHeader_safe {σ : Type} {E : Err → Prop} [ErrSet E] :
    Safe E (skipActionHeader (σ := σ)) := Safe.subVal actionHeader.flat.safe

theorem skipActionHeader_moves {σ : Type} : Moves (skipActionHeader (σ := σ)) :=
  Moves.subVal (actionHeader.flat.moves (by omega))

theorem setField_safe {E : Err → Prop} [ErrSet E] : Safe E setField.readFrom := by
  have h1 : Safe E actionHeader.readFrom := actionHeader.flat.safe
  have h2 : Safe E XM.readFrom := XM.read_safe true
  unfold setField.readFrom
  safe

theorem Action.readFrom_safe {E : Err → Prop} [ErrSet E] : Safe E Action.readFrom := by
  intro a r hr
  have h1 := @skipActionHeader_safe (UInt32 × UInt16) E _
  have h2 := @skipActionHeader_safe UInt8 E _
  have h3 := @setField_safe E _
  cases a <;> simp only [Action.readFrom] <;> refine SafeAt.wrap ?_ hr <;> safe

theorem Action.readFrom_moves : Moves Action.readFrom := by
  intro a r hr he
  have h1 := @skipActionHeader_moves (UInt32 × UInt16)
  have h2 := @skipActionHeader_moves UInt8
  have h3 : Moves setField.readFrom :=
    Moves.withLocal (Moves.cons (Moves.sub (actionHeader.flat.moves (by omega))))
  cases a <;> simp only [Action.readFrom] at he ⊢ <;> refine Moves.wrap ?_ hr he <;> moves

theorem actionMake_err (c : UInt16) (e : Err) (h : actionMake c = .error e) :
    e = .unknownType ∨ (e = .panic ∧ c = 27) := by
  unfold actionMake at h
  split at h <;> simp at h
  · rename_i hc
    right; refine ⟨h.symm, ?_⟩
    apply UInt16.toNat_inj.mp; simpa using hc
  · exact .inl h.symm

theorem Actions.readFrom_safe : Safe ActErr Actions.readFrom := by
  refine Safe.cons Safe.assign (Safe.cons ?_ Safe.nil)
  refine Safe.scanFrom Action.readFrom_safe Action.readFrom_moves ?_
  intro c e h
  rcases actionMake_err c e h with h | ⟨h, _⟩ <;> simp [ActErr, h]

end Verif
