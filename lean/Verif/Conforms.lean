import Verif.Spec.Structs
import Verif.Ofp.Flow
import Verif.Ofp.Packet
import Verif.Ofp.Meter
import Verif.Ofp.Queue
import Verif.Ofp.Table
import Verif.Ofp.Hello
import Verif.Ofp.Port

/-!
# Reading encodings by the specification

Lemmas about the readers of `Verif.Spec.Structs` on bytes that are put together from the encodings
of numbers, padding and records.
-/

namespace Verif.Spec

/-! ## Structs -/

@[simp] theorem read_nil (b : Bytes) : read [] b = some ([], b) := rfl

theorem read_num {n : String} {k : Nat} {ms : List Member} {b : Bytes} (h : b.length = k) (t : Bytes) :
    read (.num n k :: ms) (b ++ t) = (read ms t).map fun (r, t) => ((n, .num (getBE b)) :: r, t) := by
  simp [read, ← h]

@[simp] theorem read_u8 (n : String) (ms : List Member) (x : UInt8) (t : Bytes) :
    read (.num n 1 :: ms) (be x ++ t) = (read ms t).map fun (r, t) => ((n, .num x.toNat) :: r, t) := by
  rw [read_num (by simp)]; simp [getBE_be, Wire.toNat]

@[simp] theorem read_u16 (n : String) (ms : List Member) (x : UInt16) (t : Bytes) :
    read (.num n 2 :: ms) (be x ++ t) = (read ms t).map fun (r, t) => ((n, .num x.toNat) :: r, t) := by
  rw [read_num (by simp)]; simp [getBE_be, Wire.toNat]

@[simp] theorem read_u32 (n : String) (ms : List Member) (x : UInt32) (t : Bytes) :
    read (.num n 4 :: ms) (be x ++ t) = (read ms t).map fun (r, t) => ((n, .num x.toNat) :: r, t) := by
  rw [read_num (by simp)]; simp [getBE_be, Wire.toNat]

@[simp] theorem read_u64 (n : String) (ms : List Member) (x : UInt64) (t : Bytes) :
    read (.num n 8 :: ms) (be x ++ t) = (read ms t).map fun (r, t) => ((n, .num x.toNat) :: r, t) := by
  rw [read_num (by simp)]; simp [getBE_be, Wire.toNat]

@[simp] theorem read_u8' (n : String) (ms : List Member) (x : UInt8) :
    read (.num n 1 :: ms) (be x) = (read ms []).map fun (r, t) => ((n, .num x.toNat) :: r, t) := by
  simpa using read_u8 n ms x []

@[simp] theorem read_u16' (n : String) (ms : List Member) (x : UInt16) :
    read (.num n 2 :: ms) (be x) = (read ms []).map fun (r, t) => ((n, .num x.toNat) :: r, t) := by
  simpa using read_u16 n ms x []

@[simp] theorem read_u32' (n : String) (ms : List Member) (x : UInt32) :
    read (.num n 4 :: ms) (be x) = (read ms []).map fun (r, t) => ((n, .num x.toNat) :: r, t) := by
  simpa using read_u32 n ms x []

@[simp] theorem read_u64' (n : String) (ms : List Member) (x : UInt64) :
    read (.num n 8 :: ms) (be x) = (read ms []).map fun (r, t) => ((n, .num x.toNat) :: r, t) := by
  simpa using read_u64 n ms x []

@[simp] theorem read_pad (k : Nat) (ms : List Member) (t : Bytes) :
    read (.pad k :: ms) (zeros k ++ t) = read ms t := by simp [read]

@[simp] theorem read_pad' (k : Nat) (ms : List Member) :
    read (.pad k :: ms) (zeros k) = read ms [] := by simpa using read_pad k ms []

theorem read_raw {n : String} {k : Nat} {ms : List Member} {b : Bytes} (h : b.length = k) (t : Bytes) :
    read (.raw n k :: ms) (b ++ t) = (read ms t).map fun (r, t) => ((n, .bytes b) :: r, t) := by
  simp [read, ← h]

/-- A text that a field of `k` characters can hold: not longer, and without null characters. -/
def Text (k : Nat) (s : Bytes) : Prop := s.length ≤ k ∧ 0 ∉ s

instance (k : Nat) (s : Bytes) : Decidable (Text k s) := by unfold Text; infer_instance

theorem takeWhile_copyTo {s : Bytes} {k : Nat} (h : Text k s) : (copyTo s k).takeWhile (· ≠ 0) = s := by
  obtain ⟨h1, h2⟩ := h
  rw [copyTo, List.take_of_length_le h1, List.takeWhile_append_of_pos]
  · cases hz : k - s.length with
    | zero => simp [zeros]
    | succ n => simp [zeros, List.replicate_succ]
  · intro a ha; simp; rintro rfl; exact h2 ha

theorem read_text {n : String} {k : Nat} {ms : List Member} {s : Bytes} (h : Text k s) (t : Bytes) :
    read (.text n k :: ms) (copyTo s k ++ t) = (read ms t).map fun (r, t) => ((n, .bytes s) :: r, t) := by
  have h0 := takeWhile_copyTo h
  simp only [read, List.length_append, copyTo_length, Nat.le_add_right, if_true,
    List.drop_left' (copyTo_length s k), List.take_left' (copyTo_length s k), h0]

theorem struct_of {ms : List Member} {b : Bytes} {r : Record} (h : read ms b = some (r, [])) :
    struct ms b = some r := by simp [struct, h]

@[simp] theorem u16_zero (x : UInt16) (t : Bytes) : u16 0 (be x ++ t) = x.toNat := by
  simp [u16, getBE_be, Wire.toNat]

theorem u16_skip {k : Nat} {b : Bytes} (h : b.length = k) (off : Nat) (t : Bytes) :
    u16 (k + off) (b ++ t) = u16 off t := by
  simp [u16, ← List.drop_drop, ← h]

@[simp] theorem u16_two (x y : UInt16) (t : Bytes) : u16 2 (be x ++ (be y ++ t)) = y.toNat := by
  rw [show (2 : Nat) = 2 + 0 from rfl, u16_skip (by simp), u16_zero]

/-! ## Lists -/

/-- A record of a list: `b` is the record and its padding, `r` the record. -/
structure Framed (off align : Nat) (b r : Bytes) : Prop where
  pre : ∃ pad, b = r ++ pad
  size : b.length = (r.length + align - 1) / align * align
  room : off + 2 ≤ r.length
  len : u16 off r = r.length

theorem u16_append {off : Nat} {r : Bytes} (h : off + 2 ≤ r.length) (t : Bytes) : u16 off (r ++ t) = u16 off r := by
  unfold u16
  rw [List.drop_append_of_le_length (by omega), List.take_append_of_le_length (by simp; omega)]

theorem recordsFuel_of {α : Type} {off align : Nat} {enc rc : α → Bytes} (xs : List α)
    (h : ∀ x ∈ xs, Framed off align (enc x) (rc x)) :
    ∀ fuel, (xs.flatMap enc).length ≤ fuel → recordsFuel off align fuel (xs.flatMap enc) = some (xs.map rc) := by
  induction xs with
  | nil => intro fuel _; cases fuel <;> simp [recordsFuel]
  | cons x xs ih =>
    intro fuel hf
    obtain ⟨⟨pad, hp⟩, hs, hr, hl⟩ := h x (by simp)
    have hge : (rc x).length ≤ (enc x).length := by rw [hp]; simp
    rw [List.flatMap_cons, List.length_append] at hf
    cases fuel with
    | zero => omega
    | succ fuel =>
      have hne : enc x ++ xs.flatMap enc ≠ [] := by
        intro h0
        have hz := congrArg List.length (List.append_eq_nil_iff.1 h0).1
        rw [List.length_nil] at hz; omega
      have hu : u16 off (enc x ++ xs.flatMap enc) = (rc x).length := by
        rw [hp, List.append_assoc, u16_append hr, hl]
      rw [List.flatMap_cons, recordsFuel, if_neg hne]
      simp only [hu, ← hs]
      rw [if_pos ⟨hr, by simp⟩, List.drop_left' rfl,
        ih (fun y hy => h y (by simp [hy])) fuel (by omega)]
      have : (enc x ++ xs.flatMap enc).take (rc x).length = rc x := by
        rw [hp, List.append_assoc, List.take_left' rfl]
      simp [this]

theorem each_of {α β : Type} {f : Bytes → Option β} {rc : α → Bytes} {g : α → β} (xs : List α)
    (h : ∀ x ∈ xs, f (rc x) = some (g x)) : each f (xs.map rc) = some (xs.map g) := by
  induction xs with
  | nil => rfl
  | cons x xs ih =>
    have h1 := h x (by simp)
    have h2 := ih (fun y hy => h y (by simp [hy]))
    simp [each, h1, h2]

/-- A list of records reads back record by record. -/
theorem records_each {α β : Type} {off align : Nat} {enc rc : α → Bytes} {f : Bytes → Option β} {g : α → β}
    (xs : List α) (h : ∀ x ∈ xs, Framed off align (enc x) (rc x) ∧ f (rc x) = some (g x)) :
    list off align f (xs.flatMap enc) = some (xs.map g) := by
  rw [list, records, recordsFuel_of xs (fun x hx => (h x hx).1) _ (Nat.le_refl _)]
  simpa using each_of xs (fun x hx => (h x hx).2)

/-- The same for records without padding. -/
theorem records_plain {α β : Type} {off : Nat} {enc : α → Bytes} {f : Bytes → Option β} {g : α → β}
    (xs : List α) (h : ∀ x ∈ xs, off + 2 ≤ (enc x).length ∧ u16 off (enc x) = (enc x).length ∧ f (enc x) = some (g x)) :
    list off 1 f (xs.flatMap enc) = some (xs.map g) :=
  records_each xs fun x hx => ⟨⟨⟨[], by simp⟩, by simp, (h x hx).1, (h x hx).2.1⟩, (h x hx).2.2⟩

theorem chunksFuel_of {α : Type} {size : Nat} (hp : 0 < size) {enc : α → Bytes} (xs : List α)
    (h : ∀ x ∈ xs, (enc x).length = size) :
    ∀ fuel, (xs.flatMap enc).length ≤ fuel → chunksFuel size fuel (xs.flatMap enc) = some (xs.map enc) := by
  induction xs with
  | nil => intro fuel _; cases fuel <;> simp [chunksFuel]
  | cons x xs ih =>
    intro fuel hf
    have hx := h x (by simp)
    rw [List.flatMap_cons, List.length_append] at hf
    cases fuel with
    | zero => omega
    | succ fuel =>
      have hne : enc x ++ xs.flatMap enc ≠ [] := by
        intro h0
        have hz := congrArg List.length (List.append_eq_nil_iff.1 h0).1
        rw [List.length_nil] at hz; omega
      rw [List.flatMap_cons, chunksFuel, if_neg hne, if_pos (by simp; omega), List.drop_left' hx,
        List.take_left' hx, ih (fun y hy => h y (by simp [hy])) fuel (by omega)]
      simp

theorem chunks_each {α β : Type} {size : Nat} (hp : 0 < size) {enc : α → Bytes} {f : Bytes → Option β} {g : α → β}
    (xs : List α) (h : ∀ x ∈ xs, (enc x).length = size ∧ f (enc x) = some (g x)) :
    array size f (xs.flatMap enc) = some (xs.map g) := by
  rw [array, chunks, chunksFuel_of hp xs (fun x hx => (h x hx).1) _ (Nat.le_refl _)]
  simpa using each_of xs (fun x hx => (h x hx).2)

@[simp] theorem u8_zero (x : UInt8) (t : Bytes) : u8 0 (be x ++ t) = x.toNat := by
  simp [u8, getBE_be, Wire.toNat]

theorem u8_skip {k : Nat} {b : Bytes} (h : b.length = k) (off : Nat) (t : Bytes) :
    u8 (k + off) (b ++ t) = u8 off t := by
  simp [u8, ← List.drop_drop, ← h]

theorem u8_append {off : Nat} {r : Bytes} (h : off + 1 ≤ r.length) (t : Bytes) : u8 off (r ++ t) = u8 off r := by
  unfold u8
  rw [List.drop_append_of_le_length (by omega), List.take_append_of_le_length (by simp; omega)]

end Verif.Spec

namespace Verif

/-! ## Matches -/

/-- What an extensible match says, in the terms of the specification. -/
def XM.said (x : XM) : Spec.Oxm :=
  ⟨x.cls.toNat, x.type.toNat, x.value, if x.mask = [] then none else some x.mask⟩

/-- What a match says. -/
def Match.said (m : Match) : Spec.Match := ⟨m.type.toNat, m.fields.map XM.said⟩

theorem XM.u16_bytes (x : XM) : Spec.u16 0 x.bytes = x.cls.toNat := by rw [XM.bytes_eq]; simp

theorem XM.u8_bytes (x : XM) : Spec.u8 2 x.bytes = ((x.type <<< 1) ||| (if 0 < x.mask.length then 1 else 0)).toNat := by
  rw [XM.bytes_eq, show (2 : Nat) = 2 + 0 from rfl, Spec.u8_skip (by simp), Spec.u8_zero]

theorem XM.u8_length (x : XM) (h : x.value.length + x.mask.length ≤ 255) :
    Spec.u8 3 x.bytes = x.value.length + x.mask.length := by
  rw [XM.bytes_eq, show (3 : Nat) = 2 + 1 from rfl, Spec.u8_skip (by simp), show (1 : Nat) = 1 + 0 from rfl,
    Spec.u8_skip (by simp), Spec.u8_zero, UInt8.toNat_ofNat_of_lt' (show x.mask.length + x.value.length < 256 by omega)]
  omega

theorem XM.drop_bytes (x : XM) : x.bytes.drop 4 = x.value ++ x.mask := by
  rw [XM.bytes_eq, ← List.append_assoc, ← List.append_assoc, List.drop_left' (by simp)]

theorem XM.conforms (x : XM) (hv : x.Valid) : Spec.oxm x.bytes = some x.said := by
  obtain ⟨ht, hl, hm⟩ := hv
  obtain ⟨_, _, _, _, c1, c0⟩ := xm_type_shift x.type.toNat ht
  simp only [UInt8.ofNat_toNat] at c1 c0
  unfold Spec.oxm
  simp only [x.u16_bytes, x.u8_bytes, x.u8_length hl, x.bytes_length, x.drop_bytes, XM.said]
  rw [if_neg (by omega)]
  rcases Decidable.em (x.mask = []) with h | h
  · simp only [h, List.length_nil, Nat.lt_irrefl, if_false, if_true, c0, List.append_nil]
    rw [if_pos (by omega)]; simp
  · have hp : 0 < x.mask.length := List.length_pos_iff.2 h
    have he : x.mask.length = x.value.length := hm.resolve_left h
    simp only [hp, h, if_true, if_false, c1]
    rw [if_neg (by omega), if_pos (by omega)]
    have : (x.value.length + x.mask.length) / 2 = x.value.length := by omega
    simp [this]; omega

theorem oxmsFuel_of (xs : List XM) (h : ∀ x ∈ xs, x.Valid) :
    ∀ fuel, (xs.flatMap XM.bytes).length ≤ fuel →
      Spec.oxmsFuel fuel (xs.flatMap XM.bytes) = some (xs.map XM.said) := by
  induction xs with
  | nil => intro fuel _; cases fuel <;> simp [Spec.oxmsFuel]
  | cons x xs ih =>
    intro fuel hf
    have hv := h x (by simp)
    rw [List.flatMap_cons, List.length_append, x.bytes_length] at hf
    cases fuel with
    | zero => omega
    | succ fuel =>
      have hne : x.bytes ++ xs.flatMap XM.bytes ≠ [] := by
        intro h0
        have hz := congrArg List.length (List.append_eq_nil_iff.1 h0).1
        rw [List.length_nil, x.bytes_length] at hz; omega
      have hu : Spec.u8 3 (x.bytes ++ xs.flatMap XM.bytes) = x.value.length + x.mask.length := by
        rw [Spec.u8_append (by rw [x.bytes_length]; omega), x.u8_length hv.2.1]
      have hb := x.bytes_length
      rw [List.flatMap_cons, Spec.oxmsFuel, if_neg hne, hu, if_pos (by simp; omega),
        List.take_left' (by omega), List.drop_left' (by omega), x.conforms hv,
        ih (fun y hy => h y (by simp [hy])) fuel (by omega)]
      rfl

theorem Match.conforms (m : Match) (hv : m.Valid) (t : Bytes) : Spec.matchAt (m.bytes ++ t) = some (m.said, t) := by
  obtain ⟨h1, h2⟩ := hv
  rw [← Match.fieldBytes_length] at h2
  have hl := u16_ofNat_toNat (n := m.fieldBytes.length + 4) (by omega)
  have hb := m.bytes_length
  have h0 : Spec.u16 0 (m.bytes ++ t) = m.type.toNat := by rw [Match.bytes_eq]; simp
  have h2' : Spec.u16 2 (m.bytes ++ t) = m.fieldBytes.length + 4 := by rw [Match.bytes_eq]; simp [-UInt16.ofNat_add, hl]
  unfold Spec.matchAt
  have hr : (m.fieldBytes.length + 4 + 7) / 8 * 8 = m.bytes.length := by rw [hb]; unfold padLen; omega
  simp only [h0, h2', hr]
  rw [if_pos (by simp)]
  have ht : ((m.bytes ++ t).take (m.fieldBytes.length + 4)).drop 4 = m.fieldBytes := by
    rw [Match.bytes_eq]
    rw [show be m.type ++ (be (UInt16.ofNat (m.fieldBytes.length + 4)) ++ (m.fieldBytes ++
      zeros (padLen (m.fieldBytes.length + 4)))) ++ t = (be m.type ++ (be (UInt16.ofNat (m.fieldBytes.length + 4)) ++
        m.fieldBytes)) ++ (zeros (padLen (m.fieldBytes.length + 4)) ++ t) by simp [List.append_assoc],
      List.take_left' (by simp; omega), ← List.append_assoc, List.drop_left' (by simp)]
  rw [ht, List.drop_left' rfl, Spec.oxms, Match.fieldBytes, oxmsFuel_of m.fields h1 _ (Nat.le_refl _)]
  rfl

/-! ## Actions -/

/-- What an action says. -/
def Action.said : Action → Spec.Action
  | .output p m => ⟨"OFPAT_OUTPUT", [("port", .num p.toNat), ("max_len", .num m.toNat)], none⟩
  | .copyTTLOut => ⟨"OFPAT_COPY_TTL_OUT", [], none⟩
  | .copyTTLIn => ⟨"OFPAT_COPY_TTL_IN", [], none⟩
  | .setMPLSTTL t => ⟨"OFPAT_SET_MPLS_TTL", [("mpls_ttl", .num t.toNat)], none⟩
  | .decMPLSTTL => ⟨"OFPAT_DEC_MPLS_TTL", [], none⟩
  | .pushVLAN e => ⟨"OFPAT_PUSH_VLAN", [("ethertype", .num e.toNat)], none⟩
  | .popVLAN => ⟨"OFPAT_POP_VLAN", [], none⟩
  | .pushMPLS e => ⟨"OFPAT_PUSH_MPLS", [("ethertype", .num e.toNat)], none⟩
  | .popMPLS e => ⟨"OFPAT_POP_MPLS", [("ethertype", .num e.toNat)], none⟩
  | .setQueue q => ⟨"OFPAT_SET_QUEUE", [("queue_id", .num q.toNat)], none⟩
  | .group g => ⟨"OFPAT_GROUP", [("group_id", .num g.toNat)], none⟩
  | .setNwTTL t => ⟨"OFPAT_SET_NW_TTL", [("nw_ttl", .num t.toNat)], none⟩
  | .decNwTTL => ⟨"OFPAT_DEC_NW_TTL", [], none⟩
  | .setField f => ⟨"OFPAT_SET_FIELD", [], some f.said⟩
  | .pushPBB e => ⟨"OFPAT_PUSH_PBB", [("ethertype", .num e.toNat)], none⟩
  | .experimenter e => ⟨"OFPAT_EXPERIMENTER", [("experimenter", .num e.toNat)], none⟩

theorem Action.plain_conforms {t l : UInt16} {body : Bytes} {name : String} {ms : List Spec.Member} {r : Spec.Record}
    (hl : l.toNat = 4 + body.length) (h8 : l.toNat % 8 = 0) (h25 : t.toNat ≠ 25)
    (hk : Spec.actionStructs.lookup t.toNat = some (name, ms)) (hr : Spec.read ms body = some (r, [])) :
    Spec.action (be t ++ (be l ++ body)) = some ⟨name, r, none⟩ := by
  have hlen : (be t ++ (be l ++ body)).length = l.toNat := by simp; omega
  have hd : (be t ++ (be l ++ body)).drop 4 = body := by
    rw [← List.append_assoc, List.drop_left' (by simp)]
  unfold Spec.action
  rw [Spec.u16_two, Spec.u16_zero, hlen, hd, if_neg (by omega), if_neg h25, hk]
  simp [Spec.struct_of hr]

theorem Action.setField_conforms (f : XM) (hv : f.Valid) :
    Spec.action (Action.setField f).bytes = some (Action.setField f).said := by
  have hfl := f.bytes_length
  have hp := padLen_dvd (4 + f.bytes.length)
  have hpl := padLen_lt (4 + f.bytes.length)
  have h255 := hv.2.1
  have hl := u16_ofNat_toNat (n := 4 + f.bytes.length + padLen (4 + f.bytes.length)) (by omega)
  rw [setField_bytes]
  have hlen : (be (25 : UInt16) ++ (be (UInt16.ofNat (4 + f.bytes.length + padLen (4 + f.bytes.length))) ++
      (f.bytes ++ zeros (padLen (4 + f.bytes.length))))).length = 4 + f.bytes.length + padLen (4 + f.bytes.length) := by
    simp; omega
  have hd : (be (25 : UInt16) ++ (be (UInt16.ofNat (4 + f.bytes.length + padLen (4 + f.bytes.length))) ++
      (f.bytes ++ zeros (padLen (4 + f.bytes.length))))).drop 4 = f.bytes ++ zeros (padLen (4 + f.bytes.length)) := by
    rw [← List.append_assoc, List.drop_left' (by simp)]
  have h7 : Spec.u8 7 (be (25 : UInt16) ++ (be (UInt16.ofNat (4 + f.bytes.length + padLen (4 + f.bytes.length))) ++
      (f.bytes ++ zeros (padLen (4 + f.bytes.length))))) = f.value.length + f.mask.length := by
    rw [← List.append_assoc, show (7 : Nat) = 4 + 3 from rfl, Spec.u8_skip (by simp),
      Spec.u8_append (by omega), f.u8_length h255]
  unfold Spec.action
  rw [Spec.u16_two, Spec.u16_zero, hlen, hl, hd, h7, if_neg (by omega), if_pos (show (25 : UInt16).toNat = 25 from rfl)]
  simp only []
  rw [if_pos (by unfold padLen; omega), List.take_left' (by omega), f.conforms hv]
  rfl

theorem Action.conforms (a : Action) (hv : a.Valid) : Spec.action a.bytes = some a.said := by
  cases a with
  | setField f => exact Action.setField_conforms f hv
  | _ =>
    simp only [Action.bytes, Action.writeTo, Enc.writeTo, Enc.gather, actionHeader, Action.type, Action.said,
      List.append_nil, List.append_assoc]
    exact Action.plain_conforms (by simp) (by decide) (by decide) rfl (by simp [-zeros_length])

theorem Action.framed (a : Action) (hv : a.Valid) : Spec.Framed 2 1 a.bytes a.bytes := by
  refine ⟨⟨[], by simp⟩, by simp, ?_, ?_⟩
  · rw [Action.bytes_length]; cases a <;> simp [Action.size]; omega
  · cases a with
    | setField f =>
      have := f.bytes_length
      have hpl := padLen_lt (4 + f.bytes.length)
      have h255 := hv.2.1
      have hl := u16_ofNat_toNat (n := 4 + f.bytes.length + padLen (4 + f.bytes.length)) (by omega)
      rw [setField_bytes, Spec.u16_two, hl]; simp; omega
    | _ =>
      rw [Action.bytes_length]
      simp [Action.bytes, Action.writeTo, Enc.writeTo, Enc.gather, actionHeader, Action.size]

theorem Actions.conforms (as : List Action) (hv : ∀ a ∈ as, a.Valid) :
    Spec.actions (Actions.bytes as) = some (as.map Action.said) :=
  Spec.records_each as fun a ha => ⟨a.framed (hv a ha), a.conforms (hv a ha)⟩

/-! ## Instructions -/

/-- What an instruction says. -/
def Instruction.said : Instruction → Spec.Instruction
  | .gotoTable t => ⟨"OFPIT_GOTO_TABLE", [("table_id", .num t.toNat)], []⟩
  | .writeMetadata m k =>
    ⟨"OFPIT_WRITE_METADATA", [("metadata", .num m.toNat), ("metadata_mask", .num k.toNat)], []⟩
  | .writeActions as => ⟨"OFPIT_WRITE_ACTIONS", [], as.map Action.said⟩
  | .applyActions as => ⟨"OFPIT_APPLY_ACTIONS", [], as.map Action.said⟩
  | .clearActions => ⟨"OFPIT_CLEAR_ACTIONS", [], []⟩
  | .meter m => ⟨"OFPIT_METER", [("meter_id", .num m.toNat)], []⟩

theorem Actions.bytes_dvd (as : List Action) : (Actions.bytes as).length % 8 = 0 := by
  rw [Actions.bytes_length]
  induction as with
  | nil => rfl
  | cons a as ih =>
    have : a.size % 8 = 0 := by cases a <;> simp [Action.size]
    simp only [List.map_cons, List.sum_cons]; omega

theorem Instruction.plain_conforms {t l : UInt16} {body : Bytes} {name : String} {ms : List Spec.Member}
    {r : Spec.Record} (hl : l.toNat = 4 + body.length) (h8 : l.toNat % 8 = 0)
    (hn : Spec.instructionLists.lookup t.toNat = none)
    (hk : Spec.instructionStructs.lookup t.toNat = some (name, ms)) (hr : Spec.read ms body = some (r, [])) :
    Spec.instruction (be t ++ (be l ++ body)) = some ⟨name, r, []⟩ := by
  have hlen : (be t ++ (be l ++ body)).length = l.toNat := by simp; omega
  have hd : (be t ++ (be l ++ body)).drop 4 = body := by
    rw [← List.append_assoc, List.drop_left' (by simp)]
  unfold Spec.instruction
  rw [Spec.u16_two, Spec.u16_zero, hlen, hd, if_neg (by omega), hn]
  simp [hk, Spec.struct_of hr]

theorem Instruction.list_conforms {t : UInt16} {name : String} (as : List Action) (hv : ∀ a ∈ as, a.Valid)
    (hs : 8 + (as.map Action.size).sum ≤ 65535)
    (hn : Spec.instructionLists.lookup t.toNat = some name) :
    Spec.instruction (writeInstructionActions t as).out = some ⟨name, [], as.map Action.said⟩ := by
  rw [← Actions.bytes_length] at hs
  have h8 := Actions.bytes_dvd as
  have hl := u16_ofNat_toNat hs
  rw [instructionActions_bytes, List.append_assoc]
  have hlen : (be t ++ (be (UInt16.ofNat (8 + (Actions.bytes as).length)) ++ (zeros 4 ++ Actions.bytes as))).length =
      8 + (Actions.bytes as).length := by simp; omega
  have hd : (be t ++ (be (UInt16.ofNat (8 + (Actions.bytes as).length)) ++ (zeros 4 ++ Actions.bytes as))).drop 8 =
      Actions.bytes as := by
    rw [← List.append_assoc, ← List.append_assoc, List.drop_left' (by simp)]
  unfold Spec.instruction
  rw [Spec.u16_two, Spec.u16_zero, hlen, hl, hd, if_neg (by omega), hn, Actions.conforms as hv]
  simp

theorem Instruction.conforms (i : Instruction) (hv : i.Valid) : Spec.instruction i.bytes = some i.said := by
  cases i with
  | writeActions as => exact Instruction.list_conforms (t := 3) as hv.1 hv.2 rfl
  | applyActions as => exact Instruction.list_conforms (t := 4) as hv.1 hv.2 rfl
  | clearActions =>
    have h := instructionActions_bytes 5 []
    simp only [Instruction.bytes, Instruction.writeTo, Instruction.type, Instruction.said]
    rw [h, List.append_assoc]
    exact Instruction.plain_conforms (by simp [Actions.bytes]) (by decide) rfl rfl (by simp [Actions.bytes, -zeros_length])
  | _ =>
    simp only [Instruction.bytes, Instruction.writeTo, Enc.writeTo, Enc.gather, instructionHeader, Instruction.type,
      Instruction.said, List.append_nil, List.append_assoc]
    exact Instruction.plain_conforms (by simp) (by decide) rfl rfl (by simp [-zeros_length])

theorem Instruction.framed (i : Instruction) (hv : i.Valid) : Spec.Framed 2 1 i.bytes i.bytes := by
  have hx : ∀ (t : UInt16) (as : List Action), 8 + (as.map Action.size).sum ≤ 65535 →
      Spec.u16 2 (writeInstructionActions t as).out = 8 + (as.map Action.size).sum := by
    intro t as hs
    rw [← Actions.bytes_length] at hs ⊢
    rw [instructionActions_bytes, List.append_assoc, Spec.u16_two, u16_ofNat_toNat hs]
  refine ⟨⟨[], by simp⟩, by simp, ?_, ?_⟩
  · rw [Instruction.bytes_length]; cases i <;> simp [Instruction.size]; all_goals omega
  · rw [Instruction.bytes_length]
    cases i with
    | writeActions as => exact hx _ as hv.2
    | applyActions as => exact hx _ as hv.2
    | clearActions => exact hx 5 [] (by simp)
    | _ => simp [Instruction.bytes, Instruction.writeTo, Enc.writeTo, Enc.gather, instructionHeader, Instruction.size]

theorem Instructions.conforms (is : List Instruction) (hv : ∀ i ∈ is, i.Valid) :
    Spec.instructions (Instructions.bytes is) = some (is.map Instruction.said) :=
  Spec.records_each is fun a ha => ⟨a.framed (hv a ha), a.conforms (hv a ha)⟩

end Verif
