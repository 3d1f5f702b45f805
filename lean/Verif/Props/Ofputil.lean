import Verif.Ofputil
import Verif.Props.Conn
import Verif.Props.Request
import Verif.Props.Flow
import Verif.Props.Match
import Verif.Props.Raw
import Verif.Props.Action

/-!
# Properties C44, C45, C46, C48 and C53: package ofputil
-/

namespace Verif.Props

open Verif

/-! ## C44 -/

private theorem shl_testBit (m v : UInt32) (i : Nat) :
    (shl m v).toNat.testBit i = true ↔ m.toNat.testBit i = true ∨ (v.toNat = i ∧ i < 32) := by
  simp only [shl]
  split
  · rename_i h
    have h1 : (1 <<< v : UInt32).toNat = 2 ^ v.toNat := by
      rw [UInt32.toNat_shiftLeft]
      have : v.toNat % 32 = v.toNat := by omega
      simp only [this, UInt32.toNat_one, Nat.shiftLeft_eq, Nat.one_mul]
      exact Nat.mod_eq_of_lt (Nat.pow_lt_pow_right (by omega) h)
    rw [UInt32.toNat_or, Nat.testBit_or, h1, Nat.testBit_two_pow, Bool.or_eq_true]
    simp only [decide_eq_true_eq]
    constructor
    · rintro (h | h)
      · exact .inl h
      · exact .inr ⟨h, by omega⟩
    · rintro (h | h)
      · exact .inl h
      · exact .inr h.1
  · rename_i h
    simp only [UInt32.toNat_or, UInt32.toNat_zero, Nat.or_zero]
    constructor
    · exact .inl
    · rintro (h | h)
      · exact h
      · omega

private theorem foldl_shl_testBit (l : List UInt32) (m : UInt32) (i : Nat) :
    (l.foldl shl m).toNat.testBit i = true ↔
      m.toNat.testBit i = true ∨ ∃ v ∈ l, v.toNat = i ∧ i < 32 := by
  induction l generalizing m with
  | nil => simp
  | cons v l ih =>
    rw [List.foldl_cons, ih, shl_testBit]
    simp only [List.mem_cons, exists_eq_or_imp, or_assoc]

private theorem bitmapOf_testBit (l : List UInt32) (i : Nat) :
    (bitmapOf l).toNat.testBit i = true ↔ ∃ v ∈ l, v.toNat = i ∧ i < 32 := by
  simp [bitmapOf, foldl_shl_testBit]

private theorem bitmapOf_congr (l l' : List UInt32)
    (h : ∀ v : UInt32, v.toNat < 32 → (v ∈ l ↔ v ∈ l')) : bitmapOf l = bitmapOf l' := by
  apply UInt32.toNat.inj
  apply Nat.eq_of_testBit_eq
  intro i
  rw [Bool.eq_iff_iff, bitmapOf_testBit, bitmapOf_testBit]
  constructor
  · rintro ⟨v, hv, rfl, hi⟩; exact ⟨v, (h v hi).mp hv, rfl, hi⟩
  · rintro ⟨v, hv, rfl, hi⟩; exact ⟨v, (h v hi).mpr hv, rfl, hi⟩

private theorem u8_bits (l : List UInt8) (i : Nat) :
    (bitmapOf (l.map (·.toUInt32))).toNat.testBit i = true ↔ i < 32 ∧ ∃ v ∈ l, v.toNat = i := by
  rw [bitmapOf_testBit]
  constructor
  · rintro ⟨v, hv, h1, h2⟩
    obtain ⟨x, hx, rfl⟩ := List.mem_map.mp hv
    exact ⟨h2, x, hx, by simpa using h1⟩
  · rintro ⟨h2, x, hx, h1⟩
    exact ⟨_, List.mem_map.mpr ⟨x, hx, rfl⟩, by simpa using h1, h2⟩

/-- C44.  Bit `i` of the packet-in reasons bitmap is set iff reason `i` was given (`i` below
32, so reasons of 32 and above contribute nothing). -/
theorem packetInReasonBitmap_bits (reasons : List UInt8) (i : Nat) :
    (packetInReasonBitmap reasons).toNat.testBit i = true ↔ i < 32 ∧ ∃ v ∈ reasons, v.toNat = i :=
  u8_bits reasons i

/-- C44.  The same for port reasons. -/
theorem portReasonBitmap_bits (reasons : List UInt8) (i : Nat) :
    (portReasonBitmap reasons).toNat.testBit i = true ↔ i < 32 ∧ ∃ v ∈ reasons, v.toNat = i :=
  u8_bits reasons i

/-- C44.  The same for flow removed reasons. -/
theorem flowReasonBitmap_bits (reasons : List UInt8) (i : Nat) :
    (flowReasonBitmap reasons).toNat.testBit i = true ↔ i < 32 ∧ ∃ v ∈ reasons, v.toNat = i :=
  u8_bits reasons i

/-- C44.  The same for group types. -/
theorem groupBitmap_bits (groups : List UInt8) (i : Nat) :
    (groupBitmap groups).toNat.testBit i = true ↔ i < 32 ∧ ∃ v ∈ groups, v.toNat = i :=
  u8_bits groups i

/-- C44.  The same for action types, which are 16-bit numbers. -/
theorem actionBitmap_bits (actions : List UInt16) (i : Nat) :
    (actionBitmap actions).toNat.testBit i = true ↔ i < 32 ∧ ∃ v ∈ actions, v.toNat = i := by
  rw [actionBitmap, bitmapOf_testBit]
  constructor
  · rintro ⟨v, hv, h1, h2⟩
    obtain ⟨x, hx, rfl⟩ := List.mem_map.mp hv
    exact ⟨h2, x, hx, by simpa using h1⟩
  · rintro ⟨h2, x, hx, h1⟩
    exact ⟨_, List.mem_map.mpr ⟨x, hx, rfl⟩, by simpa using h1, h2⟩

/-- C44.  Order and repetition do not matter, nor do values of 32 and above: lists with the
same members below 32 give the same bitmap. -/
theorem bitmap_set_u8 (l l' : List UInt8)
    (h : ∀ v : UInt8, v.toNat < 32 → (v ∈ l ↔ v ∈ l')) :
    packetInReasonBitmap l = packetInReasonBitmap l' ∧ portReasonBitmap l = portReasonBitmap l' ∧
      flowReasonBitmap l = flowReasonBitmap l' ∧ groupBitmap l = groupBitmap l' := by
  have key : bitmapOf (l.map (·.toUInt32)) = bitmapOf (l'.map (·.toUInt32)) := by
    refine bitmapOf_congr _ _ fun v hv => ?_
    simp only [List.mem_map]
    constructor
    · rintro ⟨x, hx, rfl⟩; exact ⟨x, (h x (by simpa using hv)).mp hx, rfl⟩
    · rintro ⟨x, hx, rfl⟩; exact ⟨x, (h x (by simpa using hv)).mpr hx, rfl⟩
  exact ⟨key, key, key, key⟩

theorem bitmap_set_u16 (l l' : List UInt16)
    (h : ∀ v : UInt16, v.toNat < 32 → (v ∈ l ↔ v ∈ l')) : actionBitmap l = actionBitmap l' := by
  refine bitmapOf_congr _ _ fun v hv => ?_
  simp only [List.mem_map]
  constructor
  · rintro ⟨x, hx, rfl⟩; exact ⟨x, (h x (by simpa using hv)).mp hx, rfl⟩
  · rintro ⟨x, hx, rfl⟩; exact ⟨x, (h x (by simpa using hv)).mpr hx, rfl⟩

/-- C44.  The bitmaps of master and slave role go into an asynchronous configuration in
argument order. -/
theorem bitmap64_wire (p1 p2 q1 q2 f1 f2 : UInt32) :
    Layout (AsyncConfig.writeTo ⟨bitmap64 p1 p2, bitmap64 q1 q2, bitmap64 f1 f2⟩).out
      [.num 4 p1.toNat, .num 4 p2.toNat, .num 4 q1.toNat, .num 4 q2.toNat, .num 4 f1.toNat,
        .num 4 f2.toNat] := by
  simp [AsyncConfig.writeTo, Enc.writeTo, Enc.gather, bitmap64]

/-- C44.  The four words given to `Bitmap128` appear in that order in the group features
message. -/
theorem bitmap128_wire (types caps m1 m2 m3 m4 a1 a2 a3 a4 : UInt32) :
    Layout (GroupFeatures.writeTo ⟨types, caps, (m1, m2, m3, m4), bitmap128 a1 a2 a3 a4⟩).out
      [.num 4 types.toNat, .num 4 caps.toNat, .num 4 m1.toNat, .num 4 m2.toNat, .num 4 m3.toNat,
        .num 4 m4.toNat, .num 4 a1.toNat, .num 4 a2.toNat, .num 4 a3.toNat, .num 4 a4.toNat] := by
  simp [GroupFeatures.writeTo, Enc.writeTo, Enc.gather, bitmap128]

/-- Non-vacuity: the examples of the unit tests, a repetition, and a value out of range. -/
example : packetInReasonBitmap [1, 2] = 6 ∧ packetInReasonBitmap [2, 1, 2, 40] = 6 ∧
    actionBitmap [0, 17, 18] = 0x60001 ∧ actionBitmap [0xffff, 31] = 0x80000000 := by decide

/-! ## C53 -/

/-- A field of the basic class with an exact value: what `ofputil`'s helpers promise. -/
def BasicField (α : Type) [Wire α] (zero : α) (t : UInt8) (x : XM) (v : α) : Prop :=
  x.type = t ∧ x.cls = 0x8000 ∧ x.mask = [] ∧ xmValueNum α zero x.value = v ∧
  Decodes XM.readFrom x.writeTo.out x ∧
  Layout x.writeTo.out [.num 2 0x8000, .num 1 (2 * t.toNat), .num 1 (Wire.size α),
    .num (Wire.size α) (Wire.toNat v)]

private theorem basic_field {α : Type} [Wire α] (zero : α) (t : UInt8) (ht : t.toNat < 128)
    (hs : Wire.size α ≤ 255) (v : α) : BasicField α zero t (basic t (bytesOf v) []) v := by
  have hb : bytesOf v = be v := by simp [bytesOf, Enc.writeTo, Enc.gather]
  have hv : (basic t (bytesOf v) []).Valid := by simp [XM.Valid, basic, hb, ht, hs]
  refine ⟨rfl, rfl, rfl, ?_, (xm_roundtrip _ hv).2, ?_⟩
  · have h1 := xmValue_num zero (be v) (by simp)
    simp only [basic, hb, h1]
    have : (be v).take (Wire.size α) = be v := List.take_of_length_le (by simp)
    rw [this, getBE_be, Wire.ofNat_toNat]
  · have := xm_layout _ hv
    simp only [basic, hb, be_length, List.length_nil, Nat.add_zero, if_true] at this ⊢
    obtain ⟨h1, h2, h3, h4, h5, h6, h7, h8, h9⟩ := this
    refine ⟨h1, h2, h3, h4, h5, h6, by rw [be_length] at h7; exact h7, ?_, ?_⟩
    · rw [be_length] at h8; rw [h8, getBE_be]
    · rw [be_length] at h9; simpa [Layout] using h9

/-- C53.  The ingress port match: 4 bytes of field 0. -/
theorem matchInPort_field (p : UInt32) : BasicField UInt32 0 0 (matchInPort p) p :=
  basic_field 0 0 (by decide) (by decide) p

/-- C53.  The Ethernet type match: 2 bytes of field 5. -/
theorem matchEthType_field (v : UInt16) : BasicField UInt16 0 5 (matchEthType v) v :=
  basic_field 0 5 (by decide) (by decide) v

/-- C53.  The IP protocol match: 1 byte of field 10. -/
theorem matchIPProto_field (v : UInt8) : BasicField UInt8 0 10 (matchIPProto v) v :=
  basic_field 0 10 (by decide) (by decide) v

/-- C53.  The ICMPv6 type match: 1 byte of field 29. -/
theorem matchICMPv6Type_field (v : UInt8) : BasicField UInt8 0 29 (matchICMPv6Type v) v :=
  basic_field 0 29 (by decide) (by decide) v

/-- C53.  The IPv6 extension header match: 2 bytes of field 39. -/
theorem matchIPv6ExtHeader_field (v : UInt16) : BasicField UInt16 0 39 (matchIPv6ExtHeader v) v :=
  basic_field 0 39 (by decide) (by decide) v

/-- C53.  `ExtendedMatch` keeps the fields, has the type of extensible matches on the wire,
and survives the round trip when its fields do and fit. -/
theorem extendedMatch_wire (xs : List XM) (h : ∀ x ∈ xs, x.Valid)
    (hl : 4 + (xs.map (fun x => 4 + x.value.length + x.mask.length)).sum ≤ 65535) :
    (extendedMatch xs).fields = xs ∧ At (extendedMatch xs).writeTo.out 0 2 1 ∧
      Decodes Match.readFrom (extendedMatch xs).writeTo.out (extendedMatch xs) := by
  have hv : (extendedMatch xs).Valid := ⟨h, hl⟩
  refine ⟨rfl, ?_, (match_roundtrip _ hv).2⟩
  obtain ⟨_, _, _, _, _, _, h1, h2, _⟩ := match_layout _ hv
  exact ⟨by omega, h2⟩

/-- Non-vacuity: the fields made by the helpers can be put into a match, and are found
again. -/
example : (∀ x ∈ [matchInPort 3, matchEthType 0x86dd, matchIPProto 58, matchICMPv6Type 135,
      matchIPv6ExtHeader 1], x.Valid) ∧
    (extendedMatch [matchInPort 3, matchEthType 0x86dd]).field 5 = some (matchEthType 0x86dd) := by
  decide

/-! ## C48 -/

private theorem requestOf_wire (t : UInt8) (b : Bytes) (n : Nat) (hn : n = b.length)
    (hl : 8 + b.length ≤ 65535) :
    ∃ msg, ((requestOf t ⟨b, n, none⟩).writeTo recorder []).dst = [msg] ∧
      ((requestOf t ⟨b, n, none⟩).writeTo recorder []).err = none ∧
      Layout msg [.num 1 4, .num 1 t.toNat, .num 2 (8 + b.length), .num 4 0, .raw b] := by
  subst hn
  obtain ⟨msg, h1, h2, h3, h4, h5⟩ := request_writeTo (requestOf t ⟨b, b.length, none⟩) b
    rfl hl []
  refine ⟨msg, h1, h2, ?_⟩
  rw [h4] at h5
  exact h5

/-- The 40 bytes in front of the match of a flow modification made by the helpers. -/
def FlowModHead (table command : Nat) (port group : Nat) : List Fld :=
  [.num 8 0, .num 8 0, .num 1 table, .num 1 command, .num 2 0, .num 2 0, .num 2 0,
    .num 4 0xffffffff, .num 4 port, .num 4 group, .num 2 0, .pad 2]

private theorem layout_raw_append (msg : Bytes) (pre : List Fld) (b : Bytes) (fs : List Fld)
    (h : Layout msg (pre ++ [.raw b])) (hb : Layout b fs) : Layout msg (pre ++ fs) := by
  induction pre generalizing msg with
  | nil =>
    simp only [List.nil_append, Layout] at *
    obtain ⟨h1, h2, h3⟩ := h
    have : msg.length ≤ b.length := by
      have := congrArg List.length h3; simp at this; omega
    rw [List.take_of_length_le this] at h2
    rw [h2]; exact hb
  | cons f t ih =>
    cases f <;> simp only [List.cons_append, Layout] at * <;>
      exact ⟨h.1, h.2.1, ih _ h.2.2⟩

private theorem flowRequest_wire (f : FlowMod) (hi : f.instructions = []) (m : Bytes)
    (hm : f.mtch.writeTo.out = m) (hl : 48 + m.length ≤ 65535) (fs : List Fld)
    (hfs : Layout m fs) :
    ∃ msg, ((requestOf 14 f.writeTo).writeTo recorder []).dst = [msg] ∧
      ((requestOf 14 f.writeTo).writeTo recorder []).err = none ∧
      Layout msg ([.num 1 4, .num 1 14, .num 2 (48 + m.length), .num 4 0] ++
        ([.num 8 f.cookie.toNat, .num 8 f.cookieMask.toNat, .num 1 f.table.toNat,
          .num 1 f.command.toNat, .num 2 f.idleTimeout.toNat, .num 2 f.hardTimeout.toNat,
          .num 2 f.priority.toNat, .num 4 f.buffer.toNat, .num 4 f.outPort.toNat,
          .num 4 f.outGroup.toNat, .num 2 f.flags.toNat, .pad 2] ++ fs)) := by
  have hlay := flowMod_layout f
  have hib : Instructions.bytes [] = [] := rfl
  have hmb : f.mtch.bytes = m := hm
  have hlen : f.writeTo.out.length = 40 + m.length := by
    rw [FlowMod.out_eq, hi, hib, hmb]; simp; omega
  have hn : f.writeTo.n = f.writeTo.out.length := by
    rw [hlen, FlowMod.out_eq, hi, hib, hmb]; simp
  have he : f.writeTo.err = none := by rw [FlowMod.out_eq]
  have hw : f.writeTo = ⟨f.writeTo.out, f.writeTo.n, none⟩ := by rw [← he]
  obtain ⟨msg, h1, h2, h3⟩ := requestOf_wire 14 f.writeTo.out f.writeTo.n hn (by omega)
  rw [hw]
  refine ⟨msg, h1, h2, ?_⟩
  have e1 : 8 + f.writeTo.out.length = 48 + m.length := by omega
  rw [e1] at h3
  refine layout_raw_append msg [.num 1 4, .num 1 14, .num 2 (48 + m.length), .num 4 0] _ _ h3 ?_
  refine layout_raw_append _ [.num 8 f.cookie.toNat, .num 8 f.cookieMask.toNat, .num 1 f.table.toNat,
          .num 1 f.command.toNat, .num 2 f.idleTimeout.toNat, .num 2 f.hardTimeout.toNat,
          .num 2 f.priority.toNat, .num 4 f.buffer.toNat, .num 4 f.outPort.toNat,
          .num 4 f.outGroup.toNat, .num 2 f.flags.toNat, .pad 2] m fs ?_ hfs
  rw [hm, hi] at hlay
  simp only [Layout, List.cons_append, List.nil_append, List.flatMap_nil] at hlay ⊢
  simpa using hlay

private theorem emptyMatch_wire : (Match.writeTo ⟨1, []⟩).out =
    be (1 : UInt16) ++ (be (4 : UInt16) ++ zeros 4) := by decide

/-- C48.  `TableFlush(t)` is sent as one flow modification of 56 bytes: delete (command 3) in
table `t`, no buffer, any port, any group, and a match without fields. -/
theorem tableFlush_wire (t : UInt8) :
    ∃ msg, ((tableFlush t).writeTo recorder []).dst = [msg] ∧
      ((tableFlush t).writeTo recorder []).err = none ∧
      Layout msg ([.num 1 4, .num 1 14, .num 2 56, .num 4 0] ++
        (FlowModHead t.toNat 3 0xffffffff 0xffffffff ++ [.num 2 1, .num 2 4, .pad 4])) :=
  flowRequest_wire (tableFlushMod t) rfl _ emptyMatch_wire (by simp) [.num 2 1, .num 2 4, .pad 4]
    (by simp)

/-- C48.  `FlowFlush(t, m)` is the same with the given match. -/
theorem flowFlush_wire (t : UInt8) (m : Match) (hl : 48 + m.writeTo.out.length ≤ 65535) :
    ∃ msg, ((flowFlush t m).writeTo recorder []).dst = [msg] ∧
      ((flowFlush t m).writeTo recorder []).err = none ∧
      Layout msg ([.num 1 4, .num 1 14, .num 2 (48 + m.writeTo.out.length), .num 4 0] ++
        (FlowModHead t.toNat 3 0xffffffff 0xffffffff ++ [.raw m.writeTo.out])) :=
  flowRequest_wire (flowFlushMod t m) rfl _ rfl hl [.raw m.writeTo.out]
    ((Layout.raw' _ _).mpr rfl)

/-- C48.  A match that does not fit is refused: nothing is sent. -/
theorem flowFlush_tooLong (t : UInt8) (m : Match) (hl : 65535 < 48 + m.writeTo.out.length) :
    ((flowFlush t m).writeTo recorder []).err = some .bodyTooLong ∧
      ((flowFlush t m).writeTo recorder []).dst = [] := by
  have hlen : (flowFlushMod t m).writeTo = ⟨(flowFlushMod t m).writeTo.out,
      (flowFlushMod t m).writeTo.out.length, none⟩ := by
    rw [FlowMod.out_eq]; simp; omega
  have h40 : (flowFlushMod t m).writeTo.out.length = 40 + m.writeTo.out.length := by
    have : (flowFlushMod t m).mtch.bytes = m.writeTo.out := rfl
    have hi : (flowFlushMod t m).instructions = [] := rfl
    have hib : Instructions.bytes [] = [] := rfl
    rw [FlowMod.out_eq, this, hi, hib]; simp; omega
  have := request_writeTo_tooLong recorder (flowFlush t m) (flowFlushMod t m).writeTo.out
    hlen (by omega) []
  exact ⟨this.1, this.2.2⟩

/-- C48.  `FlowDrop(t)` is sent as one flow modification of 56 bytes: add (command 0) an entry
with priority 0, without fields to match and without instructions, to table `t`; no
buffer. -/
theorem flowDrop_wire (t : UInt8) :
    ∃ msg, ((flowDrop t).writeTo recorder []).dst = [msg] ∧
      ((flowDrop t).writeTo recorder []).err = none ∧
      Layout msg ([.num 1 4, .num 1 14, .num 2 56, .num 4 0] ++
        (FlowModHead t.toNat 0 0 0 ++ [.num 2 1, .num 2 4, .pad 4])) :=
  flowRequest_wire (flowDropMod t) rfl _ emptyMatch_wire (by simp) [.num 2 1, .num 2 4, .pad 4]
    (by simp)

/-- C48, a deviation: the match of `NewFlowMod(c, nil)` has the deprecated type 0
(`MatchTypeStandard`) on the wire, where the helpers of `ofputil` write type 1. -/
theorem newFlowMod_nil_match_type (c : UInt8) :
    At (newFlowMod c none).writeTo.out 40 2 0 ∧ ∀ t, At (tableFlushMod t).writeTo.out 40 2 1 := by
  have key : ∀ (f : FlowMod) (t : UInt16) (x : Bytes), f.mtch.bytes = be t ++ x →
      At f.writeTo.out 40 2 t.toNat := by
    intro f t x h
    rw [FlowMod.out_eq, h]
    generalize hp : be f.cookie ++ (be f.cookieMask ++ (be f.table ++ (be f.command ++
      (be f.idleTimeout ++ (be f.hardTimeout ++ (be f.priority ++ (be f.buffer ++ (be f.outPort ++
        (be f.outGroup ++ (be f.flags ++ zeros 2)))))))))) = pre
    have hl : pre.length = 40 := by rw [← hp]; simp
    have e : (be f.cookie ++ (be f.cookieMask ++ (be f.table ++ (be f.command ++
      (be f.idleTimeout ++ (be f.hardTimeout ++ (be f.priority ++ (be f.buffer ++ (be f.outPort ++
        (be f.outGroup ++ (be f.flags ++ (zeros 2 ++ (be t ++ x ++
          Instructions.bytes f.instructions))))))))))))) =
        pre ++ (be t ++ (x ++ Instructions.bytes f.instructions)) := by
      rw [← hp]; simp only [List.append_assoc]
    simp only [e, At]
    refine ⟨by simp [hl]; omega, ?_⟩
    rw [List.drop_append_of_le_length (by omega), List.drop_eq_nil_of_le (by omega), List.nil_append,
      List.take_append_of_le_length (by simp), List.take_of_length_le (by simp), getBE_be]
    rfl
  have h0 : Match.bytes Match.zero = be (0 : UInt16) ++ (be (4 : UInt16) ++ zeros 4) := by decide
  exact ⟨key _ 0 _ h0, fun t => key _ 1 _ emptyMatch_wire⟩

/-- C48.  The instruction helpers make a list with one instruction, of type 4, 3 and 5, that
carries the given actions in order. -/
theorem actions_helpers (as : List Action) (h : ∀ a ∈ as, a.Valid)
    (hl : 8 + (as.map Action.size).sum ≤ 65535) :
    Layout (Instructions.writeTo (actionsApply as)).out [.num 2 4,
      .num 2 (8 + (as.flatMap (fun a => a.writeTo.out)).length), .pad 4,
      .raw (as.flatMap (fun a => a.writeTo.out))] ∧
    Layout (Instructions.writeTo (actionsWrite as)).out [.num 2 3,
      .num 2 (8 + (as.flatMap (fun a => a.writeTo.out)).length), .pad 4,
      .raw (as.flatMap (fun a => a.writeTo.out))] ∧
    Layout (Instructions.writeTo actionsClear).out [.num 2 5, .num 2 8, .pad 4] := by
  have e : ∀ i, (Instructions.writeTo [i]).out = i.writeTo.out := by
    intro i; simp [Instructions.writeTo_eq, Instructions.bytes, Instruction.bytes]
  simp only [actionsApply, actionsWrite, actionsClear, e]
  exact ⟨instruction_layout (.applyActions as) ⟨h, hl⟩, instruction_layout (.writeActions as) ⟨h, hl⟩,
    instruction_layout .clearActions trivial⟩

/-! ## C45 and C46 -/

/-- The message was transmitted after what was buffered, in full; or the transport failed,
the connection is broken, and part of it was transmitted. -/
def Transmits (c c' : BW) (msg : Bytes) : Prop :=
  (c'.err = none ∧ c'.tr.out = c.tr.out ++ c.buf ++ msg ∧ c'.buf = []) ∨
    (c'.err ≠ none ∧ c'.tr.out <+: c.tr.out ++ c.buf ++ msg)

private theorem response_transmits (c : BW) (rv : UInt8) (h : Header) (w : Option Wr) (b : Bytes)
    (hw : (w = none ∧ b = []) ∨ ∃ n, w = some ⟨b, n, none⟩) (hl : 8 + b.length ≤ 65535)
    (hc : c.err = none) :
    ∃ msg, Reply rv h b msg ∧ Transmits c (Response.write c rv h w).2.1 msg := by
  obtain ⟨msg, h1, _, h3⟩ := response_partial c rv h w b hw hl hc
  refine ⟨msg, h1, ?_⟩
  have he : (Response.write c rv h w).1 = (Response.write c rv h w).2.1.err := by
    rw [response_eq c rv h w b hw]
    exact (Conn.forceWrite_took c _).2.1
  rcases h3 with ⟨g1, g2, g3⟩ | ⟨g1, g2⟩
  · exact .inl ⟨by rw [← he]; exact g1, g2, g3⟩
  · exact .inr ⟨by rw [← he]; exact g1, g2⟩

/-- C45.  For every request received on a connection, `EchoHandler` transmits exactly one
message: an echo reply (type 3) with the version, the transaction and the payload of the
request, correctly framed.  (Or the transport fails.)  There is no condition on the size: a
received payload always fits. -/
theorem echoHandler_reply (F : Err) (r r' : Rd) (q : Request) (e : Option Err) (hr : r.Ok F)
    (h : Conn.receive r = (some q, e, r')) (c : BW) (hc : c.err = none) :
    ∃ b msg, q.body = .buffer b ∧
      Layout msg [.num 1 q.header.version.toNat, .num 1 3, .num 2 msg.length,
        .num 4 q.header.transaction.toNat, .raw b] ∧
      Transmits c (echoHandler none (c, q)).1 msg := by
  obtain ⟨_, m, b, _, hb, hlay, hlen, _⟩ := receive_delivered F r r' q e hr h
  have hl : 8 + b.length ≤ 65535 := by
    have h1 := q.header.length.toNat_lt
    have h2 : m.length = 8 + b.length := by
      simp only [Layout, List.length_drop] at hlay
      have := congrArg List.length hlay.2.2.2.2.2.2.2.2.2.2
      simp at this; omega
    omega
  have hw : EchoReply.writeTo ⟨b⟩ = ⟨b, b.length, none⟩ := by
    simp [EchoReply.writeTo, Enc.writeTo, Enc.gather]
  obtain ⟨msg, h1, h2⟩ := response_transmits c q.header.version
    { q.header.copy with type := 3 } (some (EchoReply.writeTo ⟨b⟩)) b (.inr ⟨_, by rw [hw]⟩) hl hc
  refine ⟨b, msg, hb, ?_, ?_⟩
  · have hv : (if ({ q.header.copy with type := 3 } : Header).version = 0 then q.header.version
        else ({ q.header.copy with type := 3 } : Header).version) = q.header.version := by
      split <;> rfl
    rw [Reply, hv] at h1
    exact h1
  · simp only [echoHandler, hb, Body.drain, serveNext]
    exact h2

/-- C45.  With a healthy transport: exactly those bytes, and the connection stays usable. -/
theorem echoHandler_healthy (F : Err) (r r' : Rd) (q : Request) (e : Option Err) (hr : r.Ok F)
    (h : Conn.receive r = (some q, e, r')) (c : BW) (hc : c.err = none) (hp : c.tr.plan = []) :
    ∃ b msg, q.body = .buffer b ∧
      Layout msg [.num 1 q.header.version.toNat, .num 1 3, .num 2 msg.length,
        .num 4 q.header.transaction.toNat, .raw b] ∧
      (echoHandler none (c, q)).1.err = none ∧ (echoHandler none (c, q)).1.buf = [] ∧
      (echoHandler none (c, q)).1.tr.out = c.tr.out ++ c.buf ++ msg := by
  obtain ⟨b, msg, h1, h2, h3⟩ := echoHandler_reply F r r' q e hr h c hc
  refine ⟨b, msg, h1, h2, ?_⟩
  rcases h3 with ⟨g1, g2, g3⟩ | ⟨g1, _⟩
  · exact ⟨g1, g3, g2⟩
  · exfalso; apply g1
    have hw : EchoReply.writeTo ⟨b⟩ = ⟨b, b.length, none⟩ := by
      simp [EchoReply.writeTo, Enc.writeTo, Enc.gather]
    simp only [echoHandler, h1, Body.drain, serveNext]
    rw [response_eq c _ _ _ b (.inr ⟨_, by rw [hw]⟩)]
    exact (force_plan_nil c _ hc hp).1

/-- C45.  The optional handler runs after the reply, on the same connection; the request it
is given has an empty body, because the payload has been read. -/
theorem echoHandler_next (h : Serve) (c : BW) (q : Request) (b : Bytes) (hb : q.body = .buffer b) :
    echoHandler (some h) (c, q) = h (echoHandler none (c, q)) ∧
      (echoHandler none (c, q)).2 = { q with body := .buffer [] } := by
  simp [echoHandler, hb, Body.drain, serveNext]

/-- C45 (documentation: "in case of successful message submission"): the optional handler
also runs when the reply could not be sent. -/
theorem echoHandler_next_on_failure (h : Serve) (c : BW) (q : Request) (b : Bytes) (e : Err)
    (hb : q.body = .buffer b) (hc : c.err = some e) :
    (echoHandler none (c, q)).1.tr.out = c.tr.out ∧
      echoHandler (some h) (c, q) = h (echoHandler none (c, q)) := by
  refine ⟨?_, (echoHandler_next h c q b hb).1⟩
  have hw : EchoReply.writeTo ⟨b⟩ = ⟨b, b.length, none⟩ := by
    simp [EchoReply.writeTo, Enc.writeTo, Enc.gather]
  simp only [echoHandler, hb, Body.drain, serveNext]
  rw [response_eq c _ _ _ b (.inr ⟨_, by rw [hw]⟩)]
  exact ((Conn.forceWrite_took c _).1.stuck e hc).2

/-- C45.  A request whose body cannot be read is not answered, and the optional handler does
not run. -/
theorem echoHandler_unreadable (h : Option Serve) (c : BW) (q : Request) (r : Rd) (F : Err)
    (hb : q.body = .reader r) (hr : r.Ok F) (hF : F ≠ .eof) : (echoHandler h (c, q)).1 = c := by
  obtain ⟨r', h1, _⟩ := readAll_spec F r hr
  have hs : skipEOF F = some F := by simp [skipEOF]
  simp [echoHandler, hb, Body.drain, h1, hs]

/-- C46.  `HelloHandler(v)` answers any request with exactly one message without a body: the
type and the transaction of the request, version `v`, or the version of the request when `v`
is 0; then the optional handler runs, with the request untouched. -/
theorem helloHandler_reply (v : UInt8) (q : Request) (c : BW) (hc : c.err = none) :
    ∃ msg, Layout msg [.num 1 (if v = 0 then q.header.version else v).toNat,
        .num 1 q.header.type.toNat, .num 2 8, .num 4 q.header.transaction.toNat] ∧
      Transmits c (helloHandler v none (c, q)).1 msg ∧ (helloHandler v none (c, q)).2 = q ∧
      ∀ h, helloHandler v (some h) (c, q) = h (helloHandler v none (c, q)) := by
  obtain ⟨msg, h1, h2⟩ := response_transmits c q.header.version
    { q.header.copy with version := v } none [] (.inl ⟨rfl, rfl⟩) (by simp) hc
  refine ⟨msg, ?_, h2, rfl, fun h => rfl⟩
  simp only [Reply, Header.copy, Layout] at h1
  obtain ⟨a1, a2, a3, a4, a5, a6, a7, a8, a9, a10, a11⟩ := h1
  simp only [Layout]
  have hm : msg.length = 8 := by
    have := congrArg List.length a11
    simp at this a9 a7
    omega
  refine ⟨a1, a2, a3, a4, a5, by rw [← hm]; exact a6, a7, a8, ?_⟩
  simpa using a11

/-- Non-vacuity: an echo request with a payload, received in pieces and answered on a
connection with something buffered; and a hello. -/
example : (match Conn.receive (.buf [] none (.src [4, 2, 0, 10, 0, 0, 0, 7, 1, 2] [3, 5] .eof true)) with
    | (some q, _, _) => (echoHandler none (⟨[9], none, ⟨[], []⟩⟩, q)).1.tr.out
    | _ => []) = [9, 4, 3, 0, 10, 0, 0, 0, 7, 1, 2] ∧
    (helloHandler 4 none (.new [], { newRequest 0 none with header := ⟨3, 0, 0, 42⟩ })).1.tr.out =
      [4, 0, 0, 8, 0, 0, 0, 42] := by
  decide +kernel

end Verif.Props
