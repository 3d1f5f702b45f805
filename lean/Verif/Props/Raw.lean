import Verif.Ofp.Raw
import Verif.Props.Fixed

/-!
# Properties C38 (description), C49 (multipart envelope) and C50 (raw payloads)
-/

namespace Verif.Props

open Verif

/-! ## C50 -/

/-- C50.  An echo request is its payload and comes back verbatim. -/
theorem echoRequest_roundtrip (e : EchoRequest) :
    e.writeTo.out = e.data ∧ Encodes e.writeTo ∧ DecodesAll EchoRequest.readFrom e.writeTo.out e :=
  ⟨by simp [EchoRequest.writeTo, Enc.writeTo, Enc.gather],
    by simp [Encodes, EchoRequest.writeTo, Enc.writeTo, Enc.gather], ReadsAll.decodes e.readsAll⟩

theorem echoReply_roundtrip (e : EchoReply) :
    e.writeTo.out = e.data ∧ Encodes e.writeTo ∧ DecodesAll EchoReply.readFrom e.writeTo.out e :=
  ⟨by simp [EchoReply.writeTo, Enc.writeTo, Enc.gather],
    by simp [Encodes, EchoReply.writeTo, Enc.writeTo, Enc.gather], ReadsAll.decodes e.readsAll⟩

/-- C50.  Type, code and payload of an error message. -/
theorem error_roundtrip (e : OfpError) :
    Layout e.writeTo.out [.num 2 e.type.toNat, .num 2 e.code.toNat, .raw e.data] ∧
      Encodes e.writeTo ∧ DecodesAll OfpError.readFrom e.writeTo.out e :=
  ⟨by simp [OfpError.writeTo, Enc.writeTo, Enc.gather],
    by simp [Encodes, OfpError.writeTo, Enc.writeTo, Enc.gather], ReadsAll.decodes e.readsAll⟩

/-- C50.  Experimenter errors carry the type 0xffff. -/
theorem errorExperimenter_roundtrip (e : ErrorExperimenter) :
    Layout e.writeTo.out [.num 2 0xffff, .num 2 e.expType.toNat, .num 4 e.experimenter.toNat, .raw e.data] ∧
      Encodes e.writeTo ∧ DecodesAll ErrorExperimenter.readFrom e.writeTo.out e :=
  ⟨by simp [ErrorExperimenter.writeTo, Enc.writeTo, Enc.gather],
    by simp [Encodes, ErrorExperimenter.writeTo, Enc.writeTo, Enc.gather], ReadsAll.decodes e.readsAll⟩

/-- C50.  An experimenter error is also readable as a plain error: the receiver sees the
type 0xffff, the experimenter type as the code and the experimenter before the payload. -/
theorem errorExperimenter_as_error (e : ErrorExperimenter) :
    DecodesAll OfpError.readFrom e.writeTo.out ⟨0xffff, e.expType, be e.experimenter ++ e.data⟩ := by
  have h := ReadsAll.decodes (OfpError.readsAll ⟨0xffff, e.expType, be e.experimenter ++ e.data⟩)
  have he : (OfpError.writeTo ⟨0xffff, e.expType, be e.experimenter ++ e.data⟩).out = e.writeTo.out := by
    simp [OfpError.writeTo, ErrorExperimenter.writeTo, Enc.writeTo, Enc.gather]
  rwa [he] at h

/-! ## C38 -/

/-- The text `t` in a field of `k` bytes: truncated to the field, or padded with NULs. -/
def FieldText (k : Nat) (t field : Bytes) : Prop :=
  field.length = k ∧ field.take t.length = t.take k ∧ ∀ i, t.length ≤ i → i < k → field[i]? = some 0

theorem copyTo_fieldText (k : Nat) (t : Bytes) : FieldText k t (copyTo t k) := by
  refine ⟨by simp, ?_, ?_⟩
  · simp only [copyTo]
    by_cases h : t.length ≤ k
    · rw [List.take_append_of_le_length (by simp; omega), List.take_take, List.take_of_length_le (by omega),
        List.take_of_length_le (by omega)]
    · rw [show k - t.length = 0 by omega]
      simp only [zeros, List.replicate_zero, List.append_nil, List.take_take]
      rw [Nat.min_eq_right (by omega)]
  · intro i h1 h2
    simp only [copyTo]
    rw [List.getElem?_append_right (by simp; omega)]
    simp only [zeros, List.getElem?_replicate, List.length_take]
    rw [if_pos (by omega)]

/-- C38.  A description is always 1056 bytes: the five texts in fields of 256, 256, 256, 32
and 256 bytes, truncated or NUL padded. -/
theorem description_layout (d : Description) :
    Encodes d.writeTo ∧ d.writeTo.out.length = 1056 ∧
    ∃ m h s n p, FieldText 256 d.manufacturer m ∧ FieldText 256 d.hardware h ∧
      FieldText 256 d.software s ∧ FieldText 32 d.serialNum n ∧ FieldText 256 d.datapath p ∧
      d.writeTo.out = m ++ h ++ s ++ n ++ p := by
  rw [Description.out_eq]
  refine ⟨by simp [Encodes], by simp, _, _, _, _, _, copyTo_fieldText 256 _, copyTo_fieldText 256 _,
    copyTo_fieldText 256 _, copyTo_fieldText 32 _, copyTo_fieldText 256 _, ?_⟩
  simp

/-- C38.  Decoding the encoding of a description gives the texts, truncated or NUL padded
to the width of the field. -/
theorem description_roundtrip (d : Description) : ∃ d' : Description,
    Decodes Description.readFrom d.writeTo.out d' ∧
    FieldText 256 d.manufacturer d'.manufacturer ∧ FieldText 256 d.hardware d'.hardware ∧
    FieldText 256 d.software d'.software ∧ FieldText 32 d.serialNum d'.serialNum ∧
    FieldText 256 d.datapath d'.datapath :=
  ⟨d.canonical, Reads.decodes d.reads, copyTo_fieldText 256 _, copyTo_fieldText 256 _,
    copyTo_fieldText 256 _, copyTo_fieldText 32 _, copyTo_fieldText 256 _⟩

theorem description_fixed : FixedSize Description.readFrom 1056 := Description.flat.fixed

theorem copyTo_full (t : Bytes) (k : Nat) (h : t.length = k) : copyTo t k = t := by
  subst h; simp [copyTo, zeros]

/-- C38.  Decode then encode reproduces any 1056 bytes, and the decoded value does not
depend on the receiver. -/
theorem description_stable (bs : Bytes) (h : bs.length = 1056) :
    ∃ d : Description, Decodes Description.readFrom bs d ∧ d.writeTo.out = bs := by
  have hd : bs = bs.take 256 ++ ((bs.drop 256).take 256 ++ ((bs.drop 512).take 256 ++
      ((bs.drop 768).take 32 ++ (bs.drop 800).take 256))) := by
    conv => lhs; rw [← List.take_append_drop 256 bs]
    congr 1
    conv => lhs; rw [← List.take_append_drop 256 (bs.drop 256), List.drop_drop]
    congr 1
    conv => lhs; rw [← List.take_append_drop 256 (bs.drop 512), List.drop_drop]
    congr 1
    conv => lhs; rw [← List.take_append_drop 32 (bs.drop 768), List.drop_drop]
    congr 1
    rw [List.take_of_length_le]
    simp; omega
  let d : Description := ⟨bs.take 256, (bs.drop 256).take 256, (bs.drop 512).take 256,
    (bs.drop 768).take 32, (bs.drop 800).take 256⟩
  have ho : d.writeTo.out = bs := by
    rw [Description.out_eq]
    simp only [d]
    rw [copyTo_full _ 256 (by simp; omega), copyTo_full _ 256 (by simp; omega),
      copyTo_full _ 256 (by simp; omega), copyTo_full _ 32 (by simp; omega),
      copyTo_full _ 256 (by simp; omega)]
    exact hd.symm
  have hc : d.canonical = d := by
    simp only [Description.canonical, d]
    rw [copyTo_full _ 256 (by simp; omega), copyTo_full _ 256 (by simp; omega),
      copyTo_full _ 256 (by simp; omega), copyTo_full _ 32 (by simp; omega),
      copyTo_full _ 256 (by simp; omega)]
  refine ⟨d, ?_, ho⟩
  have := Reads.decodes d.reads
  rwa [ho, hc] at this

/-! ## C49 -/

/-- C49.  A multipart request with the body `w` (any message that serialises without an
error, or none) is an 8 byte header followed by the serialised body; the receiver decodes
type, flags and exactly those body bytes. -/
theorem multipartRequest_roundtrip (t : UInt16) (w : Option Wr) (hw : ∀ x, w = some x → x.err = none) :
    let m := newMultipartRequest t w
    let body := (w.map Wr.out).getD []
    Encodes m.writeTo ∧ Layout m.writeTo.out [.num 2 t.toNat, .num 2 0, .pad 4, .raw body] ∧
      DecodesAll MultipartRequest.readFrom m.writeTo.out ⟨t, 0, .buffer body⟩ := by
  have key : ∃ o, (newMultipartRequest t w).writeTo = ⟨o, o.length, none⟩ ∧
      o = be t ++ (be (0 : UInt16) ++ (zeros 4 ++ (w.map Wr.out).getD [])) := by
    cases w with
    | none => exact ⟨_, by simp [MultipartRequest.writeTo, newMultipartRequest, MBody.elem, Enc.writeTo, Enc.gather], rfl⟩
    | some w =>
      have := hw w rfl
      refine ⟨_, ?_, rfl⟩
      simp [MultipartRequest.writeTo, newMultipartRequest, MBody.elem, Enc.writeTo, Enc.gather, this]
  obtain ⟨o, h1, h2⟩ := key
  refine ⟨by rw [h1]; simp [Encodes], ?_, ?_⟩
  · rw [h1, h2]; simp
  · rw [h1, h2]; exact ReadsAll.decodes (MultipartRequest.readsAll t 0 _)

/-- Non-vacuity: a request whose body is a port statistics request. -/
example : (PortStatsRequest.writeTo ⟨7⟩).err = none := by decide

/-- C49.  With flags set and a received body, the first write reproduces the message; the
body is then consumed, a second write is the header alone. -/
theorem multipartRequest_forward (t f : UInt16) (b : Bytes) :
    let m : MultipartRequest := ⟨t, f, .buffer b⟩
    DecodesAll MultipartRequest.readFrom m.writeTo.out m ∧
      Layout m.writeTo.out [.num 2 t.toNat, .num 2 f.toNat, .pad 4, .raw b] ∧
      Layout m.afterWrite.writeTo.out [.num 2 t.toNat, .num 2 f.toNat, .pad 4] := by
  have h : ∀ b, (MultipartRequest.writeTo ⟨t, f, .buffer b⟩).out = be t ++ (be f ++ (zeros 4 ++ b)) := by
    intro b; simp [MultipartRequest.writeTo, MBody.elem, Enc.writeTo, Enc.gather]
  refine ⟨?_, ?_, ?_⟩
  · rw [h]; exact ReadsAll.decodes (MultipartRequest.readsAll t f b)
  · rw [h]; simp
  · simp only [MultipartRequest.afterWrite, h]; simp

/-- C49.  A body that fails to serialise, or that cannot be serialised at all, makes the
whole request fail, with nothing written. -/
theorem multipartRequest_fails (t f : UInt16) (w : Wr) (e : Err) (he : w.err = some e) :
    MultipartRequest.writeTo ⟨t, f, .wrapper w⟩ = ⟨[], 0, some e⟩ ∧
      MultipartRequest.writeTo ⟨t, f, .other⟩ = ⟨[], 0, some .invalidType⟩ := by
  simp [MultipartRequest.writeTo, MBody.elem, Enc.writeTo, Enc.gather, he]

/-- C49.  The reply decoder takes its 8 byte header and leaves the records. -/
theorem multipartReply_leaves_records (x : MultipartReply) (s : MultipartReply) (r : Rd) (records : Bytes)
    (hr : r.Ok .eof) (hc : r.content = x.writeTo.out ++ records) :
    x.writeTo.out.length = 8 ∧ (MultipartReply.readFrom s r).val = x ∧
      (MultipartReply.readFrom s r).n = 8 ∧ (MultipartReply.readFrom s r).err = none ∧
      (MultipartReply.readFrom s r).rd.content = records := by
  have hl : x.writeTo.out.length = 8 := by simp [MultipartReply.writeTo, Enc.writeTo, Enc.gather]
  have := (multipartReply_roundtrip x).2 s r records hr hc
  exact ⟨hl, this.1, by rw [this.2.1, hl], this.2.2⟩

/-- Reading a wrapped body with buffers of the given sizes: the bytes and the errors of
each call. -/
def mreads : List Nat → MReader → List (Bytes × Option Err)
  | [], _ => []
  | k :: ks, m => match m.read k with | (b, e, m') => (b, e) :: mreads ks m'

theorem mreads_spec (w : Wr) (he : w.err = none) : ∀ (ks : List Nat) (m : MReader) (b : Bytes),
    m.w = w → m.init = b →
    (mreads ks m).flatMap (·.1) = b.take ks.sum ∧
      ∀ x ∈ mreads ks m, x.2 = none ∨ x.2 = some .eof ∧ b.length ≤ ks.sum := by
  intro ks
  induction ks with
  | nil => intro m b _ _; simp [mreads]
  | cons k ks ih =>
    intro m b hw hb
    simp only [mreads, MReader.read, hw, he, hb]
    by_cases hz : b = [] ∧ k ≠ 0
    · simp only [hz, ne_eq, not_false_iff, and_self, if_true]
      obtain ⟨h1, h2⟩ := ih ⟨w, some []⟩ [] rfl rfl
      refine ⟨by simp [h1], ?_⟩
      intro x hx
      rcases List.mem_cons.mp hx with rfl | hx
      · right; simp
      · rcases h2 x hx with h | h
        · exact .inl h
        · exact .inr ⟨h.1, by simp⟩
    · simp only [hz, if_false]
      obtain ⟨h1, h2⟩ := ih ⟨w, some (b.drop k)⟩ (b.drop k) rfl rfl
      refine ⟨?_, ?_⟩
      · simp only [List.flatMap_cons, h1, List.sum_cons]
        rw [List.take_add]
      · intro x hx
        rcases List.mem_cons.mp hx with rfl | hx
        · exact .inl rfl
        · rcases h2 x hx with h | h
          · exact .inl h
          · refine .inr ⟨h.1, ?_⟩
            have := h.2
            simp at this ⊢; omega

/-- C49.  Reading the body of a request made by `NewMultipartRequest` in pieces of any
sizes yields the serialised body in order; end of input is reported only when all of it
was asked for. -/
theorem multipartBody_reads (w : Wr) (he : w.err = none) (ks : List Nat) :
    (mreads ks ⟨w, none⟩).flatMap (·.1) = w.out.take ks.sum ∧
      ∀ x ∈ mreads ks ⟨w, none⟩, x.2 = none ∨ x.2 = some .eof ∧ w.out.length ≤ ks.sum :=
  mreads_spec w he ks ⟨w, none⟩ w.out rfl rfl

/-- C49.  If the body does not serialise, every read reports the error and no byte. -/
theorem multipartBody_error (w : Wr) (e : Err) (he : w.err = some e) (ks : List Nat) :
    mreads ks ⟨w, none⟩ = ks.map (fun _ => ([], some e)) := by
  have : ∀ (ks : List Nat) (b : Option Bytes), mreads ks ⟨w, b⟩ = ks.map (fun _ => ([], some e)) := by
    intro ks
    induction ks with
    | nil => intro b; rfl
    | cons k ks ih => intro b; simp [mreads, MReader.read, he, ih]
  exact this ks none

end Verif.Props
