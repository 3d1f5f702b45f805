import Verif.Spec.Wire

/-!
# ofp/echo.go, ofp/error.go, ofp/description.go and the request of ofp/multipart.go
-/

namespace Verif

/-! ## Echo -/

/-- `EchoRequest`, ofp/echo.go:18-21. -/
structure EchoRequest where
  data : Bytes
  deriving DecidableEq, Repr, Inhabited

/-- `(er *EchoRequest) WriteTo`, ofp/echo.go:25-27. -/
def EchoRequest.writeTo (e : EchoRequest) : Wr := Enc.writeTo [.bin e.data]

/-- `(er *EchoRequest) ReadFrom`, ofp/echo.go:34-45. -/
def EchoRequest.readFrom : Step EchoRequest := Enc.rest0 (fun b s => { s with data := b })

/-- `EchoReply`, ofp/echo.go:56-59. -/
structure EchoReply where
  data : Bytes
  deriving DecidableEq, Repr, Inhabited

/-- `(er *EchoReply) WriteTo`, ofp/echo.go:63-65. -/
def EchoReply.writeTo (e : EchoReply) : Wr := Enc.writeTo [.bin e.data]

/-- `(er *EchoReply) ReadFrom`, ofp/echo.go:69-76. -/
def EchoReply.readFrom : Step EchoReply := Enc.rest0 (fun b s => { s with data := b })

/-! ## Error -/

/-- `Error`, ofp/error.go:567-580.  `Code` is an integer type (`ErrCode`). -/
structure OfpError where
  type : UInt16
  code : UInt16
  data : Bytes
  deriving DecidableEq, Repr, Inhabited

/-- `(e *Error) WriteTo`, ofp/error.go:743-745. -/
def OfpError.writeTo (e : OfpError) : Wr :=
  Enc.writeTo [.bin (be e.type), .bin (be e.code), .bin e.data]

/-- `(e *Error) ReadFrom`, ofp/error.go:749-761. -/
def OfpError.readFrom : Step OfpError :=
  Enc.readFrom [
    Enc.num (fun v s => { s with type := v }), Enc.num (fun v s => { s with code := v }),
    Enc.rest0 (fun b s => { s with data := b })]

/-- `ErrorExperimenter`, ofp/error.go:764-773. -/
structure ErrorExperimenter where
  expType : UInt16
  experimenter : UInt32
  data : Bytes
  deriving DecidableEq, Repr, Inhabited

/-- `(e *ErrorExperimenter) WriteTo`, ofp/error.go:777-780; `ErrTypeExperimenter` is 0xffff. -/
def ErrorExperimenter.writeTo (e : ErrorExperimenter) : Wr :=
  Enc.writeTo [.bin (be (0xffff : UInt16)), .bin (be e.expType), .bin (be e.experimenter), .bin e.data]

/-- `(e *ErrorExperimenter) ReadFrom`, ofp/error.go:784-797: the type is read and ignored. -/
def ErrorExperimenter.readFrom : Step ErrorExperimenter :=
  Enc.readFrom [
    Enc.num (fun (_ : UInt16) s => s),
    Enc.num (fun v s => { s with expType := v }), Enc.num (fun v s => { s with experimenter := v }),
    Enc.rest0 (fun b s => { s with data := b })]

/-! ## Description -/

/-- `(d *Description) copyTo`, ofp/description.go:47-51: `make` and `copy`. -/
def copyTo (s : Bytes) (length : Nat) : Bytes := s.take length ++ zeros (length - s.length)

/-- `Description`, ofp/description.go:28-43.  A Go string is its bytes. -/
structure Description where
  manufacturer : Bytes
  hardware : Bytes
  software : Bytes
  serialNum : Bytes
  datapath : Bytes
  deriving DecidableEq, Repr, Inhabited

/-- `(d *Description) WriteTo`, ofp/description.go:55-63. -/
def Description.writeTo (d : Description) : Wr :=
  Enc.writeTo [.bin (copyTo d.manufacturer 256), .bin (copyTo d.hardware 256),
    .bin (copyTo d.software 256), .bin (copyTo d.serialNum 32), .bin (copyTo d.datapath 256)]

/-- `(d *Description) ReadFrom`, ofp/description.go:67-82: the receiver is changed only
when all arrays were read. -/
def Description.readFrom : Step Description :=
  Enc.withLocal (default : Description) <| Enc.readFrom [
    Enc.bin 256 (fun b s => (s.1, { s.2 with manufacturer := b })),
    Enc.bin 256 (fun b s => (s.1, { s.2 with hardware := b })),
    Enc.bin 256 (fun b s => (s.1, { s.2 with software := b })),
    Enc.bin 32 (fun b s => (s.1, { s.2 with serialNum := b })),
    Enc.bin 256 (fun b s => (s.1, { s.2 with datapath := b })),
    Enc.assign (fun s => (s.2, s.2))]

/-! ## Multipart request -/

/-- The `Body io.Reader` of a multipart request: nil, a `*bytes.Buffer` with its unread
bytes (after decoding), the `*reader` around an `io.WriterTo` that
`NewMultipartRequest` makes (with the result of that writer's `WriteTo`), or another
reader that is no `io.WriterTo`. -/
inductive MBody where
  | nil
  | buffer (b : Bytes)
  | wrapper (w : Wr)
  | other
  deriving DecidableEq, Repr, Inhabited

/-- `MultipartRequest`, ofp/multipart.go:211-220. -/
structure MultipartRequest where
  type : UInt16
  flags : UInt16
  body : MBody
  deriving DecidableEq, Repr, Inhabited

/-- `NewMultipartRequest`, ofp/multipart.go:225-235. -/
def newMultipartRequest (t : UInt16) (body : Option Wr) : MultipartRequest :=
  ⟨t, 0, match body with | none => .nil | some w => .wrapper w⟩

/-- The argument `m.Body` as `encoding.WriteTo` treats it. -/
def MBody.elem : MBody → WElem
  | .nil => .nil
  | .buffer b => .writer ⟨b, b.length, none⟩
  | .wrapper w => .writer w
  | .other => .bad

/-- `(m *MultipartRequest) WriteTo`, ofp/multipart.go:239-242. -/
def MultipartRequest.writeTo (m : MultipartRequest) : Wr :=
  Enc.writeTo [.bin (be m.type), .bin (be m.flags), .bin (zeros 4), m.body.elem]

/-- The request after `WriteTo`: `bytes.Buffer.WriteTo` drains the buffer. -/
def MultipartRequest.afterWrite (m : MultipartRequest) : MultipartRequest :=
  match m.body with
  | .buffer _ => { m with body := .buffer [] }
  | _ => m

/-- `(m *MultipartRequest) ReadFrom`, ofp/multipart.go:246-258. -/
def MultipartRequest.readFrom : Step MultipartRequest :=
  Enc.readFrom [
    Enc.num (fun v s => { s with type := v }), Enc.num (fun v s => { s with flags := v }), Enc.skip 4,
    Enc.rest (fun b s => { s with body := .buffer b })]

/-- The `reader` of ofp/multipart.go:154-167: the writer's result and, once initialised,
the unread bytes. Simplification: the writer is not itself an `io.Reader`. -/
structure MReader where
  w : Wr
  buf : Option Bytes
  deriving DecidableEq, Repr

/-- The buffer after `once.Do` of ofp/multipart.go:174-177. -/
def MReader.init (m : MReader) : Bytes := m.buf.getD m.w.out

/-- `(r *reader) Read`, ofp/multipart.go:171-199 (`len(b) = k`), with `bytes.Buffer.Read`. -/
def MReader.read (k : Nat) (m : MReader) : Bytes × Option Err × MReader :=
  let b := m.init
  match m.w.err with
  | some e => ([], some e, ⟨m.w, some b⟩)
  | none =>
    if b = [] ∧ k ≠ 0 then ([], some .eof, ⟨m.w, some []⟩)
    else (b.take k, none, ⟨m.w, some (b.drop k)⟩)

/-! ## Helper lemmas -/

@[simp] theorem copyTo_length (s : Bytes) (k : Nat) : (copyTo s k).length = k := by
  simp [copyTo]; omega

/-- A description whose texts fill their fields. -/
def Description.canonical (d : Description) : Description :=
  ⟨copyTo d.manufacturer 256, copyTo d.hardware 256, copyTo d.software 256,
    copyTo d.serialNum 32, copyTo d.datapath 256⟩

theorem Description.out_eq (d : Description) : d.writeTo =
    ⟨copyTo d.manufacturer 256 ++ (copyTo d.hardware 256 ++ (copyTo d.software 256 ++
      (copyTo d.serialNum 32 ++ copyTo d.datapath 256))), 1056, none⟩ := by
  simp [Description.writeTo, Enc.writeTo, Enc.gather]

theorem Description.reads (d : Description) (s : Description) :
    Reads Description.readFrom s d.writeTo.out d.canonical := by
  rw [Description.out_eq]
  unfold Description.readFrom
  refine Reads.withLocal (l' := d.canonical) ?_
  refine Reads.cons (Reads.bin (by simp)) ?_
  refine Reads.cons (Reads.bin (by simp)) ?_
  refine Reads.cons (Reads.bin (by simp)) ?_
  refine Reads.cons (Reads.bin (by simp)) ?_
  exact Reads.consNil (Reads.bin (by simp)) (Reads.last Reads.assign)

theorem Description.flat : Flat Description.readFrom 1056 :=
  Flat.withLocal <| Flat.cons Flat.bin <| Flat.cons Flat.bin <| Flat.cons Flat.bin <|
    Flat.cons Flat.bin <| Flat.cons Flat.bin <| Flat.cons Flat.assign Flat.nil

theorem Description.readsAny (bs : Bytes) (h : bs.length = 1056) :
    ∃ x, ∀ s, Reads Description.readFrom s bs x := by
  refine ⟨⟨bs.take 256, (bs.drop 256).take 256, (bs.drop 512).take 256, (bs.drop 768).take 32,
    (bs.drop 800).take 256⟩, fun s => ?_⟩
  unfold Description.readFrom
  refine Reads.withLocal (l' := ⟨bs.take 256, (bs.drop 256).take 256, (bs.drop 512).take 256,
    (bs.drop 768).take 32, (bs.drop 800).take 256⟩) ?_
  refine Reads.splitBin (by omega) ?_
  refine Reads.splitBin (by simp; omega) ?_
  refine Reads.splitBin (by simp; omega) ?_
  refine Reads.splitBin (by simp; omega) ?_
  refine Reads.splitBin (by simp; omega) ?_
  have h0 : (List.drop 256 (List.drop 32 (List.drop 256 (List.drop 256 (List.drop 256 bs))))) = [] := by
    apply List.length_eq_zero_iff.mp; simp; omega
  rw [h0]
  simp only [List.drop_drop]
  exact Reads.last Reads.assign

theorem EchoRequest.readsAll (e s : EchoRequest) :
    ReadsAll EchoRequest.readFrom s e.writeTo.out e := by
  simp only [EchoRequest.writeTo, Enc.writeTo, Enc.gather, List.append_nil]
  exact ReadsAll.rest0 _

theorem EchoReply.readsAll (e s : EchoReply) : ReadsAll EchoReply.readFrom s e.writeTo.out e := by
  simp only [EchoReply.writeTo, Enc.writeTo, Enc.gather, List.append_nil]
  exact ReadsAll.rest0 _

theorem OfpError.readsAll (e s : OfpError) : ReadsAll OfpError.readFrom s e.writeTo.out e := by
  simp only [OfpError.writeTo, Enc.writeTo, Enc.gather, List.append_nil]
  unfold OfpError.readFrom
  reads
  exact ReadsAll.last (ReadsAll.rest0 _)

theorem ErrorExperimenter.readsAll (e s : ErrorExperimenter) :
    ReadsAll ErrorExperimenter.readFrom s e.writeTo.out e := by
  simp only [ErrorExperimenter.writeTo, Enc.writeTo, Enc.gather, List.append_nil]
  unfold ErrorExperimenter.readFrom
  reads
  exact ReadsAll.last (ReadsAll.rest0 _)

theorem MultipartRequest.readsAll (t f : UInt16) (b : Bytes) (s : MultipartRequest) :
    ReadsAll MultipartRequest.readFrom s (be t ++ (be f ++ (zeros 4 ++ b))) ⟨t, f, .buffer b⟩ := by
  unfold MultipartRequest.readFrom
  reads
  exact ReadsAll.last (ReadsAll.rest _)

theorem EchoRequest.readFrom_safe : Safe ShortErr EchoRequest.readFrom := Safe.rest0
theorem EchoReply.readFrom_safe : Safe ShortErr EchoReply.readFrom := Safe.rest0
theorem OfpError.readFrom_safe : Safe ShortErr OfpError.readFrom := by
  unfold OfpError.readFrom; safe
theorem ErrorExperimenter.readFrom_safe : Safe ShortErr ErrorExperimenter.readFrom := by
  unfold ErrorExperimenter.readFrom; safe
theorem MultipartRequest.readFrom_safe : Safe ShortErr MultipartRequest.readFrom := by
  unfold MultipartRequest.readFrom; safe

end Verif
