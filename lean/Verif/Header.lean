import Verif.EncodingSafe

/-!
# header.go, and io.Writer destinations
-/

namespace Verif

/-! ## Destinations -/

/-- An `io.Writer` as a state machine: `Write(p)` on state `s` returns the count, the error
and the next state. -/
abbrev Dst (ω : Type) := ω → Bytes → Nat × Option Err × ω

/-- `(*bytes.Buffer).WriteTo(w)` for a buffer holding `b`: at most one `Write` call. -/
def bufWriteTo {ω : Type} (w : Dst ω) (b : Bytes) (s : ω) : Nat × Option Err × ω :=
  if b = [] then (0, none, s)
  else
    match w s b with
    | (m, e, s') =>
      if b.length < m then (0, some .panic, s')
      else match e with
        | some e => (m, some e, s')
        | none => if m ≠ b.length then (m, some .shortWrite, s') else (m, none, s')

/-- `encoding.WriteTo`, internal/encoding/encoding.go:66-88, to an arbitrary destination. -/
def Enc.writeToDst {ω : Type} (w : Dst ω) (v : List WElem) (s : ω) : Nat × Option Err × ω :=
  match Enc.gather v with
  | (_, some e) => (0, some e, s)
  | (o, none) => bufWriteTo w o s

/-- A destination that accepts everything and remembers the single `Write` calls. -/
def recorder : Dst (List Bytes) := fun s b => (b.length, none, s ++ [b])

/-! ## Header -/

/-- `Header`, header.go:206-220. -/
structure Header where
  version : UInt8
  type : UInt8
  length : UInt16
  transaction : UInt32
  deriving DecidableEq, Repr, Inhabited

/-- The zero value. -/
def Header.zero : Header := ⟨0, 0, 0, 0⟩

/-- `(h *Header) Copy`, header.go:223-225. -/
def Header.copy (h : Header) : Header := ⟨h.version, h.type, h.length, h.transaction⟩

/-- `(h *Header) Len`, header.go:228-230. -/
def Header.len (h : Header) : Nat := h.length.toNat

/-- The argument of `encoding.WriteTo` in `(h *Header) WriteTo`, header.go:233-235: the
struct is written by one `binary.Write`. -/
def Header.elems (h : Header) : List WElem :=
  [.bin (be h.version ++ (be h.type ++ (be h.length ++ be h.transaction)))]

/-- `(h *Header) WriteTo`, header.go:233-235, to a buffer. -/
def Header.writeTo (h : Header) : Wr := Enc.writeTo h.elems

/-- `(h *Header) WriteTo`, header.go:233-235, to an arbitrary destination. -/
def Header.writeToDst {ω : Type} (w : Dst ω) (h : Header) (s : ω) : Nat × Option Err × ω :=
  Enc.writeToDst w h.elems s

/-- `(h *Header) ReadFrom`, header.go:238-240. -/
def Header.readFrom : Step Header := Enc.readFrom [
  Enc.num (fun v s => { s with version := v }), Enc.num (fun v s => { s with type := v }),
  Enc.num (fun v s => { s with length := v }), Enc.num (fun v s => { s with transaction := v })]

/-- The bytes of a header. -/
def Header.bytes (h : Header) : Bytes :=
  be h.version ++ (be h.type ++ (be h.length ++ be h.transaction))

theorem Header.bytes_length (h : Header) : h.bytes.length = 8 := by simp [Header.bytes]

theorem Header.writeTo_eq (h : Header) : h.writeTo = ⟨h.bytes, 8, none⟩ := by
  simp [Header.writeTo, Header.elems, Enc.writeTo, Enc.gather, Header.bytes]

theorem Header.reads (h s : Header) : Reads Header.readFrom s h.bytes h := by
  unfold Header.readFrom Header.bytes
  exact Reads.cons (Reads.num _) (Reads.cons (Reads.num _) (Reads.cons (Reads.num _)
    (Reads.last (Reads.num _))))

theorem Header.flat : Flat Header.readFrom 8 :=
  Flat.cons Flat.num <| Flat.cons Flat.num <| Flat.cons Flat.num <| Flat.cons Flat.num Flat.nil

end Verif
