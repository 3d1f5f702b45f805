import Verif.Ofp.Group

/-!
# ofp/handshake.go: the hello message
-/

namespace Verif

/-! ## Model -/

/-- The implementations of `HelloElem`; `HelloElemVersionBitmap`, ofp/handshake.go:120-122,
is the only one. -/
inductive HelloElem where
  | versionBitmap (bitmaps : List UInt32)
  deriving DecidableEq, Repr, Inhabited

/-- `(h *HelloElemVersionBitmap) Type`, ofp/handshake.go:125-127; constant 17. -/
def HelloElem.type : HelloElem → UInt16
  | .versionBitmap _ => 1

/-- `binary.Write` of a `[]uint32`. -/
def be32s (ws : List UInt32) : Bytes := ws.flatMap be

/-- `binary.Read` into a `[]uint32` of length `n`. -/
def ofBE32s : Nat → Bytes → List UInt32
  | 0, _ => []
  | n + 1, b => ofBE UInt32 (b.take 4) :: ofBE32s n (b.drop 4)

/-- `(h *HelloElemVersionBitmap) WriteTo`, ofp/handshake.go:131-145. -/
def HelloElem.writeTo (h : HelloElem) : Wr :=
  match h with
  | .versionBitmap ws =>
    let maplen := ws.length * 4
    let padding := (4 + maplen) % 8
    let totalLen := 4 + maplen + padding
    Enc.writeTo [.bin (be h.type ++ be (UInt16.ofNat totalLen)), .bin (be32s ws), .bin (zeros padding)]

/-- `(h *HelloElemVersionBitmap) ReadFrom`, ofp/handshake.go:149-168.  `bodyLen` wraps around
for lengths below four. -/
def HelloElem.readBitmap : Step (List UInt32) :=
  Enc.withLocal (0 : UInt16) <| Enc.readFrom [
    Enc.bin 4 (fun b s => (s.1, ofBE UInt16 (b.drop 2))),
    Enc.assign (fun s => (List.replicate ((s.2 - 4).toNat / 4) 0, s.2)),
    Enc.dyn (fun s => Enc.limited (s.2 - 4).toNat
      (Enc.bin (4 * ((s.2 - 4).toNat / 4)) (fun b s => (ofBE32s ((s.2 - 4).toNat / 4) b, s.2))))]

/-- The `ReadFrom` methods of the elements. -/
def HelloElem.readFrom : Step HelloElem := fun h r =>
  match h with
  | .versionBitmap ws => Enc.wrap .versionBitmap HelloElem.readBitmap ws r

/-- `helloElemMap`, ofp/handshake.go:29-32, and the reader maker, 65-74. -/
def helloElemMake (code : UInt16) : Except Err HelloElem :=
  match code.toNat with
  | 1 => .ok (.versionBitmap [])
  | _ => .error .unknownType

/-- `(h HelloElems) WriteTo`, ofp/handshake.go:48-58. -/
def HelloElems.writeTo (es : List HelloElem) : Wr :=
  let buf := Enc.writeSliceTo (es.map HelloElem.writeTo)
  match buf.err with
  | some e => ⟨[], 0, some e⟩
  | none => Enc.writeTo [.bin buf.out]

/-- The body of `(h HelloElems) ReadFrom`, ofp/handshake.go:62-78, on the method's own copy. -/
def HelloElems.scan : Step (List HelloElem) := Enc.scanFrom helloElemMake HelloElem.readFrom

/-- `(h HelloElems) ReadFrom`, ofp/handshake.go:62-78: the receiver is a value. -/
def HelloElems.readFrom : Step (List HelloElem) := Enc.subVal id HelloElems.scan

/-- `Hello`, ofp/handshake.go:93-97. -/
structure Hello where
  elements : List HelloElem
  deriving DecidableEq, Repr, Inhabited

/-- `(h *Hello) WriteTo`, ofp/handshake.go:101-103. -/
def Hello.writeTo (h : Hello) : Wr := Enc.writeTo [.writer (HelloElems.writeTo h.elements)]

/-- `(h *Hello) ReadFrom`, ofp/handshake.go:107-109. -/
def Hello.readFrom : Step Hello := Enc.readFrom [
  Enc.sub (fun s => s.elements) (fun v _ => ⟨v⟩) HelloElems.readFrom]

/-! ## Helper lemmas -/

theorem be32s_length (ws : List UInt32) : (be32s ws).length = 4 * ws.length := by
  induction ws with
  | nil => rfl
  | cons w ws ih =>
    have : be32s (w :: ws) = be w ++ be32s ws := rfl
    rw [this, List.length_append, ih, List.length_cons]; simp; omega

theorem ofBE32s_be32s (ws : List UInt32) (t : Bytes) : ofBE32s ws.length (be32s ws ++ t) = ws := by
  induction ws with
  | nil => rfl
  | cons w ws ih =>
    have : be32s (w :: ws) = be w ++ be32s ws := rfl
    rw [this, List.length_cons, ofBE32s, List.append_assoc, List.take_left' (by simp),
      List.drop_left' (by simp), ih, ofBE_be]

theorem be32s_append (a b : List UInt32) : be32s (a ++ b) = be32s a ++ be32s b := by
  simp [be32s]

theorem be32s_zero : be32s [0] = zeros 4 := by decide

/-- The words a version bitmap of `ws` occupies on the wire. -/
def paddedWords (ws : List UInt32) : List UInt32 := if ws.length % 2 = 0 then ws ++ [0] else ws

def HelloElem.size : HelloElem → Nat
  | .versionBitmap ws => 4 + 4 * (paddedWords ws).length

def HelloElem.bytes (h : HelloElem) : Bytes := h.writeTo.out

/-- What the decoder makes of an element. -/
def HelloElem.canonical : HelloElem → HelloElem
  | .versionBitmap ws => .versionBitmap (paddedWords ws)

theorem paddedWords_length (ws : List UInt32) : 4 + 4 * (paddedWords ws).length =
    4 + ws.length * 4 + (4 + ws.length * 4) % 8 := by
  unfold paddedWords; split
  · rw [List.length_append]; simp; omega
  · omega

theorem be32s_padded (ws : List UInt32) :
    be32s ws ++ zeros ((4 + ws.length * 4) % 8) = be32s (paddedWords ws) := by
  unfold paddedWords; split
  · rw [be32s_append, be32s_zero]; congr 2; omega
  · have : (4 + ws.length * 4) % 8 = 0 := by omega
    rw [this]; simp [zeros]

theorem HelloElem.bytes_eq (ws : List UInt32) : (HelloElem.versionBitmap ws).bytes =
    be (1 : UInt16) ++ (be (UInt16.ofNat (4 + 4 * (paddedWords ws).length)) ++ be32s (paddedWords ws)) := by
  rw [← be32s_padded, paddedWords_length]
  simp [HelloElem.bytes, HelloElem.writeTo, HelloElem.type, Enc.writeTo, Enc.gather]

theorem HelloElem.writeTo_eq (h : HelloElem) : h.writeTo = ⟨h.bytes, h.bytes.length, none⟩ := by
  cases h; simp [HelloElem.bytes, HelloElem.writeTo, Enc.writeTo, Enc.gather]

theorem HelloElem.bytes_length (h : HelloElem) : h.bytes.length = h.size := by
  cases h; rw [HelloElem.bytes_eq, HelloElem.size]; simp [be32s_length]; omega

def HelloElem.Valid (h : HelloElem) : Prop := h.size ≤ 65535

instance HelloElem.decValid (h : HelloElem) : Decidable h.Valid := by
  unfold HelloElem.Valid; infer_instance

theorem HelloElem.readBitmap_reads (ws s : List UInt32) (t : UInt16) (h : 4 + 4 * ws.length ≤ 65535) :
    Reads HelloElem.readBitmap s (be t ++ (be (UInt16.ofNat (4 + 4 * ws.length)) ++ be32s ws)) ws := by
  have hsub : (UInt16.ofNat (4 + 4 * ws.length) - 4 : UInt16).toNat = 4 * ws.length :=
    u16_ofNat_sub (c := 4) h
  refine Reads.withLocal (l' := UInt16.ofNat (4 + 4 * ws.length)) ?_
  rw [← List.append_assoc]
  refine Reads.cons (s1 := (s, UInt16.ofNat (4 + 4 * ws.length))) ?_ ?_
  · have := Reads.bin (s := (s, (0 : UInt16))) (k := 4)
      (b := be t ++ be (UInt16.ofNat (4 + 4 * ws.length)))
      (set := fun b s => (s.1, ofBE UInt16 (b.drop 2))) (by simp)
    rw [List.drop_left' (by simp), ofBE_be] at this
    exact this
  · refine Reads.assignCons ?_
    refine Reads.last (Reads.dyn ?_)
    have hk : (UInt16.ofNat (4 + 4 * ws.length) - 4 : UInt16).toNat / 4 = ws.length := by omega
    simp only [hsub] at hk ⊢
    refine Reads.limited (Reads.all ?_) (be32s_length ws).symm
    have := Reads.bin (k := 4 * (4 * ws.length / 4)) (b := be32s ws)
      (s := (List.replicate (4 * ws.length / 4) (0 : UInt32), UInt16.ofNat (4 + 4 * ws.length)))
      (set := fun b s => (ofBE32s ((s.2 - 4).toNat / 4) b, s.2)) (by rw [hk, be32s_length])
    simp only [hsub, hk] at this
    have h2 := ofBE32s_be32s ws []
    rw [List.append_nil] at h2
    rw [h2] at this
    rw [hk]
    exact this

theorem HelloElem.reads (h s : HelloElem) (hv : h.Valid) :
    Reads HelloElem.readFrom s h.bytes h.canonical := by
  cases h with
  | versionBitmap ws =>
  cases s with
  | versionBitmap s =>
  rw [HelloElem.bytes_eq]
  exact Reads.wrap (dec := HelloElem.readFrom) (s := .versionBitmap s) (f := HelloElem.versionBitmap)
    (HelloElem.readBitmap_reads (paddedWords ws) s 1 hv) (fun r => rfl)

theorem HelloElem.readBitmap_safe : Safe ShortErr HelloElem.readBitmap := by
  unfold HelloElem.readBitmap
  refine Safe.withLocal (Safe.cons Flat.bin.safe (Safe.cons Safe.assign (Safe.cons
    (Safe.dyn fun s => Safe.limited Flat.bin.safe) Safe.nil)))

theorem HelloElem.readBitmap_moves : Moves HelloElem.readBitmap :=
  Moves.withLocal (Moves.cons (Flat.bin.moves (by omega)) (t := _))

theorem HelloElem.readFrom_safe : Safe ShortErr HelloElem.readFrom := by
  intro q r hr
  cases q; exact SafeAt.wrap HelloElem.readBitmap_safe hr

theorem HelloElem.readFrom_moves : Moves HelloElem.readFrom := by
  intro q r hr
  cases q; exact Moves.wrap HelloElem.readBitmap_moves hr

def HelloElems.bytes (es : List HelloElem) : Bytes := es.flatMap HelloElem.bytes

theorem HelloElems.writeTo_eq (es : List HelloElem) :
    HelloElems.writeTo es = ⟨HelloElems.bytes es, (HelloElems.bytes es).length, none⟩ := by
  have := writeSliceTo_map HelloElem.writeTo HelloElem.bytes es (fun x _ => x.writeTo_eq)
  simp [HelloElems.writeTo, this, Enc.writeTo, Enc.gather, HelloElems.bytes]

theorem Hello.writeTo_eq (h : Hello) :
    h.writeTo = ⟨HelloElems.bytes h.elements, (HelloElems.bytes h.elements).length, none⟩ := by
  simp [Hello.writeTo, HelloElems.writeTo_eq, Enc.writeTo, Enc.gather]

theorem helloElemMake_err (c : UInt16) (e : Err) (h : helloElemMake c = .error e) :
    e = .unknownType := by
  unfold helloElemMake at h
  split at h <;> simp at h
  exact h.symm

theorem HelloElems.readFrom_safe : Safe DecErr HelloElems.readFrom :=
  Safe.subVal (Safe.scanFrom (HelloElem.readFrom_safe.mono fun _ => ShortErr.dec)
    HelloElem.readFrom_moves (fun c e h => by simp [DecErr, helloElemMake_err c e h]))

theorem Hello.readFrom_safe : Safe DecErr Hello.readFrom := by
  have h := HelloElems.readFrom_safe
  unfold Hello.readFrom; safe

theorem Hello.keeps : Keeps (fun h : Hello => h.elements) Hello.readFrom :=
  Keeps.cons (Keeps.sub fun _ _ => rfl) Keeps.nil

theorem paddedWords_odd (ws : List UInt32) : (paddedWords ws).length % 2 = 1 := by
  unfold paddedWords; split
  · rw [List.length_append]; simp; omega
  · omega

theorem paddedWords_idem (ws : List UInt32) : paddedWords (paddedWords ws) = paddedWords ws := by
  have h := paddedWords_odd ws
  generalize paddedWords ws = v at *
  unfold paddedWords
  rw [if_neg (by omega)]

theorem HelloElem.canonical_idem (h : HelloElem) : h.canonical.canonical = h.canonical := by
  cases h; simp only [HelloElem.canonical, paddedWords_idem]

theorem HelloElem.canonical_bytes (h : HelloElem) : h.canonical.bytes = h.bytes := by
  cases h; rw [HelloElem.canonical, HelloElem.bytes_eq, HelloElem.bytes_eq, paddedWords_idem]

theorem HelloElem.canonical_size (h : HelloElem) : h.canonical.size = h.size := by
  rw [← HelloElem.bytes_length, HelloElem.canonical_bytes, HelloElem.bytes_length]

theorem HelloElems.scan_readsAll (es s : List HelloElem) (hv : ∀ e ∈ es, e.Valid) :
    ReadsAll HelloElems.scan s (HelloElems.bytes es) (s ++ es.map HelloElem.canonical) := by
  have hb : HelloElems.bytes es = (es.map HelloElem.canonical).flatMap HelloElem.bytes := by
    simp only [HelloElems.bytes, List.flatMap_map, HelloElem.canonical_bytes]
  rw [hb]
  refine ReadsAll.scanFrom (enc := HelloElem.bytes) (zero := fun _ => .versionBitmap [])
    (code := HelloElem.type) s _ ?_ ?_ ?_
  · intro x hx
    obtain ⟨e, he, rfl⟩ := List.mem_map.1 hx
    have := e.canonical.reads (.versionBitmap []) (by
      rw [HelloElem.Valid, HelloElem.canonical_size]; exact hv e he)
    rwa [HelloElem.canonical_idem] at this
  · intro x _; cases x; rfl
  · intro x _; cases x; exact ⟨_, HelloElem.bytes_eq _⟩

theorem HelloElems.readsAll (es s : List HelloElem) (hv : ∀ e ∈ es, e.Valid) :
    ReadsAll HelloElems.readFrom s (HelloElems.bytes es) s :=
  ReadsAll.subVal (HelloElems.scan_readsAll es _ hv)

theorem Hello.readsAll (h s : Hello) (hv : ∀ e ∈ h.elements, e.Valid) :
    ReadsAll Hello.readFrom s h.writeTo.out s := by
  rw [Hello.writeTo_eq]
  exact ReadsAll.last (ReadsAll.sub (HelloElems.readsAll _ _ hv))

end Verif
