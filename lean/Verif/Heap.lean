import Verif.Ofp.Port
import Verif.Ofp.Table
import Verif.Ofp.Flow
import Verif.Ofp.Group
import Verif.Mux

/-!
# Slices and the memory behind them

The decoders of the other modules work on lists.  In Go a list is a slice: a window on an array
that other slices may share, and `append` writes into the array when there is room.  Here the list
decoders are modelled with that memory, so that one can say what happens to the *other* slices.

The memory holds the arrays of one element type.  An element is a value; that the bytes of a
decoded element (values and masks of matches, addresses of ports) are not shared is shown for
these types separately.  Garbage collection is not modelled: an array stays where it is.
-/

namespace Verif

variable {α σ τ : Type}

/-! ## Memory -/

/-- The arrays with elements of one type, by address. -/
abbrev Mem (α : Type) := List (List α)

/-- A Go slice: nil, or the first `len` elements of an array.  Its capacity is the length of the
array.  (No slice of the code starts in the middle of an array.) -/
inductive Slc where
  | nil
  | at (addr len : Nat)
  deriving DecidableEq, Repr

/-- The array at an address. -/
def Mem.arr (m : Mem α) (a : Nat) : List α := (m[a]?).getD []

/-- What a program sees through a slice. -/
def Slc.view (m : Mem α) : Slc → List α
  | .nil => []
  | .at a n => (m.arr a).take n

/-- The slice is one that a program can have. -/
def Slc.Valid (m : Mem α) : Slc → Prop
  | .nil => True
  | .at a n => a < m.length ∧ n ≤ (m.arr a).length

instance (m : Mem α) : (s : Slc) → Decidable (s.Valid m)
  | .nil => inferInstanceAs (Decidable True)
  | .at a n => inferInstanceAs (Decidable (a < m.length ∧ n ≤ (m.arr a).length))

/-- `runtime.growslice`: how many elements more than needed are allocated for a slice that is full
(any function of the length), and the zero value they have. -/
structure Grow (α : Type) where
  zero : α
  spare : Nat → Nat

/-- The built-in `append(s, x)`. -/
def Slc.append (G : Grow α) (x : α) : Mem α × Slc → Mem α × Slc
  | (m, .nil) => (m ++ [x :: List.replicate (G.spare 0) G.zero], .at m.length 1)
  | (m, .at a n) =>
    if n < (m.arr a).length then (m.set a ((m.arr a).set n x), .at a (n + 1))
    else (m ++ [(m.arr a).take n ++ x :: List.replicate (G.spare n) G.zero], .at m.length (n + 1))

/-- `s[:0]`. -/
def Slc.clear : Slc → Slc
  | .nil => .nil
  | .at a _ => .at a 0

/-- `make([]T, n)` followed by assignments of all the elements. -/
def Mem.make (m : Mem α) (xs : List α) : Mem α × Slc := (m ++ [xs], .at m.length xs.length)

/-- The assignment `s[i] = x` for an index within the slice. -/
def Slc.set (m : Mem α) (s : Slc) (i : Nat) (x : α) : Mem α :=
  match s with
  | .nil => m
  | .at a _ => m.set a ((m.arr a).set i x)

/-! ## The loops of the decoders with their assignments

`f` is what the loop does with an element: `*xs = append(*xs, x)`. -/

/-- `encoding.ReadFunc`, internal/encoding/encoding.go:160-178, with its callback. -/
def Enc.readFuncCb (zero : τ) (st : Step τ) (f : τ → σ → σ) : Nat → σ → Nat → Rd → Out σ
  | 0, s, n, r => ⟨s, n, some .noProgress, r⟩
  | fuel + 1, s, n, r =>
    match st zero r with
    | ⟨_, k, some e, r'⟩ => ⟨s, n + k, skipEOF e, r'⟩
    | ⟨x, k, none, r'⟩ => readFuncCb zero st f fuel (f x s) (n + k) r'

/-- The loop of `encoding.ScanFrom`, internal/encoding/encoding.go:217-244, with a reader maker
that appends.  The code appends a pointer to the element before it decodes it; here the element is
appended when it has been decoded, completely or not. -/
def Enc.scanCb (mk : UInt16 → Except Err τ) (st : Step τ) (f : τ → σ → σ) : Nat → σ → Nat → Rd → Out σ
  | 0, s, n, r => ⟨s, n, some .noProgress, r⟩
  | fuel + 1, s, n, r =>
    match r.peek2 with
    | (_, some e, r1) => ⟨s, n, skipEOF e, r1⟩
    | (b, none, r1) =>
      match mk (ofBE UInt16 b) with
      | .error e => ⟨s, n, some e, r1⟩
      | .ok z =>
        match st z r1 with
        | ⟨x, k, some e, r2⟩ => ⟨f x s, n + k, skipEOF e, r2⟩
        | ⟨x, k, none, r2⟩ => scanCb mk st f fuel (f x s) (n + k) r2

/-- The loop of `(p *Ports) ReadFrom`, ofp/port.go:328-339. -/
def Ports.loopCb (f : Port → σ → σ) : Nat → σ → Nat → Rd → Out σ
  | 0, s, n, r => ⟨s, n, some .noProgress, r⟩
  | fuel + 1, s, n, r =>
    match Port.readFrom Port.zero r with
    | ⟨_, k, some .eof, r'⟩ => ⟨s, n + k, none, r'⟩
    | ⟨p, k, some e, r'⟩ => ⟨f p s, n + k, some e, r'⟩
    | ⟨p, k, none, r'⟩ => Ports.loopCb f fuel (f p s) (n + k) r'

/-- The loop of `readAllXM`, ofp/match.go:330-339. -/
def readAllXMCb (hasPayload : Bool) (f : XM → σ → σ) : Nat → σ → Rd → σ × Option Err
  | 0, s, _ => (s, some .noProgress)
  | fuel + 1, s, r =>
    if 4 ≤ r.content.length then
      match XM.read hasPayload XM.zero r with
      | ⟨_, _, some e, _⟩ => (s, some e)
      | ⟨x, _, none, r'⟩ => readAllXMCb hasPayload f fuel (f x s) r'
    else (s, none)

/-! ## The decoders of lists -/

/-- `(p *Ports) ReadFrom`, ofp/port.go:325-342: appends to the receiver. -/
def Ports.readInto (G : Grow Port) : Step (Mem Port × Slc) := fun s r =>
  Ports.loopCb (Slc.append G) (r.content.length + 1) s 0 r

/-- `encoding.ScanFrom`, internal/encoding/encoding.go:204-245, with a reader maker that appends to
a slice. -/
def Enc.scanInto (G : Grow τ) (mk : UInt16 → Except Err τ) (st : Step τ) : Step (Mem τ × Slc) :=
  fun s r =>
    let o := Enc.scanCb mk st (Slc.append G) (r.content.length + 1) s 0 r.wrapBuf
    ⟨o.val, o.n, o.err, r.unwrapBuf o.rd⟩

/-- `(i *Instructions) ReadFrom`, ofp/instruction.go:123-138: appends to the receiver. -/
def Instructions.readInto (G : Grow Instruction) : Step (Mem Instruction × Slc) :=
  Enc.scanInto G instructionMake Instruction.readFrom

/-- `(a *Actions) ReadFrom`, ofp/action.go:196-214: `*a = nil` first. -/
def Actions.readInto (G : Grow Action) : Step (Mem Action × Slc) := fun s r =>
  Enc.scanInto G actionMake Action.readFrom (s.1, .nil) r

/-- `ReadFrom` of a type whose method has a *value* receiver and appends to it
(`(m MeterBands) ReadFrom`, ofp/meter.go:121-139; `(q QueueProps) ReadFrom`, ofp/queue.go:71-89;
`(h HelloElems) ReadFrom`, ofp/handshake.go:61-79): the slice of the caller stays as it is, but the
copy shares its array. -/
def Enc.scanLost (G : Grow τ) (mk : UInt16 → Except Err τ) (st : Step τ) : Step (Mem τ × Slc) :=
  fun s r =>
    let o := Enc.scanInto G mk st s r
    ⟨(o.val.1, s.2), o.n, o.err, o.rd⟩

/-- `encoding.ReadSliceFrom`, internal/encoding/encoding.go:148-154: `reflect.Append` to the slice
of the caller, again and again, and the results are discarded. -/
def Enc.readSliceInto (G : Grow τ) (zero : τ) (st : Step τ) : Step (Mem τ × Slc) := fun s r =>
  let o := Enc.readFuncCb zero st (fun x m => (Slc.append G x (m, s.2)).1) (r.content.length + 1) s.1 0 r
  ⟨(o.val, s.2), o.n, o.err, o.rd⟩

/-- `readAllXM`, ofp/match.go:319-342. -/
def readAllXMInto (G : Grow XM) (hasPayload : Bool) : Step (Mem XM × Slc) := fun s r =>
  match readAll r with
  | (b, some e, r') => ⟨s, b.length, some e, r'⟩
  | (b, none, r') =>
    match readAllXMCb hasPayload (Slc.append G) (b.length + 1) s (.src b [] .eof false) with
    | (s', e) => ⟨s', b.length, e, r'⟩

/-- `(m *Match) ReadFrom`, ofp/match.go:464-493: `m.Fields = nil` first. -/
def Match.readInto (G : Grow XM) : Step (UInt16 × Mem XM × Slc) :=
  Enc.withLocal (0 : UInt16) <| Enc.readFrom [
    Enc.assign (fun s => ((0, s.1.2.1, .nil), s.2)),
    Enc.num (fun v s => ((v, s.1.2), s.2)),
    Enc.num (fun v s => (s.1, v)),
    Enc.dyn (fun s => Enc.limited (s.2.toNat - 4)
      (Enc.sub (fun s => s.1.2) (fun xs s => ((s.1.1, xs), s.2)) (readAllXMInto G true))),
    Enc.dyn (fun s => Enc.skip (padLen s.2.toNat))]

/-- `readTablePropXM`, ofp/table.go:368-382: the slice is cut to length zero, its array is kept. -/
def readTablePropXMInto (G : Grow XM) (hasMiss : Bool) : Step (Bool × Mem XM × Slc) :=
  Enc.withLocal (0 : UInt16) <| Enc.readFrom [
    yieldTableProp hasMiss,
    Enc.assign (fun s => ((s.1.1, s.1.2.1, s.1.2.2.clear), s.2)),
    Enc.dyn (fun s => Enc.limited (s.2 - 4).toNat
      (Enc.sub (fun s => s.1.2) (fun xs s => ((s.1.1, xs), s.2)) (readAllXMInto G false))),
    Enc.dyn (fun s => Enc.skip (padLen s.2.toNat))]

/-- The callbacks of ofp/table.go:413 and 483-486. -/
def readTypeCodesInto (G : Grow UInt16) (header : Step (UInt16 × UInt16)) : Step (Mem UInt16 × Slc) :=
  fun s r => Enc.readFuncCb (0, 0) header (fun x => Slc.append G x.1) (r.content.length + 1) s 0 r

/-- `readTablePropActions`, ofp/table.go:401-422, and `(t *TablePropInstructions) ReadFrom`,
471-496: the slice is cut to length zero, its array is kept. -/
def readTablePropCodesInto (G : Grow UInt16) (header : Step (UInt16 × UInt16)) :
    Step (Bool × Mem UInt16 × Slc) :=
  Enc.withLocal (0 : UInt16) <| Enc.readFrom [
    yieldTableProp true,
    Enc.assign (fun s => ((s.1.1, s.1.2.1, s.1.2.2.clear), s.2)),
    Enc.dyn (fun s => Enc.limited (s.2 - 4).toNat
      (Enc.sub (fun s => s.1.2) (fun xs s => ((s.1.1, xs), s.2)) (readTypeCodesInto G header))),
    Enc.dyn (fun s => Enc.skip (padLen s.2.toNat))]

/-- The last part of `(t *TableFeatures) ReadFrom`, ofp/table.go:172-190, on the list of properties
alone: `t.Properties = nil` first. -/
def TableFeatures.propertiesInto (G : Grow TableProp) : Step (Mem TableProp × Slc) := fun s r =>
  Enc.scanInto G tablePropMake TableProp.readFrom (s.1, .nil) r

/-! ## Decoders of bytes -/

/-- `PortMod` with the slice that holds its address, ofp/port.go:360-378. -/
structure PortModM where
  portNo : UInt32
  hwAddr : Mem UInt8 × Slc
  config : UInt32
  mask : UInt32
  advertise : UInt32

/-- `binary.Read` into a slice of bytes: all its elements are read, and then assigned. -/
def Slc.fill (m : Mem UInt8) (s : Slc) (b : Bytes) : Mem UInt8 :=
  match s with
  | .nil => m
  | .at a n => m.set a (b ++ (m.arr a).drop n)

/-- `(p *PortMod) ReadFrom`, ofp/port.go:390-394: `&p.HWAddr` is read in place. -/
def PortModM.readInto : Step PortModM :=
  Enc.readFrom [
    Enc.num (fun v s => { s with portNo := v }), Enc.skip 4,
    Enc.dyn (fun s => Enc.bin (s.hwAddr.2.view s.hwAddr.1).length
      (fun v s => { s with hwAddr := (s.hwAddr.2.fill s.hwAddr.1 v, s.hwAddr.2) })), Enc.skip 2,
    Enc.num (fun v s => { s with config := v }), Enc.num (fun v s => { s with mask := v }),
    Enc.num (fun v s => { s with advertise := v }), Enc.skip 4]

/-- The port modification that a program sees. -/
def PortModM.view (p : PortModM) : PortMod :=
  ⟨p.portNo, p.hwAddr.2.view p.hwAddr.1, p.config, p.mask, p.advertise⟩

/-- `XM` with the slices that hold its value and its mask, ofp/match.go:303-313. -/
structure XMM where
  cls : UInt16
  type : UInt8
  mem : Mem UInt8
  value : Slc
  mask : Slc

/-- The match that a program sees. -/
def XMM.view (x : XMM) : XM := ⟨x.cls, x.type, x.value.view x.mem, x.mask.view x.mem⟩

/-- `s[:n]`. -/
def Slc.cut (n : Nat) : Slc → Slc
  | .nil => .nil
  | .at a _ => .at a n

/-- `(xm *XM) readFrom`, ofp/match.go:353-385: `make` for the value and for the mask, the value is
read in place and then cut to its half. -/
def XMM.readInto (hasPayload : Bool) : Step XMM :=
  Enc.withLocal ((0, false) : XMLocal) <| Enc.readFrom [
    Enc.num (fun v s => ({ s.1 with cls := v }, s.2)),
    Enc.num (fun v s => ({ s.1 with type := v }, s.2)),
    Enc.num (fun v s => (s.1, (v, s.2.2))),
    Enc.assign (fun s =>
      let a := s.1.mem.make (zeros s.2.1.toNat)
      ({ s.1 with type := s.1.type >>> 1, mem := a.1, value := a.2, mask := .nil },
        (s.2.1, s.1.type &&& 1 == 1))),
    if hasPayload then
      Enc.dyn (fun s => Enc.bin s.2.1.toNat
        (fun b s => ({ s.1 with mem := s.1.value.fill s.1.mem b }, s.2)))
    else Enc.assign id,
    Enc.assign (fun s =>
      if s.2.2 then
        let length := s.2.1.toNat / 2
        let a := s.1.mem.make (((s.1.value.view s.1.mem).drop length).take length)
        ({ s.1 with mem := a.1, mask := a.2, value := s.1.value.cut length }, s.2)
      else s)]

/-- `Port` with the slice that holds its address, ofp/port.go:265-291; the other fields are as in
`Port`. -/
structure PortM where
  fields : Port
  hwAddr : Mem UInt8 × Slc

/-- The port that a program sees. -/
def PortM.view (p : PortM) : Port := { p.fields with hwAddr := p.hwAddr.2.view p.hwAddr.1 }

/-- The fields that `(p *Port) ReadFrom` reads, ofp/port.go:308-313: `make` for the address, which is
then read in place. -/
def PortM.steps : Step (PortM × Bytes) :=
  Enc.readFrom [
    Enc.assign (fun s => ({ s.1 with hwAddr := s.1.hwAddr.1.make (zeros 6) }, s.2)),
    Enc.num (fun v s => ({ s.1 with fields := { s.1.fields with portNo := v } }, s.2)), Enc.skip 4,
    Enc.bin 6 (fun v s =>
      ({ s.1 with hwAddr := (s.1.hwAddr.2.fill s.1.hwAddr.1 v, s.1.hwAddr.2) }, s.2)), Enc.skip 2,
    Enc.bin 16 (fun v s => (s.1, v)),
    Enc.num (fun v s => ({ s.1 with fields := { s.1.fields with config := v } }, s.2)),
    Enc.num (fun v s => ({ s.1 with fields := { s.1.fields with state := v } }, s.2)),
    Enc.num (fun v s => ({ s.1 with fields := { s.1.fields with curr := v } }, s.2)),
    Enc.num (fun v s => ({ s.1 with fields := { s.1.fields with advertised := v } }, s.2)),
    Enc.num (fun v s => ({ s.1 with fields := { s.1.fields with supported := v } }, s.2)),
    Enc.num (fun v s => ({ s.1 with fields := { s.1.fields with peer := v } }, s.2)),
    Enc.num (fun v s => ({ s.1 with fields := { s.1.fields with currSpeed := v } }, s.2)),
    Enc.num (fun v s => ({ s.1 with fields := { s.1.fields with maxSpeed := v } }, s.2))]

/-- `(p *Port) ReadFrom`, ofp/port.go:307-318. -/
def PortM.readInto : Step PortM :=
  Enc.withLocal (zeros 16) <|
    Enc.always (fun s => ({ s.1 with fields := { s.1.fields with name := s.2 } }, s.2)) PortM.steps

/-- `(t *TablePropNextTables) ReadFrom`, ofp/table.go:534-545: `make` for the tables, which are then
read in place. -/
def readNextTablesInto : Step (Bool × Mem UInt8 × Slc) :=
  Enc.withLocal (0 : UInt16) <| Enc.readFrom [
    yieldTableProp true,
    Enc.assign (fun s => ((s.1.1, s.1.2.1.make (zeros (s.2 - 4).toNat)), s.2)),
    Enc.dyn (fun s => Enc.bin (s.2 - 4).toNat
      (fun b s => ((s.1.1, s.1.2.2.fill s.1.2.1 b, s.1.2.2), s.2))),
    Enc.dyn (fun s => Enc.skip (padLen s.2.toNat))]

/-! ## The recorder of ofptest -/

/-- `ResponseRecorder`, ofptest/recorder.go:11-13, with the array of its requests. -/
abbrev RecorderM := Mem Request × Slc

/-- `(r *ResponseRecorder) Write`, ofptest/recorder.go:21-27. -/
def RecorderM.write (G : Grow Request) (h : Header) (w : Option (Nat → Wr)) : RecorderM → RecorderM :=
  Slc.append G { newRequest h.type w with header := h }

/-- `(r *ResponseRecorder) All`, ofptest/recorder.go:52-54: `r.reqs[:]`, the same array. -/
def RecorderM.all (r : RecorderM) : Slc := r.2

/-! ## Matchers -/

/-- `MultiMatcher`, mux.go:34-46: the closure keeps the slice of the arguments, which is the caller's
own in a call `MultiMatcher(ms...)`. -/
def multiMatcherM (m : Mem MatchFn) (s : Slc) : MatchFn := multiMatch (s.view m)

/-! ## Helper lemmas -/

theorem Mem.arr_append {m m' : Mem α} {a : Nat} (h : a < m.length) : Mem.arr (m ++ m') a = m.arr a := by
  simp [Mem.arr, List.getElem?_append_left h]

theorem Mem.arr_last {m : Mem α} {l : List α} : Mem.arr (m ++ [l]) m.length = l := by
  simp [Mem.arr]

theorem Mem.arr_set_ne {m : Mem α} {a b : Nat} {l : List α} (h : a ≠ b) : Mem.arr (List.set m a l) b = m.arr b := by
  simp [Mem.arr, List.getElem?_set_ne h]

theorem Mem.arr_set_eq {m : Mem α} {a : Nat} {l : List α} (h : a < m.length) : Mem.arr (List.set m a l) a = l := by
  simp [Mem.arr, List.getElem?_set_self h]

/-- `append(…append(append(s, x₁), x₂)…, xₙ)`. -/
def Slc.appendAll (G : Grow α) (xs : List α) (s : Mem α × Slc) : Mem α × Slc :=
  xs.foldl (fun s x => Slc.append G x s) s

/-- The address of a slice. -/
def Slc.Within (a : Nat) : Slc → Prop
  | .nil => False
  | .at b _ => b = a

theorem Slc.append_at {G : Grow α} {x : α} {m : Mem α} {a n : Nat} :
    Slc.append G x (m, .at a n) =
      if n < (m.arr a).length then (List.set m a ((m.arr a).set n x), .at a (n + 1))
      else (m ++ [(m.arr a).take n ++ x :: List.replicate (G.spare n) G.zero], .at m.length (n + 1)) := rfl

theorem Slc.append_valid {G : Grow α} {x : α} {m : Mem α} {s : Slc} (h : s.Valid m) :
    (Slc.append G x (m, s)).2.Valid (Slc.append G x (m, s)).1 := by
  cases s with
  | nil => simp [Slc.append, Slc.Valid, Mem.arr]
  | «at» a n =>
    obtain ⟨h1, h2⟩ := h
    rw [Slc.append_at]
    split
    · rename_i hn
      simp only [Slc.Valid, List.length_set]
      refine ⟨h1, ?_⟩
      rw [Mem.arr_set_eq h1, List.length_set]; omega
    · rename_i hn
      simp only [Slc.Valid, List.length_append, List.length_cons, List.length_nil]
      refine ⟨by omega, ?_⟩
      rw [Mem.arr_last]; simp; omega

theorem Slc.append_view {G : Grow α} {x : α} {m : Mem α} {s : Slc} (h : s.Valid m) :
    (Slc.append G x (m, s)).2.view (Slc.append G x (m, s)).1 = s.view m ++ [x] := by
  cases s with
  | nil => simp [Slc.append, Slc.view, Mem.arr]
  | «at» a n =>
    obtain ⟨h1, h2⟩ := h
    rw [Slc.append_at]
    split
    · rename_i hn
      simp only [Slc.view]
      rw [Mem.arr_set_eq h1, List.take_add_one, List.take_set_of_le (Nat.le_refl n)]
      simp [hn]
    · rename_i hn
      simp only [Slc.view]
      rw [Mem.arr_last]
      have : n = (m.arr a).length := by omega
      subst this
      rw [List.take_add_one]
      simp

theorem Slc.append_length {G : Grow α} {x : α} {m : Mem α} {s : Slc} :
    m.length ≤ (Slc.append G x (m, s)).1.length := by
  cases s with
  | nil => simp [Slc.append]
  | «at» a n => rw [Slc.append_at]; split <;> simp

/-- `append` touches no array but that of its slice. -/
theorem Slc.append_other {G : Grow α} {x : α} {m : Mem α} {s : Slc} {a : Nat} (ha : a < m.length)
    (hs : ¬ s.Within a) : (Slc.append G x (m, s)).1.arr a = m.arr a := by
  cases s with
  | nil => simp only [Slc.append]; exact Mem.arr_append ha
  | «at» b n =>
    rw [Slc.append_at]
    split
    · exact Mem.arr_set_ne hs
    · exact Mem.arr_append ha

theorem Slc.appendAll_valid {G : Grow α} (xs : List α) : ∀ {m : Mem α} {s : Slc}, s.Valid m →
    (Slc.appendAll G xs (m, s)).2.Valid (Slc.appendAll G xs (m, s)).1 := by
  induction xs with
  | nil => intro m s h; exact h
  | cons x xs ih =>
    intro m s h
    exact ih (Slc.append_valid (G := G) (x := x) h)

theorem Slc.appendAll_view {G : Grow α} (xs : List α) : ∀ {m : Mem α} {s : Slc}, s.Valid m →
    (Slc.appendAll G xs (m, s)).2.view (Slc.appendAll G xs (m, s)).1 = s.view m ++ xs := by
  induction xs with
  | nil => intro m s h; simp [Slc.appendAll]
  | cons x xs ih =>
    intro m s h
    have := ih (Slc.append_valid (G := G) (x := x) h)
    rw [Slc.append_view h] at this
    simpa [Slc.appendAll] using this

theorem Slc.appendAll_length {G : Grow α} (xs : List α) : ∀ {m : Mem α} {s : Slc},
    m.length ≤ (Slc.appendAll G xs (m, s)).1.length := by
  induction xs with
  | nil => intro m s; exact Nat.le_refl _
  | cons x xs ih => intro m s; exact Nat.le_trans (Slc.append_length (G := G) (x := x)) ih

theorem Slc.append_within {G : Grow α} {x : α} {m : Mem α} {s : Slc} {a : Nat} (ha : a < m.length)
    (hs : ¬ s.Within a) : ¬ (Slc.append G x (m, s)).2.Within a := by
  cases s with
  | nil => simp only [Slc.append, Slc.Within]; omega
  | «at» b n =>
    rw [Slc.append_at]
    split
    · exact hs
    · simp only [Slc.Within]; omega

theorem Slc.appendAll_other {G : Grow α} (xs : List α) : ∀ {m : Mem α} {s : Slc} {a : Nat},
    a < m.length → ¬ s.Within a → (Slc.appendAll G xs (m, s)).1.arr a = m.arr a := by
  induction xs with
  | nil => intro m s a _ _; rfl
  | cons x xs ih =>
    intro m s a ha hs
    have := ih (Nat.lt_of_lt_of_le ha (Slc.append_length (G := G) (x := x) (s := s)))
      (Slc.append_within (G := G) (x := x) ha hs)
    exact this.trans (Slc.append_other ha hs)

/-- What `append` leaves in the array of its slice: the elements that fit behind the slice are
overwritten. -/
theorem Slc.appendAll_arr {G : Grow α} (xs : List α) : ∀ {m : Mem α} {a n : Nat},
    Slc.Valid m (.at a n) → (Slc.appendAll G xs (m, .at a n)).1.arr a =
      ((m.arr a).take n ++ xs ++ (m.arr a).drop (n + xs.length)).take (m.arr a).length := by
  induction xs with
  | nil => intro m a n h; simp [Slc.appendAll]
  | cons x xs ih =>
    intro m a n h
    obtain ⟨h1, h2⟩ := h
    by_cases hn : n < (m.arr a).length
    · have e : Slc.append G x (m, .at a n) = (m.set a ((m.arr a).set n x), .at a (n + 1)) := by
        simp [Slc.append, hn]
      have hv : Slc.Valid (List.set m a ((m.arr a).set n x)) (.at a (n + 1)) := by
        have := Slc.append_valid (G := G) (x := x) (m := m) (s := .at a n) ⟨h1, h2⟩
        rwa [e] at this
      have := ih hv
      rw [Mem.arr_set_eq h1] at this
      simp only [Slc.appendAll, List.foldl_cons, e] at this ⊢
      rw [this]
      rw [List.length_set, List.take_add_one, List.take_set_of_le (Nat.le_refl n)]
      have e2 : ((m.arr a).set n x)[n]? = some x := by simp [hn]
      have e3 : ((m.arr a).set n x).drop (n + 1 + xs.length) = (m.arr a).drop (n + 1 + xs.length) :=
        List.drop_set_of_lt (by omega)
      rw [e2, e3]
      simp only [Option.toList_some, List.length_cons]
      have e4 : n + 1 + xs.length = n + (xs.length + 1) := by omega
      rw [e4]; simp
    · have hl : n = (m.arr a).length := by omega
      have := Slc.appendAll_other (G := G) (x :: xs) (m := m) (s := .at a n) (a := a) h1
      have e : Slc.append G x (m, .at a n) =
          (m ++ [(m.arr a).take n ++ x :: List.replicate (G.spare n) G.zero], .at m.length (n + 1)) := by
        simp [Slc.append, hn]
      have h3 := Slc.appendAll_other (G := G) xs (m := (Slc.append G x (m, .at a n)).1)
        (s := (Slc.append G x (m, .at a n)).2) (a := a)
        (Nat.lt_of_lt_of_le h1 Slc.append_length) (by rw [e]; simp only [Slc.Within]; omega)
      have h4 : (Slc.appendAll G (x :: xs) (m, .at a n)).1.arr a = m.arr a := by
        refine Eq.trans h3 ?_
        rw [e]; exact Mem.arr_append h1
      rw [h4, hl]
      simp

/-! ### The loops do what the loops on lists do -/

theorem Enc.readFuncCb_eq (zero : τ) (st : Step τ) : ∀ (fuel n : Nat) (r : Rd),
    ∃ (xs : List τ) (k : Nat) (e : Option Err) (r' : Rd), ∀ (σ : Type) (f : τ → σ → σ) (s : σ),
      Enc.readFuncCb zero st f fuel s n r = ⟨xs.foldl (fun s x => f x s) s, k, e, r'⟩ := by
  intro fuel
  induction fuel with
  | zero => intro n r; exact ⟨[], n, some .noProgress, r, fun _ _ _ => rfl⟩
  | succ fuel ih =>
    intro n r
    rcases ho : st zero r with ⟨x, k, e, r'⟩
    cases e with
    | some e => exact ⟨[], n + k, skipEOF e, r', fun _ _ _ => by simp [Enc.readFuncCb, ho]⟩
    | none =>
      obtain ⟨xs, k', e', r'', h⟩ := ih (n + k) r'
      exact ⟨x :: xs, k', e', r'', fun σ f s => by simp [Enc.readFuncCb, ho, h]⟩

theorem Enc.readFuncLoop_eq (zero : τ) (st : Step τ) : ∀ (fuel : Nat) (acc : List τ) (n : Nat) (r : Rd),
    Enc.readFuncLoop zero st fuel acc n r = Enc.readFuncCb zero st (fun x l => l ++ [x]) fuel acc n r := by
  intro fuel
  induction fuel with
  | zero => intro acc n r; rfl
  | succ fuel ih =>
    intro acc n r
    rcases ho : st zero r with ⟨x, k, e, r'⟩
    cases e <;> simp [Enc.readFuncCb, Enc.readFuncLoop, ho, ih]

theorem Enc.scanCb_eq (mk : UInt16 → Except Err τ) (st : Step τ) : ∀ (fuel n : Nat) (r : Rd),
    ∃ (xs : List τ) (k : Nat) (e : Option Err) (r' : Rd), ∀ (σ : Type) (f : τ → σ → σ) (s : σ),
      Enc.scanCb mk st f fuel s n r = ⟨xs.foldl (fun s x => f x s) s, k, e, r'⟩ := by
  intro fuel
  induction fuel with
  | zero => intro n r; exact ⟨[], n, some .noProgress, r, fun _ _ _ => rfl⟩
  | succ fuel ih =>
    intro n r
    rcases hp : r.peek2 with ⟨b, e, r1⟩
    cases e with
    | some e => exact ⟨[], n, skipEOF e, r1, fun _ _ _ => by simp [Enc.scanCb, hp]⟩
    | none =>
      cases hm : mk (ofBE UInt16 b) with
      | error e => exact ⟨[], n, some e, r1, fun _ _ _ => by simp [Enc.scanCb, hp, hm]⟩
      | ok z =>
        rcases ho : st z r1 with ⟨x, k, e, r2⟩
        cases e with
        | some e => exact ⟨[x], n + k, skipEOF e, r2, fun _ _ _ => by simp [Enc.scanCb, hp, hm, ho]⟩
        | none =>
          obtain ⟨xs, k', e', r'', h⟩ := ih (n + k) r2
          exact ⟨x :: xs, k', e', r'', fun σ f s => by simp [Enc.scanCb, hp, hm, ho, h]⟩

theorem Enc.scanLoop_eq (mk : UInt16 → Except Err τ) (st : Step τ) :
    ∀ (fuel : Nat) (acc : List τ) (n : Nat) (r : Rd),
    Enc.scanLoop mk st fuel acc n r = Enc.scanCb mk st (fun x l => l ++ [x]) fuel acc n r := by
  intro fuel
  induction fuel with
  | zero => intro acc n r; rfl
  | succ fuel ih =>
    intro acc n r
    rcases hp : r.peek2 with ⟨b, e, r1⟩
    cases e with
    | some e => simp [Enc.scanCb, Enc.scanLoop, hp]
    | none =>
      cases hm : mk (ofBE UInt16 b) with
      | error e => simp [Enc.scanCb, Enc.scanLoop, hp, hm]
      | ok z =>
        rcases ho : st z r1 with ⟨x, k, e, r2⟩
        cases e <;> simp [Enc.scanCb, Enc.scanLoop, hp, hm, ho, ih]

theorem Ports.loopCb_eq : ∀ (fuel n : Nat) (r : Rd),
    ∃ (xs : List Port) (k : Nat) (e : Option Err) (r' : Rd), ∀ (σ : Type) (f : Port → σ → σ) (s : σ),
      Ports.loopCb f fuel s n r = ⟨xs.foldl (fun s x => f x s) s, k, e, r'⟩ := by
  intro fuel
  induction fuel with
  | zero => intro n r; exact ⟨[], n, some .noProgress, r, fun _ _ _ => rfl⟩
  | succ fuel ih =>
    intro n r
    rcases ho : Port.readFrom Port.zero r with ⟨x, k, e, r'⟩
    cases e with
    | some e =>
      cases e
      case eof => exact ⟨[], n + k, none, r', fun _ _ _ => by simp [Ports.loopCb, ho]⟩
      all_goals exact ⟨[x], n + k, _, r', fun _ _ _ => by simp only [Ports.loopCb, ho]; rfl⟩
    | none =>
      obtain ⟨xs, k', e', r'', h⟩ := ih (n + k) r'
      exact ⟨x :: xs, k', e', r'', fun σ f s => by simp [Ports.loopCb, ho, h]⟩

theorem Ports.loop_eq : ∀ (fuel : Nat) (acc : List Port) (n : Nat) (r : Rd),
    Ports.loop fuel acc n r = Ports.loopCb (fun x l => l ++ [x]) fuel acc n r := by
  intro fuel
  induction fuel with
  | zero => intro acc n r; rfl
  | succ fuel ih =>
    intro acc n r
    rcases ho : Port.readFrom Port.zero r with ⟨x, k, e, r'⟩
    cases e with
    | some e => cases e <;> simp [Ports.loopCb, Ports.loop, ho]
    | none => simp [Ports.loopCb, Ports.loop, ho, ih]

theorem readAllXMCb_eq (hp : Bool) : ∀ (fuel : Nat) (r : Rd),
    ∃ (xs : List XM) (e : Option Err), ∀ (σ : Type) (f : XM → σ → σ) (s : σ),
      readAllXMCb hp f fuel s r = (xs.foldl (fun s x => f x s) s, e) := by
  intro fuel
  induction fuel with
  | zero => intro r; exact ⟨[], some .noProgress, fun _ _ _ => rfl⟩
  | succ fuel ih =>
    intro r
    by_cases h4 : 4 ≤ r.content.length
    · rcases ho : XM.read hp XM.zero r with ⟨x, k, e, r'⟩
      cases e with
      | some e => exact ⟨[], some e, fun _ _ _ => by simp [readAllXMCb, h4, ho]⟩
      | none =>
        obtain ⟨xs, e', h⟩ := ih r'
        exact ⟨x :: xs, e', fun σ f s => by simp [readAllXMCb, h4, ho, h]⟩
    · exact ⟨[], none, fun _ _ _ => by simp [readAllXMCb, h4]⟩

theorem readAllXMLoop_eq (hp : Bool) : ∀ (fuel : Nat) (acc : List XM) (r : Rd),
    readAllXMLoop hp fuel acc r = readAllXMCb hp (fun x l => l ++ [x]) fuel acc r := by
  intro fuel
  induction fuel with
  | zero => intro acc r; rfl
  | succ fuel ih =>
    intro acc r
    by_cases h4 : 4 ≤ r.content.length
    · rcases ho : XM.read hp XM.zero r with ⟨x, k, e, r'⟩
      cases e <;> simp [readAllXMCb, readAllXMLoop, h4, ho, ih]
    · simp [readAllXMCb, readAllXMLoop, h4]

theorem foldl_snoc (xs acc : List α) : xs.foldl (fun l x => l ++ [x]) acc = acc ++ xs := by
  induction xs generalizing acc with
  | nil => simp
  | cons x xs ih => simp [ih]

/-- The decoder on memory appends, to the slice it is given, what the decoder on lists appends. -/
def Appends (G : Grow τ) (h : Step (Mem τ × Slc)) (p : Step (List τ)) : Prop :=
  ∀ r, ∃ xs k e r', (∀ s, h s r = ⟨Slc.appendAll G xs s, k, e, r'⟩) ∧ ∀ l, p l r = ⟨l ++ xs, k, e, r'⟩

theorem Ports.appends (G : Grow Port) : Appends G (Ports.readInto G) Ports.readFrom := by
  intro r
  obtain ⟨xs, k, e, r', h⟩ := Ports.loopCb_eq (r.content.length + 1) 0 r
  exact ⟨xs, k, e, r', fun s => h _ _ s, fun l => by
    rw [Ports.readFrom, Ports.loop_eq, h, foldl_snoc]⟩

theorem Enc.scanInto_appends (G : Grow τ) (mk : UInt16 → Except Err τ) (st : Step τ) :
    Appends G (Enc.scanInto G mk st) (Enc.scanFrom mk st) := by
  intro r
  obtain ⟨xs, k, e, r', h⟩ := Enc.scanCb_eq mk st (r.content.length + 1) 0 r.wrapBuf
  exact ⟨xs, k, e, r.unwrapBuf r', fun s => by simp only [Enc.scanInto, h]; rfl, fun l => by
    simp only [Enc.scanFrom, Enc.scanLoop_eq, h, foldl_snoc]⟩

theorem readAllXMInto_appends (G : Grow XM) (hp : Bool) :
    Appends G (readAllXMInto G hp) (readAllXM hp) := by
  intro r
  rcases ha : readAll r with ⟨b, e, r'⟩
  cases e with
  | some e => exact ⟨[], b.length, some e, r', fun s => by simp [readAllXMInto, ha, Slc.appendAll],
      fun l => by simp [readAllXM, ha]⟩
  | none =>
    obtain ⟨xs, e', h⟩ := readAllXMCb_eq hp (b.length + 1) (.src b [] .eof false)
    exact ⟨xs, b.length, e', r', fun s => by simp only [readAllXMInto, ha, h]; rfl, fun l => by
      simp only [readAllXM, ha, readAllXMLoop_eq, h, foldl_snoc]⟩

theorem readTypeCodesInto_appends (G : Grow UInt16) (hd : Step (UInt16 × UInt16)) :
    Appends G (readTypeCodesInto G hd) (readTypeCodes hd) := by
  intro r
  obtain ⟨xs, k, e, r', h⟩ := Enc.readFuncCb_eq (0, 0) hd (r.content.length + 1) 0 r
  refine ⟨xs.map (·.1), k, e, r', fun s => ?_, fun l => ?_⟩
  · simp only [readTypeCodesInto, h, Slc.appendAll, List.foldl_map]
  · simp only [readTypeCodes, Enc.readFunc, Enc.readFuncLoop_eq, h, foldl_snoc, List.nil_append]

/-! ### Decoders that read in place -/

/-- The decoder `h` on memory does what the decoder `p` on values does: `abs` is what the program
sees of a state, `I` and `J` hold before and after it, and `K` also after an error. -/
def Simulates (K I J : σ → Prop) (abs : σ → τ) (h : Step σ) (p : Step τ) : Prop :=
  ∀ F s r, Rd.Ok F r → I s → K (h s r).val ∧ ((h s r).err = none → J (h s r).val) ∧ (h s r).rd.Ok F ∧
    p (abs s) r = ⟨abs (h s r).val, (h s r).n, (h s r).err, (h s r).rd⟩

theorem Simulates.nil {K I : σ → Prop} {abs : σ → τ} (hK : ∀ s, I s → K s) :
    Simulates K I I abs (Enc.readFrom []) (Enc.readFrom []) :=
  fun _ s _ hr h => ⟨hK s h, fun _ => h, hr, rfl⟩

theorem Simulates.cons {K I M J : σ → Prop} {abs : σ → τ} {h : Step σ} {p : Step τ} {hs : List (Step σ)}
    {ps : List (Step τ)} (h1 : Simulates K I M abs h p)
    (h2 : Simulates K M J abs (Enc.readFrom hs) (Enc.readFrom ps)) :
    Simulates K I J abs (Enc.readFrom (h :: hs)) (Enc.readFrom (p :: ps)) := by
  intro F s r hr hI
  obtain ⟨a0, a1, a2, a3⟩ := h1 F s r hr hI
  rcases ho : h s r with ⟨v, n, e, r'⟩
  rw [ho] at a0 a1 a2 a3
  cases e with
  | some e =>
    simp only [Enc.readFrom, ho, a3]
    exact ⟨a0, (fun h => nomatch h), a2, trivial⟩
  | none =>
    obtain ⟨b0, b1, b2, b3⟩ := h2 F v r' a2 (a1 rfl)
    simp only [Enc.readFrom, ho, a3, b3]
    exact ⟨b0, b1, b2, trivial⟩

theorem Simulates.dynBin {K I J : σ → Prop} {abs : σ → τ} {k : σ → Nat} {k' : τ → Nat}
    {f : Bytes → σ → σ} {g : Bytes → τ → τ} (hK : ∀ s, I s → K s) (hJ : ∀ s, J s → K s)
    (hk : ∀ s, I s → k' (abs s) = k s)
    (h : ∀ b s, b.length = k s → I s → J (f b s) ∧ abs (f b s) = g b (abs s)) :
    Simulates K I J abs (Enc.dyn fun s => Enc.bin (k s) f) (Enc.dyn fun s => Enc.bin (k' s) g) := by
  intro F s r hr hI
  rcases readFull_spec F (k s) r hr with ⟨hl, r', h1, h2, h3⟩ | ⟨hl, r', h1, h2, h3⟩
  · obtain ⟨i, j⟩ := h (r.content.take (k s)) s (by rw [List.length_take]; omega) hI
    simp only [Enc.dyn, Enc.bin, hk s hI, h1]
    exact ⟨hJ _ i, fun _ => i, h3, by rw [j]⟩
  · simp only [Enc.dyn, Enc.bin, hk s hI, h1]
    exact ⟨hK _ hI, (fun h => nomatch h), h3, trivial⟩

theorem Simulates.bin {K I J : σ → Prop} {abs : σ → τ} {k : Nat} {f : Bytes → σ → σ} {g : Bytes → τ → τ}
    (hK : ∀ s, I s → K s) (hJ : ∀ s, J s → K s)
    (h : ∀ b s, b.length = k → I s → J (f b s) ∧ abs (f b s) = g b (abs s)) :
    Simulates K I J abs (Enc.bin k f) (Enc.bin k g) :=
  Simulates.dynBin (k := fun _ => k) (k' := fun _ => k) hK hJ (fun _ _ => rfl) h

theorem Simulates.num {α : Type} [Wire α] {K I : σ → Prop} {abs : σ → τ} {f : α → σ → σ} {g : α → τ → τ}
    (hK : ∀ s, I s → K s)
    (h : ∀ b s, I s → I (f b s) ∧ abs (f b s) = g b (abs s)) :
    Simulates K I I abs (Enc.num f) (Enc.num g) := Simulates.bin hK hK fun _ s _ hI => h _ s hI

theorem Simulates.skip {K I : σ → Prop} {abs : σ → τ} {k : Nat} (hK : ∀ s, I s → K s) :
    Simulates K I I abs (Enc.skip k) (Enc.skip k) := Simulates.bin hK hK fun _ _ _ h => ⟨h, rfl⟩

theorem Simulates.assign {K I J : σ → Prop} {abs : σ → τ} {f : σ → σ} {g : τ → τ} (hJ : ∀ s, J s → K s)
    (h : ∀ s, I s → J (f s) ∧ abs (f s) = g (abs s)) : Simulates K I J abs (Enc.assign f) (Enc.assign g) :=
  fun _ s _ hr hI => ⟨hJ _ (h s hI).1, fun _ => (h s hI).1, hr, by simp [Enc.assign, (h s hI).2]⟩

/-! ### Bytes in place -/

theorem Slc.view_length {α : Type} {m : Mem α} {a n : Nat} (h : Slc.Valid m (.at a n)) :
    ((Slc.at a n).view m).length = n := by
  have := h.2; simp [Slc.view]; omega

theorem Slc.fill_view {m : Mem UInt8} {s : Slc} (h : s.Valid m) {b : Bytes}
    (hb : b.length = (s.view m).length) : s.view (s.fill m b) = b := by
  cases s with
  | nil => simp [Slc.view] at hb ⊢; exact hb
  | «at» a n =>
    rw [Slc.view_length h] at hb
    simp only [Slc.fill, Slc.view]
    rw [Mem.arr_set_eq h.1]
    subst hb; simp

theorem Slc.fill_valid {m : Mem UInt8} {s : Slc} (h : s.Valid m) {b : Bytes}
    (hb : b.length = (s.view m).length) : s.Valid (s.fill m b) := by
  cases s with
  | nil => trivial
  | «at» a n =>
    rw [Slc.view_length h] at hb
    refine ⟨by simp only [Slc.fill, List.length_set]; exact h.1, ?_⟩
    simp only [Slc.fill]
    rw [Mem.arr_set_eq h.1]
    simp; omega

theorem Slc.fill_other {m : Mem UInt8} {s : Slc} {b : Bytes} {a : Nat} (h : ¬ s.Within a) :
    (s.fill m b).arr a = m.arr a := by
  cases s with
  | nil => rfl
  | «at» c n => exact Mem.arr_set_ne h

theorem Slc.fill_length {m : Mem UInt8} {s : Slc} {b : Bytes} : (s.fill m b).length = m.length := by
  cases s <;> simp [Slc.fill]

theorem Mem.make_valid {α : Type} (m : Mem α) (xs : List α) : (m.make xs).2.Valid (m.make xs).1 :=
  ⟨by simp [Mem.make], by simp [Mem.make, Mem.arr]⟩

theorem Mem.make_view {α : Type} (m : Mem α) (xs : List α) : (m.make xs).2.view (m.make xs).1 = xs := by
  simp [Mem.make, Mem.arr, Slc.view]

theorem Slc.view_make {α : Type} {m : Mem α} {s : Slc} (h : s.Valid m) (xs : List α) :
    s.view (m.make xs).1 = s.view m := by
  cases s with
  | nil => rfl
  | «at» a n => simp only [Slc.view, Mem.make]; rw [Mem.arr_append h.1]

/-- Everything in the memory `m` is still there in `m'`. -/
def Mem.Since {α : Type} (m m' : Mem α) : Prop :=
  m.length ≤ m'.length ∧ ∀ a, a < m.length → m'.arr a = m.arr a

theorem Mem.Since.refl {α : Type} (m : Mem α) : m.Since m := ⟨Nat.le_refl _, fun _ _ => rfl⟩

theorem Mem.Since.make {α : Type} {m m' : Mem α} (h : m.Since m') (xs : List α) : m.Since (m'.make xs).1 :=
  ⟨by simp only [Mem.make, List.length_append]; have := h.1; omega, fun a ha => by
    simp only [Mem.make]; rw [Mem.arr_append (Nat.lt_of_lt_of_le ha h.1)]; exact h.2 a ha⟩

theorem Mem.Since.fill {m m' : Mem UInt8} (h : m.Since m') {b n : Nat} (hb : m.length ≤ b) (xs : Bytes) :
    m.Since ((Slc.at b n).fill m' xs) :=
  ⟨by rw [Slc.fill_length]; exact h.1, fun a ha => by
    rw [Slc.fill_other (by simp only [Slc.Within]; omega)]; exact h.2 a ha⟩

theorem Mem.Since.view {α : Type} {m m' : Mem α} (h : m.Since m') {k : Slc} (hk : k.Valid m) :
    k.view m' = k.view m := by
  cases k with
  | nil => rfl
  | «at» a n => simp only [Slc.view]; rw [h.2 a hk.1]

end Verif
