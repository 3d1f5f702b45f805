import Verif.Encoding

/-!
# internal/encodingtest: the table tests that every message of package ofp is tested with

`gob.Encode` (internal/encodingtest/runner.go) is not modelled: it is any function from values to
bytes, or an error.
-/

namespace Verif

/-- The calls of `t.Fatalf`; they stop the test. -/
inductive Fatal where
  | marshal (e : Err)     -- runner.go:23-26
  | marshalCount          -- runner.go:28-32
  | marshalBytes          -- runner.go:34-38
  | gob (e : Err)         -- runner.go:56-59, 79-82
  | unmarshal (e : Err)   -- runner.go:64-67
  | unmarshalCount        -- runner.go:69-73
  | unmarshalValue        -- runner.go:84-88
  deriving DecidableEq, Repr

/-- One entry of `RunM`, internal/encodingtest/runner.go:18-40; `w` is what `WriteTo` does. -/
def runM1 (w : Wr) (bs : Bytes) : Option Fatal :=
  match w.err with
  | some e => some (.marshal e)
  | none =>
    if w.n ≠ bs.length then some .marshalCount
    else if bs ≠ w.out then some .marshalBytes
    else none

/-- One entry of `RunU`, internal/encodingtest/runner.go:50-90: the object that is decoded into is the
one that is expected.  Returns it as it is afterwards. -/
def runU1 {σ : Type} (read : Step σ) (gob : σ → Except Err Bytes) (x : σ) (bs : Bytes) : Option Fatal × σ :=
  match gob x with
  | .error e => (some (.gob e), x)
  | .ok before =>
    let o := read x (.src bs [] .eof false)
    match o.err with
    | some e => (some (.unmarshal e), o.val)
    | none =>
      if o.n ≠ bs.length then (some .unmarshalCount, o.val)
      else match gob o.val with
        | .error e => (some (.gob e), o.val)
        | .ok after => if before ≠ after then (some .unmarshalValue, o.val) else (none, o.val)

/-- `RunMU`, internal/encodingtest/runner.go:105-110.  The entries are different objects. -/
def runMU {σ : Type} (write : σ → Wr) (read : Step σ) (gob : σ → Except Err Bytes) :
    List (σ × Bytes) → Option Fatal
  | [] => none
  | (x, bs) :: t =>
    match runM1 (write x) bs with
    | some f => some f
    | none =>
      match runU1 read gob x bs with
      | (some f, _) => some f
      | (none, _) => runMU write read gob t

end Verif
