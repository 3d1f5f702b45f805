import Verif.Pads
import Verif.Cookie

/-!
# The padding variables that calls of `(f *CookieMatcher) Match` store to

"Filter is safe for concurrent use by multiple goroutines" (cookie.go:37), "the resulting reader is
safe to use in multiple go-routines" (cookie.go:102).  `Match` has a new jar in every call, so calls have
no value in common; but the decoder of the jar may store to the padding variables (`Verif/Pads.lean`).
-/

namespace Verif

/-- The bytes that `(f *CookieMatcher) Match` gives to its reader, cookie.go:73-91: the contents of a
`bytes.Buffer`, or what `ioutil.ReadAll` returned.  `none`: there is no call of the reader (the body
is nil, or reading it failed). -/
def Request.cookieBytes (r : Request) : Option Bytes :=
  match r.body with
  | .nil => none
  | .buffer b => some b
  | body => match body.readAll with
    | (_, some _) => none
    | (b, none) => some b

/-- The decoding of a call of `Match`, cookie.go:91 and 107-119: a jar of the type of the matcher,
made by `reflect.New`, and a buffer of its own. -/
def CookieMatcher.decoding {α : Type} (m : CookieMatcher α) (dec : Logged α) (b : Bytes) : Decoding :=
  ⟨α, dec, m.jar.zero, bufferRd b⟩

/-- What the goroutines that call `Match` of one matcher store to: a goroutine whose call does not get to
its reader stores to nothing. -/
def CookieMatcher.decodings {α ι : Type} (m : CookieMatcher α) (dec : Logged α) (q : ι → Request) :
    ι → Decoding := fun i =>
  match (q i).cookieBytes with
  | none => ⟨α, .own m.jar.readFrom, m.jar.zero, bufferRd []⟩
  | some b => m.decoding dec b

/-- No execution of any number of goroutines that call `Match` of one matcher, each with a request of its
own, has a race. -/
def MatchRaceFree {α : Type} (m : CookieMatcher α) (dec : Logged α) : Prop :=
  ∀ (ι : Type) [DecidableEq ι] (q : ι → Request) (tr : List (ι × Nat)),
    Executes (m.decodings dec q) tr → ¬ Race tr

end Verif
