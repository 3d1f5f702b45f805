import Verif.Cookie

/-!
# A request and the message behind it

`NewRequest` keeps a reference to the message of the user (an `io.WriterTo`), not its bytes.
The model follows one request and that message while the user changes the message and the
header, sends the request, reads its body, or shows it to a cookie matcher.
-/

namespace Verif

/-- The request and the message as it is now.  `enc` of the functions below is the `WriteTo`
of the message's type; the message is the only thing it depends on (every `WriteTo` of package
ofp is of this kind). -/
structure Shown (μ : Type) where
  msg : μ
  req : Request

/-- What the user does with them.  `change`: assigning to fields of the message; `header`:
assigning to `Request.Header`; `send`: `Request.WriteTo` (request.go:132-174) to a writer
that accepts everything; `read k`: `Request.Body.Read` with room for `k` bytes
(request.go:61-68); `look`: `CookieMatcher.Match` (cookie.go:72-98). -/
inductive ShownOp (μ α : Type) where
  | change (m : μ)
  | header (h : Header)
  | send
  | read (k : Nat)
  | look (m : CookieMatcher α)

/-- What the user sees: the error and the writes of a send, the bytes and the error of a read,
the answer of a matcher (`none`: panic). -/
inductive ShownOut where
  | done
  | sent (err : Option Err) (writes : List Bytes)
  | got (b : Bytes) (err : Option Err)
  | matched (r : Option Bool)

/-- `NewRequest(t, m)`, request.go:105-116: the body refers to `m`. -/
def Shown.init {μ : Type} (enc : μ → Wr) (t : UInt8) (m : μ) : Shown μ :=
  ⟨m, newRequest t (some fun _ => enc m)⟩

/-- The request with the reference followed: the embedded `io.WriterTo` (request.go:31-33) is
the message as it is now.  Other bodies do not refer to the message. -/
def Shown.now {μ : Type} (enc : μ → Wr) (h : Shown μ) : Request :=
  match h.req.body with
  | .copy c => { h.req with body := .copy { c with wt := some fun _ => enc h.msg } }
  | _ => h.req

/-- `Request.Body.Read`: a nil interface, the `copyReader` (request.go:61-68), a
`bytes.Buffer`, another reader. -/
def Body.read (k : Nat) : Body → Bytes × Option Err × Body
  | .nil => ([], some .panic, .nil)
  | .copy c => match c.read k with | (o, e, c') => (o, e, .copy c')
  | .buffer b => match bufRead k b with | (o, e, b') => (o, e, .buffer b')
  | .reader r => match r.read k with | (o, e, r') => (o, e, .reader r')

/-- One thing the user does, request.go:61-68,132-174 and cookie.go:72-98. -/
def Shown.step {μ α : Type} (enc : μ → Wr) (h : Shown μ) : ShownOp μ α → ShownOut × Shown μ
  | .change m => (.done, { h with msg := m })
  | .header hd => (.done, { h with req := { h.req with header := hd } })
  | .send =>
    let o := (h.now enc).writeTo recorder []
    (.sent o.err o.dst, { h with req := o.req })
  | .read k =>
    match (h.now enc).body.read k with
    | (o, e, b') => (.got o e, { h with req := { h.now enc with body := b' } })
  | .look m =>
    match m.run (h.now enc) with
    | (r, q) => (.matched r, { h with req := q })

/-- Any number of them, in order: what the user sees and the state afterwards. -/
def Shown.run {μ α : Type} (enc : μ → Wr) :
    List (ShownOp μ α) → Shown μ → List ShownOut × Shown μ
  | [], h => ([], h)
  | op :: ops, h =>
    let r := h.step enc op
    let s := Shown.run enc ops r.2
    (r.1 :: s.1, s.2)

end Verif
