import Verif.Request

/-!
# One request for all the messages of a stream

`Request.ReadFrom` may be called again on a request that was filled before.  The program of
this file reads a stream with one variable; `Conn.Receive` takes a new one each time.
-/

namespace Verif

/-- `var req Request; for i := 0; i < n; i++ { if _, err := req.ReadFrom(r); err != nil { break };
use(&req) }`, with request.go:178-216: the requests that `use` is shown, the error that ended
the loop, the variable afterwards, the stream.  `use` may do anything to the request: read from
its body, send it, assign to its fields. -/
def readReused (use : Nat → Request → Request) :
    Nat → Request → Rd → List Request × Option Err × Request × Rd
  | 0, q, r => ([], none, q, r)
  | n + 1, q, r =>
    match Request.readFrom q r with
    | ⟨q', _, some e, r'⟩ => ([], some e, q', r')
    | ⟨q', _, none, r'⟩ =>
      let s := readReused use n (use n q') r'
      (q' :: s.1, s.2)

/-- The same loop with `Conn.Receive`, net.go:136-148. -/
def receiveEach : Nat → Rd → List Request × Option Err × Rd
  | 0, r => ([], none, r)
  | n + 1, r =>
    match Conn.receive r with
    | (none, e, r') => ([], e, r')
    | (some q, _, r') =>
      let s := receiveEach n r'
      (q :: s.1, s.2)

end Verif
