import Verif.Go.Bytes

/-!
# Two programs that use the library and talk to each other (server.go:112-142, 284-343, net.go:150-186)

Each sends messages of its own and answers the messages of the other.  The connection between
them has room for a limited number of bytes in each direction.  `Served.lean` has one side of a
connection, with a transport that takes everything sooner or later; here the two sides wait for
each other.
-/

namespace Verif

variable {α : Type}

/-- One of the two programs, and its outgoing direction of the connection.  `own`: what a
goroutine of the program is going to send with `Send` and `Flush`; `tasks`: for each handler
that was given to the runner and has not returned, what it is still going to send; `wr`: who
holds the mutex of the connection (net.go:151-174): the message that is being written, how many
bytes follow the next one, and, if it is a handler that writes, what it is going to send
afterwards; `out`: the bytes on their way to the other, a message being identified by its last
byte; `slot`: the message that the receiver goroutine holds (server.go:115); `got`: the messages
that were passed to the handlers, in order (history). -/
structure Side (α : Type) where
  own : List α
  tasks : List (List α)
  wr : Option (α × Nat × Option (List α))
  out : List (Option α)
  slot : Option α
  got : List α

/-- The two programs at the beginning: `own x` is what program `x` sends unasked; the connection
has just been made, net.go:122-128, server.go:284-290. -/
def Side.init (own : Bool → List α) : Bool → Side α := fun x => ⟨own x, [], none, [], none, []⟩

/-- The state of one program changes (net.go:100-113 and server.go:102-108 are the states in the
code). -/
def Side.set (s : Bool → Side α) (x : Bool) (p : Side α) : Bool → Side α := fun y => if y = x then p else s y

/-- A handler that has nothing left to send returns, server.go:333-343. -/
def Side.put (tasks : List (List α)) (t : List α) : List (List α) := if t = [] then tasks else tasks ++ [t]

/-- The handlers that were given to the runner and have not returned, server.go:302. -/
def Side.inFlight (p : Side α) : Nat :=
  p.tasks.length + match p.wr with | some (_, _, some _) => 1 | _ => 0

/-- One step of program `x`.  `cap x` is the room in bytes between `x` and the other: the buffers
of the operating systems and the `bufio.Reader` of the other.  `lim x`: how many handlers the
runner of `x` takes before `Run` blocks: one for `SequentialRunner` (runner.go:32-34), twice the
number of workers for `MultiRoutineRunner` (executing and in the queue, runner.go:46-76), `none`
for `OnDemandRoutineRunner` (runner.go:21-23).  `ans x m`: what the handler of `x` sends when it
is given `m`; `size m`: the bytes of `m`.
Simplifications: nothing fails and nobody closes the connection; a handler's messages are written
one by one, each with the `Flush` that puts it on its way; with a `MultiRoutineRunner` the
handlers in the queue may send already (there are more executions here than in the code). -/
inductive Side.Step (cap : Bool → Nat) (lim : Bool → Option Nat) (ans : Bool → α → List α) (size : α → Nat) :
    (Bool → Side α) → (Bool → Side α) → Prop where
  /-- `Send` of the program's own goroutine gets the mutex, net.go:151-186 -/
  | send (s x m t) (ho : (s x).own = m :: t) (hw : (s x).wr = none) :
    Step cap lim ans size s (Side.set s x { s x with own := t, wr := some (m, size m - 1, none) })
  /-- a handler gets the mutex, server.go:333, net.go:164-174 -/
  | answer (s x a r t b) (ht : (s x).tasks = a ++ (r :: t) :: b) (hw : (s x).wr = none) :
    Step cap lim ans size s (Side.set s x { s x with tasks := a ++ b, wr := some (r, size r - 1, some t) })
  /-- the holder of the mutex writes a byte that is not the last one of the message, net.go:151-174 -/
  | write (s x m k h) (hw : (s x).wr = some (m, k + 1, h)) (hc : (s x).out.length < cap x) :
    Step cap lim ans size s (Side.set s x { s x with out := (s x).out ++ [none], wr := some (m, k, h) })
  /-- the last byte, and `Unlock`, net.go:151-174 -/
  | wrote (s x m h) (hw : (s x).wr = some (m, 0, h)) (hc : (s x).out.length < cap x) :
    Step cap lim ans size s (Side.set s x { s x with
      out := (s x).out ++ [some m], wr := none, tasks := Side.put (s x).tasks (h.getD []) })
  /-- the receiver goroutine reads a byte, server.go:114; after the last one of a message it
  offers the message, server.go:115 -/
  | read (s x b t) (hs : (s x).slot = none) (ho : (s (!x)).out = b :: t) :
    Step cap lim ans size s (Side.set (Side.set s (!x) { s (!x) with out := t }) x { s x with slot := b })
  /-- the serve loop takes the message and gives it to the runner, if `Run` of the messages before
  it has returned, server.go:296-302 -/
  | deliver (s x m) (hs : (s x).slot = some m) (hg : ∀ n, lim x = some n → (s x).inFlight < n) :
    Step cap lim ans size s (Side.set s x { s x with
      slot := none, tasks := Side.put (s x).tasks (ans x m), got := (s x).got ++ [m] })

/-- Executions of the two programs, server.go:112-142, 284-343. -/
inductive Side.Steps (cap : Bool → Nat) (lim : Bool → Option Nat) (ans : Bool → α → List α) (size : α → Nat)
    (s₀ : Bool → Side α) : (Bool → Side α) → Prop where
  | refl : Steps cap lim ans size s₀ s₀
  | tail {s s'} (h : Steps cap lim ans size s₀ s) (st : Step cap lim ans size s s') : Steps cap lim ans size s₀ s'

end Verif
