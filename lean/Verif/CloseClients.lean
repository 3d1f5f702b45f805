import Verif.Ofptest
import Verif.Shared

/-!
# ofptest: calls of CloseClientConnections

`Verif.Ofptest` takes the part of `Close` that goes over the map of connections for one step.
Here every access is a step of its own, and `CloseClientConnections`, which is exported, may be
called without the lock, by any number of goroutines.
-/

namespace Verif

/-- Where a call is. -/
inductive CloserPc where
  | idle
  /-- `Close` has the lock, ofptest/server.go:142. -/
  | locked
  /-- The size of the map has been read and the channel made, ofptest/server.go:120-121. -/
  | counted
  /-- In the loop over the map, ofptest/server.go:123-125. -/
  | ranging
  /-- In the loop over the notifications, ofptest/server.go:130-136. -/
  | waiting
  /-- `CloseClientConnections` is done, the lock of `Close` not yet released. -/
  | ending
  | done
  deriving DecidableEq, Repr

/-- `Server`, ofptest/server.go:14-27, with any number of calls of `Close` and
`CloseClientConnections`, which are numbered.  Connections are numbered in the order in which they
are accepted. -/
structure Closers where
  listening : Bool
  /-- `s.closed`. -/
  closed : Bool
  /-- Accepted; the callback with `StateNew` has not got the lock yet. -/
  pending : List Nat
  /-- `s.conns`. -/
  conns : List Nat
  /-- Connections on which `Close` has been called. -/
  shut : List Nat
  /-- Connections accepted so far. -/
  count : Nat
  /-- The call of `Close` that has `s.mu`. -/
  mu : Option Nat
  /-- The Go runtime has stopped the program: map iterated and written at the same time. -/
  crashed : Bool
  pc : Nat → CloserPc
  /-- `nconns` of the call, also the capacity of its channel, ofptest/server.go:120-121. -/
  size : Nat → Nat
  /-- What the loop over the map has produced so far. -/
  seen : Nat → List Nat
  /-- The goroutines of the call (ofptest/server.go:113-116) before `conn.Close()`. -/
  toClose : Nat → List Nat
  /-- The goroutines of the call that have closed their connection and send. -/
  toSend : Nat → List Nat
  /-- Values in the channel. -/
  buf : Nat → Nat
  /-- Values received, `i` in ofptest/server.go:130. -/
  got : Nat → Nat
  /-- Ghost: the timer of the call fired, ofptest/server.go:127, 133-134. -/
  timeout : Nat → Bool
  /-- The entries of the map when the loop over it began. -/
  start : Nat → List Nat
  /-- Ghost: `s.conns` when the size was read. -/
  base : Nat → List Nat

/-- After `Start`, ofptest/server.go:103-109. -/
def Closers.init : Closers :=
  ⟨true, false, [], [], [], 0, none, false, fun _ => .idle, fun _ => 0, fun _ => [], fun _ => [], fun _ => [],
    fun _ => 0, fun _ => 0, fun _ => false, fun _ => [], fun _ => []⟩

/-- Steps.  `cl k`: call `k` is a call of `Close`; otherwise it is one of `CloseClientConnections`
by a user.  A goroutine that makes several calls makes them under different numbers.
Simplification: a loop over a map to which something is added meanwhile is taken to produce every
entry that it started with once, and any of the others at most once (the Go specification); or, at
any moment when a goroutine that has the lock could write, to stop the program, as the Go runtime
does if it notices. -/
inductive Closers.Step (cl : Nat → Bool) : Closers → Closers → Prop
  /-- `Accept` in the serve loop returns a connection. -/
  | accept (s : Closers) : s.crashed = false → s.listening = true →
      Step cl s { s with pending := s.pending ++ [s.count], count := s.count + 1 }
  /-- The callback for a new connection, ofptest/server.go:83-94. -/
  | track (s : Closers) (c : Nat) : s.crashed = false → s.mu = none → c ∈ s.pending →
      Step cl s { s with pending := s.pending.erase c, conns := s.conns ++ [c] }
  /-- The callback writes the map (ofptest/server.go:91) while a call goes over it. -/
  | crash (s : Closers) (c k : Nat) : s.crashed = false → s.mu = none → c ∈ s.pending → s.pc k = .ranging →
      Step cl s { s with crashed := true }
  /-- `Close` takes the lock, ofptest/server.go:142. -/
  | lock (s : Closers) (k : Nat) : s.crashed = false → s.mu = none → cl k = true → s.pc k = .idle →
      Step cl s { s with mu := some k, pc := setAt s.pc k .locked }
  /-- `Close` on a closed server, ofptest/server.go:145-147. -/
  | again (s : Closers) (k : Nat) : s.crashed = false → s.pc k = .locked → s.closed = true →
      Step cl s { s with mu := none, pc := setAt s.pc k .done }
  /-- ofptest/server.go:149-151 and 120-121. -/
  | first (s : Closers) (k : Nat) : s.crashed = false → s.pc k = .locked → s.closed = false →
      Step cl s { s with
        closed := true, listening := false, pc := setAt s.pc k .counted,
        size := setAt s.size k s.conns.length, base := setAt s.base k s.conns }
  /-- ofptest/server.go:120-121, called by a user, without the lock. -/
  | size (s : Closers) (k : Nat) : s.crashed = false → cl k = false → s.pc k = .idle →
      Step cl s { s with
        pc := setAt s.pc k .counted, size := setAt s.size k s.conns.length, base := setAt s.base k s.conns }
  /-- The loop over the map begins, ofptest/server.go:123. -/
  | range (s : Closers) (k : Nat) : s.crashed = false → s.pc k = .counted →
      Step cl s { s with pc := setAt s.pc k .ranging, start := setAt s.start k s.conns }
  /-- One iteration, ofptest/server.go:124. -/
  | visit (s : Closers) (k c : Nat) : s.crashed = false → s.pc k = .ranging → c ∈ s.conns → c ∉ s.seen k →
      Step cl s { s with
        seen := setAt s.seen k (c :: s.seen k), toClose := setAt s.toClose k (c :: s.toClose k) }
  /-- The loop over the map ends, ofptest/server.go:125-127. -/
  | ranged (s : Closers) (k : Nat) : s.crashed = false → s.pc k = .ranging → (∀ c ∈ s.start k, c ∈ s.seen k) →
      Step cl s { s with pc := setAt s.pc k .waiting }
  /-- A goroutine closes its connection, ofptest/server.go:114. -/
  | shut (s : Closers) (k c : Nat) : s.crashed = false → c ∈ s.toClose k →
      Step cl s { s with
        shut := c :: s.shut, toClose := setAt s.toClose k ((s.toClose k).erase c),
        toSend := setAt s.toSend k (c :: s.toSend k) }
  /-- And sends, ofptest/server.go:115: the channel has room.  (A channel of capacity 0 belongs to
  a call that does not receive.) -/
  | notify (s : Closers) (k c : Nat) : s.crashed = false → c ∈ s.toSend k → s.buf k < s.size k →
      Step cl s { s with
        toSend := setAt s.toSend k ((s.toSend k).erase c), buf := setAt s.buf k (s.buf k + 1) }
  /-- ofptest/server.go:132. -/
  | take (s : Closers) (k : Nat) : s.crashed = false → s.pc k = .waiting → s.got k < s.size k → 0 < s.buf k →
      Step cl s { s with buf := setAt s.buf k (s.buf k - 1), got := setAt s.got k (s.got k + 1) }
  /-- All notifications have been received, ofptest/server.go:130. -/
  | finish (s : Closers) (k : Nat) : s.crashed = false → s.pc k = .waiting → s.got k = s.size k →
      Step cl s { s with pc := setAt s.pc k .ending }
  /-- The timer fires, ofptest/server.go:133-134. -/
  | expire (s : Closers) (k : Nat) : s.crashed = false → s.pc k = .waiting → s.got k < s.size k →
      Step cl s { s with pc := setAt s.pc k .ending, timeout := setAt s.timeout k true }
  /-- The call returns; `Close` releases the lock, ofptest/server.go:143. -/
  | ret (s : Closers) (k : Nat) : s.crashed = false → s.pc k = .ending →
      Step cl s { s with pc := setAt s.pc k .done, mu := if cl k then none else s.mu }
  /-- A connection is closed by the serve loop. -/
  | gone (s : Closers) (c : Nat) : s.crashed = false → c < s.count → Step cl s { s with shut := c :: s.shut }

/-- Executions. -/
inductive Closers.Steps (cl : Nat → Bool) : Closers → Closers → Prop
  | refl (s : Closers) : Steps cl s s
  | step {s t u : Closers} : Steps cl s t → Closers.Step cl t u → Steps cl s u

end Verif
