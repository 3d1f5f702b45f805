import Verif.Mux

/-!
# Requests and replies matched by transaction (header.go:242-261, mux.go)

The use of `TransactionMatcher` that responsewrite_test.go shows: a goroutine makes a matcher from
the header of its request, registers a handler with `HandleOnce` and writes the request; the
multiplexer that serves the connection gives the reply to that handler.
-/

namespace Verif

/-- The multiplexer and what has happened: `reg k`: goroutine `k` has returned from `HandleOnce`
(mux.go:104-106); `sent k`: it has written its request (server.go:58-90); `started i`: the
message `i` has been received and is given to `mux.Serve` (mux.go:166-169). -/
structure TxnSys where
  mux : MuxSys
  reg : Nat → Bool
  sent : Nat → Bool
  started : Nat → Bool

/-- Before any request; the handlers in `hs` have been registered before, mux.go:65-106. -/
def TxnSys.init (hs : MuxMap) : TxnSys :=
  ⟨⟨hs, fun _ => none, hs.length, []⟩, fun _ => false, fun _ => false, fun _ => false⟩

/-- `f` with the flag `k` set, as after the calls at header.go:247, mux.go:104 and mux.go:166. -/
def flag (f : Nat → Bool) (k : Nat) : Nat → Bool := fun j => if j = k then true else f j

/-- Steps.  Goroutine `k` registers `hd k` for the matcher `.ptr k` (a new `*MatcherFunc`,
header.go:259) and writes its request; with `early` it registers first.  Message `i` has the
content `reqs i` and is a reply to the request of `kind i`, if any; it arrives after the request
has been written.  Dispatching consists of the critical sections of `MuxSys.Step`.  Simplification:
a message is dispatched once; `Serve` of several messages may run at the same time, as with
`OnDemandRoutineRunner`. -/
inductive TxnSys.Step (early : Bool) (env : Nat → MatchFn) (reqs : Nat → Request) (kind : Nat → Option Nat)
    (hd : Nat → Handler) : TxnSys → TxnSys → Prop where
  /-- `HandleOnce`, mux.go:104-106 -/
  | register (s k hs') (hr : s.reg k = false)
    (hok : s.mux.hs.handle (some (.ptr k)) (some (hd k)) true s.mux.next = (none, hs')) :
    Step early env reqs kind hd s
      { s with reg := flag s.reg k,
               mux := { s.mux with hs := hs', next := s.mux.next + 1,
                                   log := s.mux.log ++ [.registered (.ptr k) ⟨hd k, true, s.mux.next⟩] } }
  /-- `rw.Write`, server.go:58-90 -/
  | write (s k) (hs : s.sent k = false) (hr : early = true → s.reg k = true) :
    Step early env reqs kind hd s { s with sent := flag s.sent k }
  /-- the search finds nothing, mux.go:120-136 -/
  | miss (s i order r') (hn : s.started i = false) (hk : ∀ k, kind i = some k → s.sent k = true)
    (hp : List.Perm order s.mux.hs) (hf : MuxMap.search env order (reqs i) = (none, r')) :
    Step early env reqs kind hd s
      { s with started := flag s.started i, mux := { s.mux with log := s.mux.log ++ [.default i] } }
  /-- the search finds a permanent entry, mux.go:120-142 -/
  | found (s i order r' m e) (hn : s.started i = false) (hk : ∀ k, kind i = some k → s.sent k = true)
    (hp : List.Perm order s.mux.hs) (hf : MuxMap.search env order (reqs i) = (some (m, e), r')) (ho : e.once = false) :
    Step early env reqs kind hd s
      { s with started := flag s.started i, mux := { s.mux with log := s.mux.log ++ [.selected i e] } }
  /-- the search finds a disposable entry, mux.go:120-148 -/
  | foundOnce (s i order r' m e) (hn : s.started i = false) (hk : ∀ k, kind i = some k → s.sent k = true)
    (hp : List.Perm order s.mux.hs) (hf : MuxMap.search env order (reqs i) = (some (m, e), r')) (ho : e.once = true) :
    Step early env reqs kind hd s
      { s with started := flag s.started i,
               mux := { s.mux with pend := fun j => if j = i then some (m, e) else s.mux.pend j } }
  /-- the second critical section, mux.go:150-161 -/
  | take (s i m e) (hi : s.mux.pend i = some (m, e)) :
    Step early env reqs kind hd s
      { s with mux := { s.mux with
          hs := (s.mux.hs.take m e).2
          pend := fun j => if j = i then none else s.mux.pend j
          log := s.mux.log ++ [if (s.mux.hs.take m e).1 = some e.handler then .selected i e else .lost i e] } }

/-- Executions of the goroutines above, mux.go:75-169. -/
inductive TxnSys.Steps (early : Bool) (env : Nat → MatchFn) (reqs : Nat → Request) (kind : Nat → Option Nat)
    (hd : Nat → Handler) (s₀ : TxnSys) : TxnSys → Prop where
  | refl : Steps early env reqs kind hd s₀ s₀
  | tail {s s'} (hs : Steps early env reqs kind hd s₀ s) (st : Step early env reqs kind hd s s') :
    Steps early env reqs kind hd s₀ s'

end Verif
