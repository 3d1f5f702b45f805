import Verif.Request

/-!
# mux.go and the matchers of header.go
-/

namespace Verif

/-! ## Matchers -/

/-- What `Match` does: user code that may also change the request it is given. -/
abbrev MatchFn := Request → Bool × Request

/-- A non-nil `Matcher` interface value, mux.go:10-12.  A `TypeMatcher` is compared by value
(mux.go:26), everything else the package builds is a pointer (`*MatcherFunc`, mux.go:16,
`*CookieMatcher`) and is compared by identity. -/
inductive Matcher where
  | typ (t : UInt8)
  | ptr (id : Nat)
  deriving DecidableEq, Repr

/-- `(t TypeMatcher) Match`, mux.go:29-31. -/
def typeMatch (t : UInt8) : MatchFn := fun r => (r.header.type == t, r)

/-- `Match` of an interface value; `env` is the code behind the pointers. -/
def Matcher.run (env : Nat → MatchFn) : Matcher → MatchFn
  | .typ t => typeMatch t
  | .ptr i => env i

/-- The function built by `MultiMatcher`, mux.go:35-47. -/
def multiMatch : List MatchFn → MatchFn
  | [], r => (true, r)
  | m :: ms, r =>
    match m r with
    | (false, r') => (false, r')
    | (true, r') => multiMatch ms r'

/-- `TransactionMatcher`, header.go:247-261: returns the header as it is left and the
function.  `rnd` is the next value of `rand.Uint32`. -/
def transactionMatcher (rnd : UInt32) (h : Header) : Header × MatchFn :=
  let h := if h.transaction = 0 then { h with transaction := rnd } else h
  let transaction := h.transaction
  (h, fun r => (r.header.transaction == transaction, r))

/-! ## ServeMux -/

/-- A `Handler` interface value that is not nil.  `nilFunc` is `HandlerFunc(nil)`: an
interface holding a nil function, which is not equal to nil. -/
inductive Handler where
  | user (id : Nat)
  | nilFunc
  | discard
  deriving DecidableEq, Repr

/-- `muxEntry`, mux.go:49-56.  `id` is the identity of the pointer, i.e. of the
registration. -/
structure MuxEntry where
  handler : Handler
  once : Bool
  id : Nat
  deriving DecidableEq, Repr

/-- `ServeMux.handlers`, mux.go:59-62: a map as a list; the order of the list has no
meaning, lookups use any permutation of it. -/
abbrev MuxMap := List (Matcher × MuxEntry)

/-- The keys. -/
def MuxMap.keys (hs : MuxMap) : List Matcher := hs.map (·.1)

/-- The panics of `handle`. -/
inductive MuxPanic where
  | nilMatcher
  | nilHandler
  | duplicate
  deriving DecidableEq, Repr

/-- `(mux *ServeMux) handle`, mux.go:75-93: the panic, if any, and the map afterwards.  The
mutex is released by a deferred call. -/
def MuxMap.handle (hs : MuxMap) (m : Option Matcher) (h : Option Handler) (once : Bool) (id : Nat) :
    Option MuxPanic × MuxMap :=
  match m with
  | none => (some .nilMatcher, hs)
  | some m =>
    match h with
    | none => (some .nilHandler, hs)
    | some h =>
      if m ∈ hs.keys then (some .duplicate, hs)
      else (none, (m, ⟨h, once, id⟩) :: hs)

/-- `(mux *ServeMux) HandleFunc`, mux.go:109-111: the function is converted to a
`HandlerFunc`. -/
def MuxMap.handleFunc (hs : MuxMap) (m : Option Matcher) (f : Option Nat) (id : Nat) :
    Option MuxPanic × MuxMap :=
  hs.handle m (some (match f with | none => .nilFunc | some i => .user i)) false id

/-- The search loop of `Handler`, mux.go:125-129, over the entries in the order in which the
map is iterated. -/
def MuxMap.search (env : Nat → MatchFn) : MuxMap → Request → Option (Matcher × MuxEntry) × Request
  | [], r => (none, r)
  | (m, e) :: t, r =>
    match m.run env r with
    | (true, r') => (some (m, e), r')
    | (false, r') => MuxMap.search env t r'

/-- `delete(mux.handlers, matcher)`. -/
def MuxMap.delete (hs : MuxMap) (m : Matcher) : MuxMap := hs.filter (fun p => p.1 ≠ m)

/-- The second critical section of `Handler`, mux.go:150-161: the handler of the entry, or
`none` for the `return DiscardHandler` of mux.go:155-157. -/
def MuxMap.take (hs : MuxMap) (m : Matcher) (e : MuxEntry) : Option Handler × MuxMap :=
  if m ∈ hs.keys then (some e.handler, hs.delete m) else (none, hs)

/-- `(mux *ServeMux) Handler`, mux.go:114-162, without interruption.  `order` is the order
in which the map is iterated, `dflt` is `DefaultHandler`. -/
def MuxMap.handler (env : Nat → MatchFn) (dflt : Handler) (hs order : MuxMap) (r : Request) :
    Handler × MuxMap × Request :=
  match order.search env r with
  | (none, r') => (dflt, hs, r')
  | (some (m, e), r') =>
    if e.once then
      match hs.take m e with
      | (h, hs') => (h.getD .discard, hs', r')
    else (e.handler, hs, r')

/-- `(mux *TypeMux) Handle` and `HandleOnce`, mux.go:184-191. -/
def MuxMap.handleType (hs : MuxMap) (t : UInt8) (h : Option Handler) (once : Bool) (id : Nat) :
    Option MuxPanic × MuxMap :=
  hs.handle (some (.typ t)) h once id

/-! ## Concurrent dispatch and registration -/

/-- What happened, in order (not part of the program). -/
inductive MuxEvent where
  | registered (m : Matcher) (e : MuxEntry)
  | selected (i : Nat) (e : MuxEntry)
  | default (i : Nat)
  | lost (i : Nat) (e : MuxEntry)  -- DiscardHandler because the entry is gone, mux.go:155-157
  deriving DecidableEq, Repr

/-- A multiplexer used by any number of goroutines: `pend i` is what goroutine `i` has found
in the first critical section when it still has to execute the second. -/
structure MuxSys where
  hs : MuxMap
  pend : Nat → Option (Matcher × MuxEntry)
  next : Nat
  log : List MuxEvent

/-- `NewServeMux`, mux.go:65-67. -/
def MuxSys.init : MuxSys := ⟨[], fun _ => none, 0, []⟩

/-- One critical section.  `sync.RWMutex`: no registration and no removal happens during the
search, so it is one step; the search of a request that another goroutine is searching for
too is a different request.  `reqs i` is the request that goroutine `i` dispatches. -/
inductive MuxSys.Step (env : Nat → MatchFn) (reqs : Nat → Request) : MuxSys → MuxSys → Prop where
  /-- `Handle` / `HandleOnce` (mux.go:75-107); the ones that panic change nothing -/
  | register (s m h once hs') (hok : s.hs.handle (some m) (some h) once s.next = (none, hs')) :
    MuxSys.Step env reqs s { s with hs := hs', next := s.next + 1,
                                    log := s.log ++ [.registered m ⟨h, once, s.next⟩] }
  /-- first section, nothing found (mux.go:120-136) -/
  | miss (s i order r') (hi : s.pend i = none) (hp : List.Perm order s.hs)
    (hf : MuxMap.search env order (reqs i) = (none, r')) :
    MuxSys.Step env reqs s { s with log := s.log ++ [.default i] }
  /-- first section, permanent entry found (mux.go:120-142) -/
  | found (s i order r' m e) (hi : s.pend i = none) (hp : List.Perm order s.hs)
    (hf : MuxMap.search env order (reqs i) = (some (m, e), r')) (ho : e.once = false) :
    MuxSys.Step env reqs s { s with log := s.log ++ [.selected i e] }
  /-- first section, disposable entry found -/
  | foundOnce (s i order r' m e) (hi : s.pend i = none) (hp : List.Perm order s.hs)
    (hf : MuxMap.search env order (reqs i) = (some (m, e), r')) (ho : e.once = true) :
    MuxSys.Step env reqs s { s with pend := fun j => if j = i then some (m, e) else s.pend j }
  /-- second section (mux.go:150-161) -/
  | take (s i m e) (hi : s.pend i = some (m, e)) :
    MuxSys.Step env reqs s { s with
      hs := (s.hs.take m e).2
      pend := fun j => if j = i then none else s.pend j
      log := s.log ++ [if (s.hs.take m e).1 = some e.handler then .selected i e else .lost i e] }

/-- Reachable states. -/
inductive MuxSys.Reach (env : Nat → MatchFn) (reqs : Nat → Request) : MuxSys → Prop where
  | init : MuxSys.Reach env reqs .init
  | tail {s s'} (h : MuxSys.Reach env reqs s) (st : MuxSys.Step env reqs s s') : MuxSys.Reach env reqs s'

/-! ## Lemmas -/

theorem MuxMap.search_some {env : Nat → MatchFn} {hs : MuxMap} {r r' : Request} {m : Matcher}
    {e : MuxEntry} (h : hs.search env r = (some (m, e), r')) :
    (m, e) ∈ hs ∧ ∃ r₀, m.run env r₀ = (true, r') := by
  induction hs generalizing r with
  | nil => simp [MuxMap.search] at h
  | cons a t ih =>
    obtain ⟨m', e'⟩ := a
    simp only [MuxMap.search] at h
    rcases hm : m'.run env r with ⟨b, r1⟩
    rw [hm] at h
    cases b with
    | true =>
      simp only [Prod.mk.injEq, Option.some.injEq] at h
      obtain ⟨⟨rfl, rfl⟩, rfl⟩ := h
      exact ⟨by simp, r, hm⟩
    | false =>
      obtain ⟨h1, h2⟩ := ih h
      exact ⟨by simp [h1], h2⟩

theorem MuxMap.mem_keys {hs : MuxMap} {m : Matcher} : m ∈ hs.keys ↔ ∃ e, (m, e) ∈ hs := by
  simp [MuxMap.keys]

theorem MuxMap.keys_delete (hs : MuxMap) (m m' : Matcher) :
    m' ∈ (hs.delete m).keys ↔ m' ∈ hs.keys ∧ m' ≠ m := by
  simp only [MuxMap.mem_keys, MuxMap.delete, List.mem_filter, decide_eq_true_eq]
  constructor
  · rintro ⟨e, h1, h2⟩; exact ⟨⟨e, h1⟩, h2⟩
  · rintro ⟨⟨e, h1⟩, h2⟩; exact ⟨e, h1, h2⟩

@[simp] theorem MuxMap.take_iff (hs : MuxMap) (m : Matcher) (e : MuxEntry) :
    (hs.take m e).1 = some e.handler ↔ m ∈ hs.keys := by
  unfold MuxMap.take; split <;> simp_all

theorem MuxMap.nodup_delete {hs : MuxMap} (h : hs.keys.Nodup) (m : Matcher) : (hs.delete m).keys.Nodup := by
  unfold MuxMap.keys MuxMap.delete at *
  exact h.sublist (List.filter_sublist.map _)

/-- A key has one entry. -/
theorem MuxMap.unique {hs : MuxMap} (h : hs.keys.Nodup) {m : Matcher} {e e' : MuxEntry}
    (h1 : (m, e) ∈ hs) (h2 : (m, e') ∈ hs) : e = e' := by
  induction hs with
  | nil => simp at h1
  | cons a t ih =>
    simp only [MuxMap.keys, List.map_cons, List.nodup_cons] at h
    simp only [List.mem_cons] at h1 h2
    rcases h1 with h1 | h1 <;> rcases h2 with h2 | h2
    · rw [← h2] at h1; simpa using h1
    · exfalso; apply h.1; rw [← h1]; exact List.mem_map_of_mem (f := (·.1)) h2
    · exfalso; apply h.1; rw [← h2]; exact List.mem_map_of_mem (f := (·.1)) h1
    · exact ih h.2 h1 h2

theorem MuxMap.handle_ok {hs hs' : MuxMap} {m : Matcher} {h : Handler} {once : Bool} {id : Nat}
    (hok : hs.handle (some m) (some h) once id = (none, hs')) :
    m ∉ hs.keys ∧ hs' = (m, ⟨h, once, id⟩) :: hs := by
  simp only [MuxMap.handle] at hok
  split at hok
  · simp at hok
  · rename_i hn
    simp only [Prod.mk.injEq, true_and] at hok
    exact ⟨hn, hok.symm⟩

end Verif
