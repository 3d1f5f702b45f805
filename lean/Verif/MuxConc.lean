import Verif.Mux
import Verif.MutexLive
import Mathlib.Tactic.Convert

/-!
# mux.go: the multiplexer and its `sync.RWMutex`, step by step

`Verif/Mux.lean` runs each critical section of `Handler` and `handle` as one step.  Here the
lock is part of the state, a search asks one matcher at a time, matchers may panic, and
handlers may use the multiplexer that called them.  `MuxGo.Inv.sim` shows that nothing is
lost by the larger steps.  Simplifications: a goroutine always dispatches the same request;
matchers do not use the multiplexer
(Verif/Props/MuxNested.lean).
-/

namespace Verif

/-- What a goroutine does with the multiplexer: `Serve` (mux.go:166-169) or `Handler` of its
request, or `Handle`/`HandleOnce` (mux.go:96-107) with values that may be nil. -/
inductive MuxOp where
  | dispatch
  | register (m : Option Matcher) (h : Option Handler) (once : Bool)
  deriving DecidableEq, Repr

/-- The two uses of the write lock: the second critical section of `Handler`
(mux.go:150-161), and `handle` (mux.go:76-92). -/
inductive MuxWr where
  | take (m : Matcher) (e : MuxEntry)
  | register (m : Option Matcher) (h : Option Handler) (once : Bool)
  deriving DecidableEq, Repr

/-- Where a goroutine is. -/
inductive MuxPc where
  | idle
  | search (seen : List Matcher) (r : Request)  -- in the loop, read lock held, mux.go:125-126
  | hit (m : Matcher) (e : MuxEntry)  -- a matcher matched, before `RUnlock`, mux.go:126-131
  | miss  -- the loop has ended, before `RUnlock`, mux.go:131
  | want (k : MuxWr)  -- before `Lock`, mux.go:76, 150
  | wait (k : MuxWr)  -- in `Lock`: no reader gets in any more, the last ones still have the lock
  | hold (k : MuxWr)  -- write lock held, before the map is used
  | rel (k : Option Handler)  -- before the deferred `Unlock`; what `Handler` returns, or `none` for `handle`
  | serving (h : Handler)  -- `Handler` has returned, the handler runs, mux.go:168

/-- After the write lock: `Serve` calls the handler (mux.go:168), `handle` returns. -/
def MuxPc.after : Option Handler → MuxPc
  | some h => .serving h
  | none => .idle

/-- A matcher that may panic (`none`). -/
abbrev MatchFn? := Request → Option (Bool × Request)

/-- `Match` of an interface value, see `Matcher.run`. -/
def Matcher.run? (env : Nat → MatchFn?) : Matcher → MatchFn?
  | .typ t => fun r => some (typeMatch t r)
  | .ptr i => env i

/-- The multiplexer with all goroutines.  `readers`: who has the read lock (a goroutine that
panicked in a matcher stays there: mux.go:120-131 does not defer `RUnlock`); `writer`: who has
called `Lock` and not yet `Unlock`; `next` and `log` as in `MuxSys`; `leaked` is history: the
goroutines that panicked with the read lock held. -/
structure MuxGo where
  hs : MuxMap
  readers : List Nat
  writer : Option Nat
  todo : Nat → List MuxOp
  pc : Nat → MuxPc
  next : Nat
  log : List MuxEvent
  leaked : List Nat

/-- `NewServeMux`, mux.go:65-67, and goroutines with the given programs. -/
def MuxGo.init (progs : Nat → List MuxOp) : MuxGo := ⟨[], [], none, progs, fun _ => .idle, 0, [], []⟩

/-- Goroutine `i` goes to `p`. -/
def MuxGo.goto (c : MuxGo) (i : Nat) (p : MuxPc) : MuxGo :=
  { c with pc := fun j => if j = i then p else c.pc j }

/-- Goroutine `i` has `l` to do. -/
def MuxGo.setTodo (c : MuxGo) (i : Nat) (l : List MuxOp) : MuxGo :=
  { c with todo := fun j => if j = i then l else c.todo j }

/-- The step inside the write lock: mux.go:153-161 and 79-92. -/
def MuxGo.act (c : MuxGo) (i : Nat) : MuxWr → MuxGo
  | .take m e =>
    { c.goto i (.rel (some ((c.hs.take m e).1.getD .discard))) with
      hs := (c.hs.take m e).2
      log := c.log ++ [if (c.hs.take m e).1 = some e.handler then .selected i e else .lost i e] }
  | .register m h once =>
    match c.hs.handle m h once c.next, m, h with
    | (none, hs'), some m, some h =>
      { c.goto i (.rel none) with
        hs := hs'
        next := c.next + 1
        log := c.log ++ [.registered m ⟨h, once, c.next⟩] }
    | _, _, _ => c.goto i (.rel none)

/-- One step of goroutine `i`.  `reqs i` is the request it dispatches.  `dflt` is
`DefaultHandler`.  `sync.RWMutex`: `RLock` waits while a writer has called `Lock`; `Lock`
keeps new readers and writers out at once and then waits for the readers.  `nested`: what a
handler may do with the multiplexer before it returns (or panics). -/
inductive MuxGo.StepOf (env : Nat → MatchFn?) (reqs : Nat → Request) (dflt : Handler)
    (nested : List MuxOp → Prop) (i : Nat) : MuxGo → MuxGo → Prop where
  /-- `mux.mu.RLock()`, mux.go:120 -/
  | rlock (c t) (hp : c.pc i = .idle) (ht : c.todo i = .dispatch :: t) (hw : c.writer = none) :
    StepOf env reqs dflt nested i c
      { (c.setTodo i t).goto i (.search [] (reqs i)) with readers := i :: c.readers }
  /-- the loop picks an entry it has not seen; its matcher does not match, mux.go:125-129 -/
  | next (c seen r m e r') (hp : c.pc i = .search seen r) (hm : (m, e) ∈ c.hs) (hs : m ∉ seen)
    (hr : m.run? env r = some (false, r')) :
    StepOf env reqs dflt nested i c (c.goto i (.search (seen ++ [m]) r'))
  /-- it matches, mux.go:126-127 -/
  | hit (c seen r m e r') (hp : c.pc i = .search seen r) (hm : (m, e) ∈ c.hs) (hs : m ∉ seen)
    (hr : m.run? env r = some (true, r')) :
    StepOf env reqs dflt nested i c
      { c.goto i (.hit m e) with log := if e.once then c.log else c.log ++ [.selected i e] }
  /-- it panics, and somebody recovers: the goroutine goes on with what it has to do -/
  | crash (c seen r m e) (hp : c.pc i = .search seen r) (hm : (m, e) ∈ c.hs) (hs : m ∉ seen)
    (hr : m.run? env r = none) :
    StepOf env reqs dflt nested i c { c.goto i .idle with leaked := i :: c.leaked }
  /-- no entry is left, mux.go:125 -/
  | miss (c seen r) (hp : c.pc i = .search seen r) (hs : ∀ m e, (m, e) ∈ c.hs → m ∈ seen) :
    StepOf env reqs dflt nested i c { c.goto i .miss with log := c.log ++ [.default i] }
  /-- `mux.mu.RUnlock()`, mux.go:131-142 -/
  | unlockHit (c m e) (hp : c.pc i = .hit m e) :
    StepOf env reqs dflt nested i c
      { c.goto i (if e.once then .want (.take m e) else .serving e.handler) with
        readers := c.readers.erase i }
  /-- `mux.mu.RUnlock()`, mux.go:131-136 -/
  | unlockMiss (c) (hp : c.pc i = .miss) :
    StepOf env reqs dflt nested i c { c.goto i (.serving dflt) with readers := c.readers.erase i }
  /-- `handle` is called, mux.go:75-76, 96-107 -/
  | call (c m h once t) (hp : c.pc i = .idle) (ht : c.todo i = .register m h once :: t) :
    StepOf env reqs dflt nested i c ((c.setTodo i t).goto i (.want (.register m h once)))
  /-- `mux.mu.Lock()` begins, mux.go:76, 150 -/
  | lock (c k) (hp : c.pc i = .want k) (hw : c.writer = none) :
    StepOf env reqs dflt nested i c { c.goto i (.wait k) with writer := some i }
  /-- `mux.mu.Lock()` returns -/
  | locked (c k) (hp : c.pc i = .wait k) (hr : c.readers = []) :
    StepOf env reqs dflt nested i c (c.goto i (.hold k))
  /-- the map is used, mux.go:79-92, 153-161 -/
  | act (c k) (hp : c.pc i = .hold k) : StepOf env reqs dflt nested i c (c.act i k)
  /-- the deferred `mux.mu.Unlock()`, mux.go:77, 151, also when `handle` panics -/
  | unlock (c o) (hp : c.pc i = .rel o) :
    StepOf env reqs dflt nested i c
      { c.goto i (.after o) with writer := none }
  /-- the handler returns, having decided to use the multiplexer -/
  | serve (c h l) (hp : c.pc i = .serving h) (hl : nested l) :
    StepOf env reqs dflt nested i c ((c.setTodo i (l ++ c.todo i)).goto i .idle)

/-- One step of some goroutine. -/
def MuxGo.Step (env : Nat → MatchFn?) (reqs : Nat → Request) (dflt : Handler)
    (nested : List MuxOp → Prop) (c c' : MuxGo) : Prop :=
  ∃ i, MuxGo.StepOf env reqs dflt nested i c c'

/-- Zero or more steps. -/
inductive MuxGo.Steps (env : Nat → MatchFn?) (reqs : Nat → Request) (dflt : Handler)
    (nested : List MuxOp → Prop) (c₀ : MuxGo) : MuxGo → Prop where
  | refl : MuxGo.Steps env reqs dflt nested c₀ c₀
  | tail {c c'} (h : MuxGo.Steps env reqs dflt nested c₀ c) (s : MuxGo.Step env reqs dflt nested c c') :
    MuxGo.Steps env reqs dflt nested c₀ c'

/-! ## The invariant -/

/-- In the first critical section. -/
def MuxPc.reading : MuxPc → Bool
  | .search .. | .hit .. | .miss => true
  | _ => false

/-- Between `Lock` and `Unlock`. -/
def MuxPc.writing : MuxPc → Bool
  | .wait _ | .hold _ | .rel _ => true
  | _ => false

/-- `Lock` has returned. -/
def MuxPc.holding : MuxPc → Bool
  | .hold _ | .rel _ => true
  | _ => false

/-- What a goroutine has found and not yet taken. -/
def MuxPc.pend : MuxPc → Option (Matcher × MuxEntry)
  | .hit m e => if e.once then some (m, e) else none
  | .want (.take m e) | .wait (.take m e) | .hold (.take m e) => some (m, e)
  | _ => none

/-- The matchers without their panics. -/
def total (env : Nat → MatchFn?) : Nat → MatchFn := fun i r => (env i r).getD (false, r)

theorem Matcher.run_total {env : Nat → MatchFn?} {m : Matcher} {r : Request} {x : Bool × Request}
    (h : m.run? env r = some x) : m.run (total env) r = x := by
  cases m with
  | typ t => simpa [Matcher.run?, Matcher.run] using h
  | ptr i => simp only [Matcher.run?] at h; simp [Matcher.run, total, h]

/-- What is true of every reachable state. -/
structure MuxGo.Inv (env : Nat → MatchFn?) (reqs : Nat → Request) (c : MuxGo) : Prop where
  /-- the read lock: its holders are the goroutines that search, and the ones that panicked -/
  count : ∀ i, c.readers.count i = c.leaked.count i + (c.pc i).reading.toNat
  /-- the write lock -/
  writer : ∀ i, (c.pc i).writing = true ↔ c.writer = some i
  /-- readers and writers exclude each other -/
  alone : ∀ i, (c.pc i).holding = true → c.readers = []
  keys : c.hs.keys.Nodup
  /-- a search has asked matchers of entries that are still there, and all said no -/
  seen : ∀ i l r, c.pc i = .search l r → ∃ pre : MuxMap, pre.keys = l ∧ (∀ p ∈ pre, p ∈ c.hs) ∧ l.Nodup ∧
    pre.search (total env) (reqs i) = (none, r)

theorem MuxMap.search_append (env : Nat → MatchFn) (a b : MuxMap) (r r' : Request)
    (h : a.search env r = (none, r')) : (a ++ b).search env r = b.search env r' := by
  induction a generalizing r with
  | nil => simp only [MuxMap.search, Prod.mk.injEq, true_and] at h; subst h; rfl
  | cons p t ih =>
    obtain ⟨m, e⟩ := p
    simp only [List.cons_append, MuxMap.search] at h ⊢
    rcases hm : m.run env r with ⟨b, r1⟩
    rw [hm] at h
    cases b with
    | true => simp at h
    | false => exact ih _ h

theorem MuxMap.take_nodup {hs : MuxMap} (h : hs.keys.Nodup) (m : Matcher) (e : MuxEntry) :
    (hs.take m e).2.keys.Nodup := by
  unfold MuxMap.take
  split
  · exact MuxMap.nodup_delete h m
  · exact h

theorem MuxMap.handle_nodup {hs : MuxMap} (h : hs.keys.Nodup) (m : Option Matcher) (hd : Option Handler)
    (once : Bool) (id : Nat) : (hs.handle m hd once id).2.keys.Nodup := by
  unfold MuxMap.handle
  split
  · exact h
  · split
    · exact h
    · split
      · exact h
      · rename_i hn
        simp only [MuxMap.keys, List.map_cons, List.nodup_cons]
        exact ⟨hn, h⟩

@[simp] theorem MuxGo.goto_pc (c : MuxGo) (i j : Nat) (p : MuxPc) :
    (c.goto i p).pc j = if j = i then p else c.pc j := rfl

theorem MuxPc.holding_writing {p : MuxPc} (h : p.holding = true) : p.writing = true := by
  cases p <;> simp_all [MuxPc.holding, MuxPc.writing]

theorem MuxGo.Inv.quiet {env : Nat → MatchFn?} {reqs : Nat → Request} {c : MuxGo} (h : c.Inv env reqs) {i : Nat}
    (hi : (c.pc i).holding = true) (j : Nat) : (c.pc j).reading = false := by
  have h1 := h.alone i hi
  have h2 := h.count j
  rw [h1] at h2
  simp only [List.count_nil] at h2
  cases hr : (c.pc j).reading with
  | false => rfl
  | true => rw [hr] at h2; simp at h2

/-- What `act` changes. -/
theorem MuxGo.act_spec (c : MuxGo) (i : Nat) (k : MuxWr) :
    (c.act i k).readers = c.readers ∧ (c.act i k).writer = c.writer ∧ (c.act i k).leaked = c.leaked ∧
    (c.act i k).todo = c.todo ∧ (∀ j, j ≠ i → (c.act i k).pc j = c.pc j) ∧ (∃ o, (c.act i k).pc i = .rel o) ∧
    (c.hs.keys.Nodup → (c.act i k).hs.keys.Nodup) := by
  cases k with
  | take m e =>
    refine ⟨rfl, rfl, rfl, rfl, fun j hj => ?_, ⟨_, by simp only [MuxGo.act, MuxGo.goto, if_true]; rfl⟩, fun h => ?_⟩
    · simp [MuxGo.act, MuxGo.goto, hj]
    · exact MuxMap.take_nodup h m e
  | register m h once =>
    have hn := fun hk => MuxMap.handle_nodup (hs := c.hs) hk m h once c.next
    simp only [MuxGo.act]
    split
    · rename_i hs' m h heq
      rw [heq] at hn
      refine ⟨rfl, rfl, rfl, rfl, fun j hj => ?_, ⟨none, ?_⟩, hn⟩ <;> simp [MuxGo.goto]
      exact fun h => absurd h hj
    · refine ⟨rfl, rfl, rfl, rfl, fun j hj => ?_, ⟨none, ?_⟩, fun h => h⟩ <;> simp [MuxGo.goto]
      exact fun h => absurd h hj

theorem MuxGo.Inv.step {env : Nat → MatchFn?} {reqs : Nat → Request} {dflt : Handler}
    {nested : List MuxOp → Prop} {c c' : MuxGo} (ih : c.Inv env reqs)
    (st : MuxGo.Step env reqs dflt nested c c') : c'.Inv env reqs := by
  obtain ⟨i, st⟩ := st
  -- a goroutine that is not reading and not writing goes to such a place
  have plain : ∀ (c' : MuxGo) p, c'.hs = c.hs → c'.readers = c.readers → c'.leaked = c.leaked →
      c'.writer = c.writer → (∀ j, c'.pc j = if j = i then p else c.pc j) →
      p.reading = (c.pc i).reading → p.writing = (c.pc i).writing → p.holding = (c.pc i).holding ∨ c.readers = [] →
      (∀ l r, p = .search l r → ∃ pre : MuxMap, pre.keys = l ∧ (∀ p ∈ pre, p ∈ c.hs) ∧ l.Nodup ∧
        pre.search (total env) (reqs i) = (none, r)) → c'.Inv env reqs := by
    intro c' p e1 e2 e3 e4 e5 h1 h2 h3 h4
    refine ⟨fun j => ?_, fun j => ?_, fun j hj => ?_, by rw [e1]; exact ih.keys, fun j l r hj => ?_⟩
    · rw [e2, e3, e5]
      by_cases hj : j = i
      · subst hj; simp only [if_true, h1]; exact ih.count j
      · simp only [hj, if_false]; exact ih.count j
    · rw [e4, e5]
      by_cases hj : j = i
      · subst hj; simp only [if_true, h2]; exact ih.writer j
      · simp only [hj, if_false]; exact ih.writer j
    · rw [e2]
      rw [e5] at hj
      by_cases hji : j = i
      · subst hji
        simp only [if_true] at hj
        rcases h3 with h3 | h3
        · exact ih.alone j (h3 ▸ hj)
        · exact h3
      · simp only [hji, if_false] at hj; exact ih.alone j hj
    · rw [e5] at hj
      rw [e1]
      by_cases hji : j = i
      · subst hji; simp only [if_true] at hj; exact h4 l r hj
      · simp only [hji, if_false] at hj; exact ih.seen j l r hj
  cases st with
  | rlock t hp ht hw =>
    refine ⟨fun j => ?_, fun j => ?_, fun j hj => ?_, ih.keys, fun j l r hj => ?_⟩
    · have := ih.count j
      simp only [MuxGo.goto, MuxGo.setTodo]
      by_cases hji : j = i
      · subst hji; rw [hp] at this; simp [MuxPc.reading] at this ⊢; omega
      · have hij : ¬ i = j := fun h => hji h.symm
        simp only [hji, if_false, List.count_cons, beq_iff_eq, hij]; omega
    · have := ih.writer j
      simp only [MuxGo.goto, MuxGo.setTodo]
      by_cases hji : j = i
      · subst hji; rw [hp] at this; simpa [MuxPc.writing] using this
      · simp only [hji, if_false]; exact this
    · exfalso
      simp only [MuxGo.goto, MuxGo.setTodo] at hj
      by_cases hji : j = i
      · simp [hji, MuxPc.holding] at hj
      · simp only [hji, if_false] at hj
        have := (ih.writer j).1 (MuxPc.holding_writing hj)
        rw [hw] at this; simp at this
    · simp only [MuxGo.goto, MuxGo.setTodo] at hj ⊢
      by_cases hji : j = i
      · simp only [hji, if_true, MuxPc.search.injEq] at hj
        obtain ⟨rfl, rfl⟩ := hj
        exact ⟨[], rfl, by simp, by simp, by simp [MuxMap.search, hji]⟩
      · simp only [hji, if_false] at hj; exact ih.seen j l r hj
  | next seen r m e r' hp hm hs hr =>
    refine plain _ _ rfl rfl rfl rfl (fun j => rfl) (by rw [hp]; rfl) (by rw [hp]; rfl) (by rw [hp]; exact .inl rfl) ?_
    intro l r'' heq
    simp only [MuxPc.search.injEq] at heq
    obtain ⟨rfl, rfl⟩ := heq
    obtain ⟨pre, h1, h2, h3, h4⟩ := ih.seen i seen r hp
    refine ⟨pre ++ [(m, e)], by simp [MuxMap.keys, ← h1], ?_, ?_, ?_⟩
    · intro p hp
      simp only [List.mem_append, List.mem_singleton] at hp
      rcases hp with hp | rfl
      · exact h2 p hp
      · exact hm
    · rw [List.nodup_append]
      refine ⟨h3, by simp, ?_⟩
      intro a ha b hb
      simp only [List.mem_singleton] at hb
      subst hb
      rintro rfl
      exact hs ha
    · rw [MuxMap.search_append _ _ _ _ _ h4]
      simp [MuxMap.search, Matcher.run_total hr]
  | hit seen r m e r' hp hm hs hr =>
    refine plain _ (.hit m e) rfl rfl rfl rfl (fun j => rfl) (by rw [hp]; rfl) (by rw [hp]; rfl) (by rw [hp]; exact .inl rfl) ?_
    intro l r'' heq; cases heq
  | miss seen r hp hs =>
    refine plain _ .miss rfl rfl rfl rfl (fun j => rfl) (by rw [hp]; rfl) (by rw [hp]; rfl) (by rw [hp]; exact .inl rfl) ?_
    intro l r'' heq; cases heq
  | call m h once t hp ht =>
    refine plain _ (.want (.register m h once)) rfl rfl rfl rfl (fun j => rfl) (by rw [hp]; rfl) (by rw [hp]; rfl)
      (by rw [hp]; exact .inl rfl) ?_
    intro l r'' heq; cases heq
  | serve h l hp hl =>
    refine plain _ .idle rfl rfl rfl rfl (fun j => rfl) (by rw [hp]; rfl) (by rw [hp]; rfl)
      (by rw [hp]; exact .inl rfl) ?_
    intro l r'' heq; cases heq
  | locked k hp hr =>
    refine plain _ (.hold k) rfl rfl rfl rfl (fun j => rfl) (by rw [hp]; rfl) (by rw [hp]; rfl) (.inr hr) ?_
    intro l r'' heq; cases heq
  | crash seen r m e hp hm hs hr =>
    refine ⟨fun j => ?_, fun j => ?_, fun j hj => ?_, ih.keys, fun j l r hj => ?_⟩
    · have := ih.count j
      simp only [MuxGo.goto]
      by_cases hji : j = i
      · subst hji; rw [hp] at this; simp [MuxPc.reading] at this ⊢; omega
      · have hij : ¬ i = j := fun h => hji h.symm
        simp only [hji, if_false, List.count_cons, beq_iff_eq, hij]; omega
    · have := ih.writer j
      simp only [MuxGo.goto]
      by_cases hji : j = i
      · subst hji; rw [hp] at this; simpa [MuxPc.writing] using this
      · simp only [hji, if_false]; exact this
    · simp only [MuxGo.goto] at hj
      by_cases hji : j = i
      · simp [hji, MuxPc.holding] at hj
      · simp only [hji, if_false] at hj; exact ih.alone j hj
    · simp only [MuxGo.goto] at hj
      by_cases hji : j = i
      · simp [hji] at hj
      · simp only [hji, if_false] at hj; exact ih.seen j l r hj
  | unlockHit m e hp =>
    refine ⟨fun j => ?_, fun j => ?_, fun j hj => ?_, ih.keys, fun j l r hj => ?_⟩
    · have := ih.count j
      simp only [MuxGo.goto]
      by_cases hji : j = i
      · subst hji; rw [hp] at this
        simp only [if_true, List.count_erase_self]
        simp only [MuxPc.reading, Bool.toNat_true] at this
        split <;> simp [MuxPc.reading] <;> omega
      · simp only [hji, if_false]
        rw [List.count_erase_of_ne hji]; exact this
    · have := ih.writer j
      simp only [MuxGo.goto]
      by_cases hji : j = i
      · subst hji; rw [hp] at this
        simp only [if_true]
        split <;> simpa [MuxPc.writing] using this
      · simp only [hji, if_false]; exact this
    · simp only [MuxGo.goto] at hj ⊢
      by_cases hji : j = i
      · simp only [hji, if_true] at hj
        split at hj <;> simp [MuxPc.holding] at hj
      · simp only [hji, if_false] at hj; rw [ih.alone j hj]; rfl
    · simp only [MuxGo.goto] at hj
      by_cases hji : j = i
      · simp only [hji, if_true] at hj
        split at hj <;> cases hj
      · simp only [hji, if_false] at hj; exact ih.seen j l r hj
  | unlockMiss hp =>
    refine ⟨fun j => ?_, fun j => ?_, fun j hj => ?_, ih.keys, fun j l r hj => ?_⟩
    · have := ih.count j
      simp only [MuxGo.goto]
      by_cases hji : j = i
      · subst hji; rw [hp] at this
        simp only [if_true, List.count_erase_self]
        simp only [MuxPc.reading, Bool.toNat_true] at this
        simp [MuxPc.reading]; omega
      · simp only [hji, if_false]
        rw [List.count_erase_of_ne hji]; exact this
    · have := ih.writer j
      simp only [MuxGo.goto]
      by_cases hji : j = i
      · subst hji; rw [hp] at this
        simpa [MuxPc.writing] using this
      · simp only [hji, if_false]; exact this
    · simp only [MuxGo.goto] at hj ⊢
      by_cases hji : j = i
      · simp [hji, MuxPc.holding] at hj
      · simp only [hji, if_false] at hj; rw [ih.alone j hj]; rfl
    · simp only [MuxGo.goto] at hj
      by_cases hji : j = i
      · simp [hji] at hj
      · simp only [hji, if_false] at hj; exact ih.seen j l r hj
  | lock k hp hw =>
    refine ⟨fun j => ?_, fun j => ?_, fun j hj => ?_, ih.keys, fun j l r hj => ?_⟩
    · have := ih.count j
      simp only [MuxGo.goto]
      by_cases hji : j = i
      · subst hji; rw [hp] at this; simpa [MuxPc.reading] using this
      · simp only [hji, if_false]; exact this
    · have := ih.writer j
      simp only [MuxGo.goto]
      by_cases hji : j = i
      · subst hji; simp [MuxPc.writing]
      · have hij : ¬ i = j := fun h => hji h.symm
        rw [hw] at this
        simp only [hji, if_false, this, Option.some.injEq, hij]; simp
    · simp only [MuxGo.goto] at hj
      by_cases hji : j = i
      · simp [hji, MuxPc.holding] at hj
      · simp only [hji, if_false] at hj; exact ih.alone j hj
    · simp only [MuxGo.goto] at hj
      by_cases hji : j = i
      · simp [hji] at hj
      · simp only [hji, if_false] at hj; exact ih.seen j l r hj
  | act k hp =>
    obtain ⟨a1, a2, a3, a4, a5, ⟨o, a6⟩, a7⟩ := c.act_spec i k
    have hh : (c.pc i).holding = true := by rw [hp]; rfl
    refine ⟨fun j => ?_, fun j => ?_, fun j hj => ?_, a7 ih.keys, fun j l r hj => ?_⟩
    · rw [a1, a3]
      have := ih.count j
      by_cases hji : j = i
      · subst hji; rw [hp] at this; rw [a6]; exact this
      · rw [a5 j hji]; exact this
    · rw [a2]
      have := ih.writer j
      by_cases hji : j = i
      · subst hji; rw [hp] at this; rw [a6]; exact this
      · rw [a5 j hji]; exact this
    · rw [a1]; exact ih.alone i hh
    · by_cases hji : j = i
      · subst hji; rw [a6] at hj; cases hj
      · rw [a5 j hji] at hj
        have := ih.quiet hh j
        rw [hj] at this; simp [MuxPc.reading] at this
  | unlock o hp =>
    have hw := (ih.writer i).1 (by rw [hp]; rfl)
    have hpc : ∀ p : MuxPc, p = .after o →
        p.reading = false ∧ p.writing = false ∧ p.holding = false ∧ ∀ l r, p ≠ .search l r := by
      rintro p rfl
      cases o <;> refine ⟨rfl, rfl, rfl, ?_⟩ <;> intro l r h <;> cases h
    obtain ⟨q1, q2, q3, q4⟩ := hpc _ rfl
    refine ⟨fun j => ?_, fun j => ?_, fun j hj => ?_, ih.keys, fun j l r hj => ?_⟩
    · have := ih.count j
      simp only [MuxGo.goto]
      by_cases hji : j = i
      · subst hji; rw [hp] at this; simp only [if_true, q1]; simpa [MuxPc.reading] using this
      · simp only [hji, if_false]; exact this
    · have := ih.writer j
      simp only [MuxGo.goto]
      by_cases hji : j = i
      · subst hji; simp [q2]
      · have hij : ¬ i = j := fun h => hji h.symm
        rw [hw] at this
        simp only [Option.some.injEq, hij, iff_false] at this
        simp [hji, this]
    · simp only [MuxGo.goto] at hj
      by_cases hji : j = i
      · simp [hji, q3] at hj
      · simp only [hji, if_false] at hj; exact ih.alone j hj
    · simp only [MuxGo.goto] at hj
      by_cases hji : j = i
      · simp only [hji, if_true] at hj; exact absurd hj (q4 l r)
      · simp only [hji, if_false] at hj; exact ih.seen j l r hj

theorem MuxGo.inv (env : Nat → MatchFn?) (reqs : Nat → Request) (dflt : Handler) (nested : List MuxOp → Prop)
    (progs : Nat → List MuxOp) (c : MuxGo) (h : MuxGo.Steps env reqs dflt nested (.init progs) c) :
    c.Inv env reqs := by
  induction h with
  | refl =>
    refine ⟨fun i => by simp [MuxGo.init, MuxPc.reading], fun i => by simp [MuxGo.init, MuxPc.writing],
      fun i h => by simp [MuxGo.init, MuxPc.holding] at h, by simp [MuxGo.init, MuxMap.keys], fun i l r h => ?_⟩
    simp [MuxGo.init] at h
  | tail _ st ih => exact ih.step st

/-! ## The critical sections as single steps -/

/-- The state of `Verif/Mux.lean`. -/
def MuxGo.abs (c : MuxGo) : MuxSys := ⟨c.hs, fun i => (c.pc i).pend, c.next, c.log⟩

/-- Distinct entries of a map are the beginning of some iteration order. -/
theorem MuxMap.complete {pre hs : MuxMap} (hk : pre.keys.Nodup) (hsub : ∀ p ∈ pre, p ∈ hs) :
    ∃ rest, List.Perm (pre ++ rest) hs := by
  induction pre generalizing hs with
  | nil => exact ⟨hs, .refl _⟩
  | cons p t ih =>
    simp only [MuxMap.keys, List.map_cons, List.nodup_cons] at hk
    obtain ⟨rest, hr⟩ := ih (hs := hs.erase p) hk.2 (fun q hq => by
      have hne : q ≠ p := by
        rintro rfl
        exact hk.1 (List.mem_map_of_mem hq)
      exact (List.mem_erase_of_ne hne).2 (hsub q (by simp [hq])))
    exact ⟨rest, ((hr.cons p).trans (List.perm_cons_erase (hsub p (by simp))).symm)⟩

theorem MuxMap.keys_length (hs : MuxMap) : hs.keys.length = hs.length := by simp [MuxMap.keys]

theorem MuxMap.length_le {pre hs : MuxMap} (hk : pre.keys.Nodup) (hsub : ∀ p ∈ pre, p ∈ hs) :
    pre.length ≤ hs.length := by
  obtain ⟨rest, h⟩ := MuxMap.complete hk hsub
  have := h.length_eq
  rw [List.length_append] at this
  omega

/-- Every step is a step of the coarser system or does not change its state. -/
theorem MuxGo.Inv.sim {env : Nat → MatchFn?} {reqs : Nat → Request} {dflt : Handler}
    {nested : List MuxOp → Prop} {c c' : MuxGo} (ih : c.Inv env reqs)
    (st : MuxGo.Step env reqs dflt nested c c') :
    c'.abs = c.abs ∨ MuxSys.Step (total env) reqs c.abs c'.abs := by
  obtain ⟨i, st⟩ := st
  have same : ∀ (c' : MuxGo) p, c'.hs = c.hs → c'.next = c.next → c'.log = c.log →
      (∀ j, c'.pc j = if j = i then p else c.pc j) → p.pend = (c.pc i).pend → c'.abs = c.abs := by
    intro c' p e1 e2 e3 e4 e5
    simp only [MuxGo.abs, e1, e2, e3, MuxSys.mk.injEq, true_and, and_true]
    funext j
    rw [e4]
    by_cases hj : j = i
    · simp [hj, e5]
    · simp [hj]
  cases st with
  | rlock t hp ht hw => exact .inl (same _ _ rfl rfl rfl (fun j => rfl) (by rw [hp]; rfl))
  | next seen r m e r' hp hm hs hr => exact .inl (same _ _ rfl rfl rfl (fun j => rfl) (by rw [hp]; rfl))
  | crash seen r m e hp hm hs hr => exact .inl (same _ _ rfl rfl rfl (fun j => rfl) (by rw [hp]; rfl))
  | unlockMiss hp => exact .inl (same _ _ rfl rfl rfl (fun j => rfl) (by rw [hp]; rfl))
  | unlockHit m e hp =>
    refine .inl (same _ _ rfl rfl rfl (fun j => rfl) ?_)
    rw [hp]
    by_cases he : e.once <;> simp [he, MuxPc.pend]
  | call m h once t hp ht => exact .inl (same _ _ rfl rfl rfl (fun j => rfl) (by rw [hp]; rfl))
  | lock k hp hw =>
    refine .inl (same _ _ rfl rfl rfl (fun j => rfl) ?_)
    rw [hp]; cases k <;> rfl
  | locked k hp hr =>
    refine .inl (same _ _ rfl rfl rfl (fun j => rfl) ?_)
    rw [hp]; cases k <;> rfl
  | unlock o hp =>
    refine .inl (same _ _ rfl rfl rfl (fun j => rfl) ?_)
    rw [hp]; cases o <;> rfl
  | serve h l hp hl => exact .inl (same _ _ rfl rfl rfl (fun j => rfl) (by rw [hp]; rfl))
  | hit seen r m e r' hp hm hs hr =>
    obtain ⟨pre, h1, h2, h3, h4⟩ := ih.seen i seen r hp
    have hk : MuxMap.keys (pre ++ [(m, e)]) = seen ++ [m] := by simp [MuxMap.keys, ← h1]
    obtain ⟨rest, hperm⟩ := MuxMap.complete (pre := pre ++ [(m, e)]) (hs := c.hs) (by
        rw [hk, List.nodup_append]
        refine ⟨h3, by simp, ?_⟩
        intro a ha b hb
        simp only [List.mem_singleton] at hb
        subst hb
        rintro rfl
        exact hs ha) (by
        intro p hp
        simp only [List.mem_append, List.mem_singleton] at hp
        rcases hp with hp | rfl
        · exact h2 p hp
        · exact hm)
    have hsearch : MuxMap.search (total env) (pre ++ [(m, e)] ++ rest) (reqs i) = (some (m, e), r') := by
      rw [List.append_assoc, MuxMap.search_append _ _ _ _ _ h4]
      simp [MuxMap.search, Matcher.run_total hr]
    have hpend : c.abs.pend i = none := by simp [MuxGo.abs, hp, MuxPc.pend]
    right
    by_cases ho : e.once = true
    · have := MuxSys.Step.foundOnce (env := total env) (reqs := reqs) c.abs i _ r' m e hpend hperm hsearch ho
      convert this using 1
      simp only [MuxGo.abs, MuxGo.goto, ho, if_true, MuxSys.mk.injEq, true_and, and_true]
      funext j
      by_cases hj : j = i <;> simp [hj, MuxPc.pend, ho]
    · simp only [Bool.not_eq_true] at ho
      have := MuxSys.Step.found (env := total env) (reqs := reqs) c.abs i _ r' m e hpend hperm hsearch ho
      convert this using 1
      simp only [MuxGo.abs, MuxGo.goto, ho, MuxSys.mk.injEq, true_and]
      refine ⟨?_, by simp⟩
      funext j
      by_cases hj : j = i
      · simp [hj, MuxPc.pend, ho, hp]
      · simp [hj]
  | miss seen r hp hs =>
    obtain ⟨pre, h1, h2, h3, h4⟩ := ih.seen i seen r hp
    have nd : ∀ {l : MuxMap}, l.keys.Nodup → l.Nodup := fun h =>
      (List.pairwise_map.1 h).imp (fun hne heq => hne (by rw [heq]))
    have hperm : List.Perm pre c.hs := by
      rw [List.perm_ext_iff_of_nodup (nd (h1 ▸ h3)) (nd ih.keys)]
      rintro ⟨m, e⟩
      refine ⟨h2 _, fun hm => ?_⟩
      have := hs m e hm
      rw [← h1, MuxMap.mem_keys] at this
      obtain ⟨e', he'⟩ := this
      rwa [MuxMap.unique ih.keys hm (h2 _ he')]
    right
    have := MuxSys.Step.miss (env := total env) (reqs := reqs) c.abs i pre r
      (by simp [MuxGo.abs, hp, MuxPc.pend]) hperm h4
    convert this using 1
    simp only [MuxGo.abs, MuxGo.goto, MuxSys.mk.injEq, true_and, and_true]
    funext j
    by_cases hj : j = i
    · simp [hj, MuxPc.pend, hp]
    · simp [hj]
  | act k hp =>
    cases k with
    | take m e =>
      right
      have := MuxSys.Step.take (env := total env) (reqs := reqs) c.abs i m e (by simp [MuxGo.abs, hp, MuxPc.pend])
      convert this using 1
      simp only [MuxGo.abs, MuxGo.act, MuxGo.goto, MuxSys.mk.injEq, true_and]
      refine ⟨?_, rfl⟩
      funext j
      by_cases hj : j = i <;> simp [hj, MuxPc.pend]
    | register m h once =>
      simp only [MuxGo.act]
      split
      · rename_i hs' m h heq
        right
        have := MuxSys.Step.register (env := total env) (reqs := reqs) c.abs m h once hs' heq
        convert this using 1
        simp only [MuxGo.abs, MuxGo.goto, MuxSys.mk.injEq, true_and, and_true]
        funext j
        by_cases hj : j = i
        · simp [hj, MuxPc.pend, hp]
        · simp [hj]
      · exact .inl (same _ _ rfl rfl rfl (fun j => rfl) (by rw [hp]; rfl))

theorem MuxGo.abs_reach (env : Nat → MatchFn?) (reqs : Nat → Request) (dflt : Handler) (nested : List MuxOp → Prop)
    (progs : Nat → List MuxOp) (c : MuxGo) (h : MuxGo.Steps env reqs dflt nested (.init progs) c) :
    MuxSys.Reach (total env) reqs c.abs := by
  induction h with
  | refl => exact .init
  | tail h st ih =>
    rcases (MuxGo.inv _ _ _ _ _ _ h).sim st with heq | hs
    · rw [heq]; exact ih
    · exact .tail ih hs

/-! ## Progress -/

/-- No matcher panics. -/
def NoPanic (env : Nat → MatchFn?) : Prop := ∀ i r, env i r ≠ none

theorem NoPanic.run {env : Nat → MatchFn?} (h : NoPanic env) (m : Matcher) (r : Request) : m.run? env r ≠ none := by
  cases m with
  | typ t => simp [Matcher.run?]
  | ptr i => exact h i r

theorem MuxGo.no_leak {env : Nat → MatchFn?} (he : NoPanic env) {reqs : Nat → Request} {dflt : Handler}
    {nested : List MuxOp → Prop} {progs : Nat → List MuxOp} {c : MuxGo}
    (h : MuxGo.Steps env reqs dflt nested (.init progs) c) : c.leaked = [] := by
  induction h with
  | refl => rfl
  | tail _ st ih =>
    obtain ⟨i, st⟩ := st
    cases st with
    | crash seen r m e hp hm hs hr => exact absurd hr (he.run m r)
    | act k hp => rw [(MuxGo.act_spec _ _ _).2.2.1]; exact ih
    | _ => exact ih

/-- A goroutine in the first critical section can go on. -/
theorem MuxGo.reading_step (env : Nat → MatchFn?) (reqs : Nat → Request) (dflt : Handler)
    (nested : List MuxOp → Prop) (c : MuxGo) (i : Nat) (h : (c.pc i).reading = true) :
    ∃ c', MuxGo.StepOf env reqs dflt nested i c c' := by
  cases hp : c.pc i with
  | search seen r =>
    by_cases hs : ∀ m e, (m, e) ∈ c.hs → m ∈ seen
    · exact ⟨_, .miss c seen r hp hs⟩
    · simp only [Classical.not_forall] at hs
      obtain ⟨m, e, hm, hn⟩ := hs
      rcases hr : m.run? env r with _ | ⟨_ | _, r'⟩
      · exact ⟨_, .crash c seen r m e hp hm hn hr⟩
      · exact ⟨_, .next c seen r m e r' hp hm hn hr⟩
      · exact ⟨_, .hit c seen r m e r' hp hm hn hr⟩
  | hit m e => exact ⟨_, .unlockHit c m e hp⟩
  | miss => exact ⟨_, .unlockMiss c hp⟩
  | _ => rw [hp] at h; simp [MuxPc.reading] at h

/-- Some goroutine can go on, unless the read lock has leaked or all have finished. -/
theorem MuxGo.Inv.progress {env : Nat → MatchFn?} {reqs : Nat → Request} {c : MuxGo} (ih : c.Inv env reqs)
    (dflt : Handler) (nested : List MuxOp → Prop) (hn : ∃ l, nested l) (hl : c.leaked = []) (i : Nat)
    (hi : c.pc i = .idle → c.todo i ≠ []) : ∃ c', MuxGo.Step env reqs dflt nested c c' := by
  by_cases hread : ∃ j, (c.pc j).reading = true
  · obtain ⟨j, hj⟩ := hread
    obtain ⟨c', h⟩ := MuxGo.reading_step env reqs dflt nested c j hj
    exact ⟨c', j, h⟩
  · have hno : ∀ j, (c.pc j).reading = false := fun j => by
      cases h : (c.pc j).reading with
      | false => rfl
      | true => exact absurd ⟨j, h⟩ hread
    have hr : c.readers = [] := by
      rcases hrd : c.readers with _ | ⟨a, t⟩
      · rfl
      · have := ih.count a
        rw [hrd, hl, hno a] at this
        simp at this
    cases hw : c.writer with
    | some w =>
      have := (ih.writer w).2 hw
      cases hp : c.pc w with
      | wait k => exact ⟨_, w, .locked c k hp hr⟩
      | hold k => exact ⟨_, w, .act c k hp⟩
      | rel o => exact ⟨_, w, .unlock c o hp⟩
      | _ => rw [hp] at this; simp [MuxPc.writing] at this
    | none =>
      have hnw : (c.pc i).writing = false := by
        cases h : (c.pc i).writing with
        | false => rfl
        | true => have := (ih.writer i).1 h; rw [hw] at this; simp at this
      have hnr := hno i
      cases hp : c.pc i with
      | idle =>
        cases ht : c.todo i with
        | nil => exact absurd ht (hi hp)
        | cons op t =>
          cases op with
          | dispatch => exact ⟨_, i, .rlock c t hp ht hw⟩
          | register m h once => exact ⟨_, i, .call c m h once t hp ht⟩
      | want k => exact ⟨_, i, .lock c k hp hw⟩
      | serving h => obtain ⟨l, hl⟩ := hn; exact ⟨_, i, .serve c h l hp hl⟩
      | search | hit | miss => rw [hp] at hnr; simp [MuxPc.reading] at hnr
      | wait | hold | rel => rw [hp] at hnw; simp [MuxPc.writing] at hnw

/-! ## Termination -/

/-- Registrations that a goroutine has still to make. -/
def MuxOp.regs : MuxOp → Nat
  | .register .. => 1
  | .dispatch => 0

/-- See `MuxOp.regs`. -/
def MuxPc.regs : MuxPc → Nat
  | .want (.register ..) | .wait (.register ..) | .hold (.register ..) => 1
  | _ => 0

/-- Steps that an operation may take with `n` entries in the map. -/
def MuxOp.cost (n : Nat) : MuxOp → Nat
  | .dispatch => n + 12
  | .register .. => 8

/-- See `MuxOp.cost`. -/
def MuxPc.cost (n : Nat) : MuxPc → Nat
  | .idle => 0
  | .search seen _ => n + 10 - seen.length
  | .hit .. | .miss => 9
  | .want _ => 5
  | .wait _ => 4
  | .hold _ => 3
  | .rel _ => 2
  | .serving _ => 1

/-- Registrations left to the goroutines below `N`. -/
def MuxGo.regs (N : Nat) (c : MuxGo) : Nat :=
  ((List.range N).map fun i => ((c.todo i).map MuxOp.regs).sum + (c.pc i).regs).sum

/-- Steps left to them until the next registration. -/
def MuxGo.cost (N : Nat) (c : MuxGo) : Nat :=
  ((List.range N).map fun i => ((c.todo i).map (MuxOp.cost c.hs.length)).sum + (c.pc i).cost c.hs.length).sum

theorem sum_range_le {f g : Nat → Nat} {N : Nat} (h : ∀ j, f j ≤ g j) :
    ((List.range N).map f).sum ≤ ((List.range N).map g).sum := by
  induction N with
  | zero => simp
  | succ N ih =>
    simp only [List.range_succ, List.map_append, List.map_cons, List.map_nil, List.sum_append, List.sum_cons,
      List.sum_nil]
    have := h N
    omega

theorem sum_range_lt_of_le {f g : Nat → Nat} {N i : Nat} (hi : i < N) (h : ∀ j, f j ≤ g j) (hl : f i < g i) :
    ((List.range N).map f).sum < ((List.range N).map g).sum := by
  induction N with
  | zero => omega
  | succ N ih =>
    simp only [List.range_succ, List.map_append, List.map_cons, List.map_nil, List.sum_append, List.sum_cons,
      List.sum_nil]
    have := h N
    by_cases hN : i = N
    · subst hN
      have := sum_range_le (N := i) h
      omega
    · have := ih (by omega)
      omega

theorem MuxOp.cost_mono {n n' : Nat} (h : n ≤ n') (l : List MuxOp) :
    (l.map (MuxOp.cost n)).sum ≤ (l.map (MuxOp.cost n')).sum := by
  induction l with
  | nil => simp
  | cons op t ih =>
    have : op.cost n ≤ op.cost n' := by cases op <;> simp [MuxOp.cost]; omega
    simp only [List.map_cons, List.sum_cons]; omega

theorem MuxPc.cost_mono {n n' : Nat} (h : n ≤ n') (p : MuxPc) : p.cost n ≤ p.cost n' := by
  cases p <;> simp [MuxPc.cost]; omega

theorem MuxMap.take_length (hs : MuxMap) (m : Matcher) (e : MuxEntry) : (hs.take m e).2.length ≤ hs.length := by
  unfold MuxMap.take
  split
  · exact List.length_filter_le _ _
  · exact Nat.le_refl _

/-- Only goroutines with something to do make steps. -/
theorem MuxGo.StepOf.active {env : Nat → MatchFn?} {reqs : Nat → Request} {dflt : Handler} {c c' : MuxGo}
    {nested : List MuxOp → Prop} {i : Nat} (st : MuxGo.StepOf env reqs dflt nested i c c') :
    ¬ (c.pc i = .idle ∧ c.todo i = []) := by
  rintro ⟨h1, h2⟩
  cases st with
  | rlock t hp ht hw => rw [h2] at ht; cases ht
  | call m h once t hp ht => rw [h2] at ht; cases ht
  | next seen r m e r' hp | hit seen r m e r' hp | crash seen r m e hp | miss seen r hp | unlockHit m e hp
  | unlockMiss hp | lock k hp | locked k hp | act k hp | unlock o hp | serve h l hp => rw [h1] at hp; cases hp

/-- A step of one goroutine leaves the others where they are. -/
theorem MuxGo.StepOf.others {env : Nat → MatchFn?} {reqs : Nat → Request} {dflt : Handler} {c c' : MuxGo}
    {nested : List MuxOp → Prop} {i : Nat} (st : MuxGo.StepOf env reqs dflt nested i c c') (j : Nat) (hj : j ≠ i) :
    c'.pc j = c.pc j ∧ c'.todo j = c.todo j := by
  cases st with
  | act k hp =>
    obtain ⟨-, -, -, a4, a5, -, -⟩ := c.act_spec i k
    exact ⟨a5 j hj, by rw [a4]⟩
  | _ => simp [MuxGo.goto, MuxGo.setTodo, hj]

/-- Only goroutines with a program do something. -/
theorem MuxGo.outside {env : Nat → MatchFn?} {reqs : Nat → Request} {dflt : Handler} {progs : Nat → List MuxOp}
    {N : Nat} (hN : ∀ i, N ≤ i → progs i = []) {c : MuxGo} {nested : List MuxOp → Prop}
    (h : MuxGo.Steps env reqs dflt nested (.init progs) c) : ∀ i, N ≤ i → c.pc i = .idle ∧ c.todo i = [] := by
  induction h with
  | refl => exact fun i hi => ⟨rfl, hN i hi⟩
  | tail _ st ih =>
    obtain ⟨i, st⟩ := st
    intro j hj
    by_cases hji : j = i
    · exact absurd (ih i (hji ▸ hj)) st.active
    · obtain ⟨h1, h2⟩ := st.others j hji
      rw [h1, h2]; exact ih j hj

/-- A step of a program whose handlers do not use the multiplexer: one registration less is
left, or as many and fewer steps. -/
theorem MuxGo.Inv.decreases {env : Nat → MatchFn?} {reqs : Nat → Request} {dflt : Handler} {c c' : MuxGo} {i N : Nat}
    (ih : c.Inv env reqs) (hi : i < N) (st : MuxGo.StepOf env reqs dflt (· = []) i c c') :
    c'.regs N < c.regs N ∨ c'.regs N = c.regs N ∧ c'.cost N < c.cost N := by
  have key : ∀ (c' : MuxGo), c'.hs.length ≤ c.hs.length → (∀ j, j ≠ i → c'.pc j = c.pc j ∧ c'.todo j = c.todo j) →
      ((c'.todo i).map MuxOp.regs).sum + (c'.pc i).regs = ((c.todo i).map MuxOp.regs).sum + (c.pc i).regs →
      ((c'.todo i).map (MuxOp.cost c.hs.length)).sum + (c'.pc i).cost c.hs.length <
        ((c.todo i).map (MuxOp.cost c.hs.length)).sum + (c.pc i).cost c.hs.length →
      c'.regs N < c.regs N ∨ c'.regs N = c.regs N ∧ c'.cost N < c.cost N := by
    intro c' h1 h2 h3 h4
    refine .inr ⟨?_, ?_⟩
    · unfold MuxGo.regs
      congr 1
      refine List.map_congr_left fun j _ => ?_
      by_cases hj : j = i
      · subst hj; exact h3
      · rw [(h2 j hj).1, (h2 j hj).2]
    · refine sum_range_lt_of_le hi (fun j => ?_) ?_
      · have m1 := MuxOp.cost_mono h1 (c'.todo j)
        have m2 := MuxPc.cost_mono h1 (c'.pc j)
        by_cases hj : j = i
        · subst hj; omega
        · rw [(h2 j hj).2] at m1 ⊢
          rw [(h2 j hj).1] at m2 ⊢
          omega
      · have m1 := MuxOp.cost_mono h1 (c'.todo i)
        have m2 := MuxPc.cost_mono h1 (c'.pc i)
        omega
  have others : ∀ p : MuxPc, ∀ j, j ≠ i → (c.goto i p).pc j = c.pc j ∧ (c.goto i p).todo j = c.todo j := by
    intro p j hj; simp [MuxGo.goto, hj]
  have seen : ∀ l r, c.pc i = .search l r → l.length ≤ c.hs.length := by
    intro l r hp
    obtain ⟨pre, h1, h2, h3, -⟩ := ih.seen i l r hp
    have := MuxMap.length_le (h1 ▸ h3) h2
    rw [← h1, MuxMap.keys_length]; exact this
  cases st with
  | rlock t hp ht hw =>
    refine key _ (Nat.le_refl _) (fun j hj => by simp [MuxGo.goto, MuxGo.setTodo, hj]) ?_ ?_
    · simp [MuxGo.goto, MuxGo.setTodo, hp, ht, MuxPc.regs, MuxOp.regs]
    · simp [MuxGo.goto, MuxGo.setTodo, hp, ht, MuxPc.cost, MuxOp.cost]; omega
  | call m h once t hp ht =>
    refine key _ (Nat.le_refl _) (fun j hj => by simp [MuxGo.goto, MuxGo.setTodo, hj]) ?_ ?_
    · simp [MuxGo.goto, MuxGo.setTodo, hp, ht, MuxPc.regs, MuxOp.regs]; omega
    · simp [MuxGo.goto, MuxGo.setTodo, hp, ht, MuxPc.cost, MuxOp.cost]; omega
  | next seen' r m e r' hp hm hs hr =>
    have := seen _ _ hp
    refine key _ (Nat.le_refl _) (others _) ?_ ?_
    · simp [MuxGo.goto, hp, MuxPc.regs]
    · simp [MuxGo.goto, hp, MuxPc.cost]; omega
  | hit seen' r m e r' hp hm hs hr =>
    have := seen _ _ hp
    refine key _ (Nat.le_refl _) (others (.hit m e)) ?_ ?_
    · simp [MuxGo.goto, hp, MuxPc.regs]
    · simp [MuxGo.goto, hp, MuxPc.cost]; omega
  | crash seen' r m e hp hm hs hr =>
    have := seen _ _ hp
    refine key _ (Nat.le_refl _) (others .idle) ?_ ?_
    · simp [MuxGo.goto, hp, MuxPc.regs]
    · simp [MuxGo.goto, hp, MuxPc.cost]; omega
  | miss seen' r hp hs =>
    have := seen _ _ hp
    refine key _ (Nat.le_refl _) (others .miss) ?_ ?_
    · simp [MuxGo.goto, hp, MuxPc.regs]
    · simp [MuxGo.goto, hp, MuxPc.cost]; omega
  | unlockHit m e hp =>
    refine key _ (Nat.le_refl _) (others _) ?_ ?_ <;> cases he : e.once <;>
      simp [MuxGo.goto, hp, MuxPc.regs, MuxPc.cost]
  | unlockMiss hp => refine key _ (Nat.le_refl _) (others _) ?_ ?_ <;> simp [MuxGo.goto, hp, MuxPc.regs, MuxPc.cost]
  | lock k hp hw =>
    refine key _ (Nat.le_refl _) (others _) ?_ ?_ <;> cases k <;> simp [MuxGo.goto, hp, MuxPc.regs, MuxPc.cost]
  | locked k hp hr =>
    refine key _ (Nat.le_refl _) (others _) ?_ ?_ <;> cases k <;> simp [MuxGo.goto, hp, MuxPc.regs, MuxPc.cost]
  | unlock o hp =>
    refine key _ (Nat.le_refl _) (others _) ?_ ?_ <;> cases o <;>
      simp [MuxGo.goto, hp, MuxPc.regs, MuxPc.cost, MuxPc.after]
  | serve h l hp hl =>
    subst hl
    refine key _ (Nat.le_refl _) (fun j hj => by simp [MuxGo.goto, MuxGo.setTodo, hj]) ?_ ?_ <;>
      simp [MuxGo.goto, MuxGo.setTodo, hp, MuxPc.regs, MuxPc.cost]
  | act k hp =>
    obtain ⟨-, -, -, a4, a5, ⟨o, a6⟩, -⟩ := c.act_spec i k
    cases k with
    | take m e =>
      refine key _ (MuxMap.take_length _ _ _) (fun j hj => ⟨a5 j hj, by rw [a4]⟩) ?_ ?_ <;> rw [a4, a6, hp] <;>
        simp [MuxPc.regs, MuxPc.cost]
    | register m h once =>
      refine .inl (sum_range_lt hi (fun j hj => ?_) ?_)
      · rw [a4, a5 j hj]
      · rw [a4, a6, hp]; simp [MuxPc.regs]

/-- Every execution in which handlers do not use the multiplexer is finite. -/
theorem MuxGo.Inv.acc (env : Nat → MatchFn?) (reqs : Nat → Request) (dflt : Handler) (N : Nat) :
    ∀ (a b : Nat) (c : MuxGo), c.Inv env reqs → (∀ i, N ≤ i → c.pc i = .idle ∧ c.todo i = []) →
      c.regs N = a → c.cost N = b → Acc (fun c' c => MuxGo.Step env reqs dflt (· = []) c c') c := by
  intro a
  induction a using Nat.strongRecOn with
  | ind a iha =>
    intro b
    induction b using Nat.strongRecOn with
    | ind b ihb =>
      intro c hc hout ha hb
      refine Acc.intro _ fun c' hs => ?_
      have hc' := hc.step hs
      obtain ⟨i, hs⟩ := hs
      have hi : i < N := by
        by_cases hi : i < N
        · exact hi
        · exact absurd (hout i (by omega)) hs.active
      have hout' : ∀ j, N ≤ j → c'.pc j = .idle ∧ c'.todo j = [] := by
        intro j hj
        obtain ⟨h1, h2⟩ := hs.others j (by omega)
        rw [h1, h2]; exact hout j hj
      rcases hc.decreases hi hs with h | ⟨h1, h2⟩
      · exact iha _ (ha ▸ h) _ c' hc' hout' rfl rfl
      · exact ihb _ (hb ▸ h2) c' hc' hout' (h1.trans ha) rfl

/-! ## What a goroutine serves -/

/-- The event is the result of a dispatch of goroutine `i`. -/
def MuxEvent.about (i : Nat) : MuxEvent → Bool
  | .selected j _ | .default j | .lost j _ => j == i
  | .registered .. => false

/-- The handler that goes with the result of a dispatch. -/
def MuxEvent.handler (dflt : Handler) : MuxEvent → Option Handler
  | .selected _ e => some e.handler
  | .default _ => some dflt
  | .lost .. => some .discard
  | .registered .. => none

/-- The result of the last dispatch of goroutine `i`. -/
def lastResult (i : Nat) (log : List MuxEvent) : Option MuxEvent := (log.filter (·.about i)).getLast?

theorem lastResult_append (i : Nat) (log : List MuxEvent) (ev : MuxEvent) :
    lastResult i (log ++ [ev]) = if ev.about i then some ev else lastResult i log := by
  unfold lastResult
  rw [List.filter_append]
  by_cases h : ev.about i = true
  · simp [h]
  · simp [h]

/-- The handler that goroutine `i` is going to run, or runs. -/
def MuxPc.chosen (dflt : Handler) : MuxPc → Option Handler
  | .hit _ e => if e.once then none else some e.handler
  | .miss => some dflt
  | .rel (some h) | .serving h => some h
  | _ => none

theorem MuxGo.chosen_last {env : Nat → MatchFn?} {reqs : Nat → Request} {dflt : Handler} {nested : List MuxOp → Prop}
    {progs : Nat → List MuxOp} {c : MuxGo} (h : MuxGo.Steps env reqs dflt nested (.init progs) c) (i : Nat)
    (hd : Handler) (hc : (c.pc i).chosen dflt = some hd) :
    ∃ ev, lastResult i c.log = some ev ∧ ev.handler dflt = some hd := by
  induction h generalizing hd with
  | refl => simp [MuxGo.init, MuxPc.chosen] at hc
  | @tail c c' _ st ih =>
    obtain ⟨j, st⟩ := st
    by_cases hij : i = j
    · subst hij
      cases st with
      | rlock | next | call | lock | locked | crash | serve =>
        simp [MuxGo.goto, MuxPc.chosen] at hc
      | hit seen r m e r' hp hm hs hr =>
        cases ho : e.once with
        | true => simp [MuxGo.goto, MuxPc.chosen, ho] at hc
        | false =>
          simp only [MuxGo.goto, MuxPc.chosen, ho, if_true, Bool.false_eq_true, if_false, Option.some.injEq] at hc ⊢
          refine ⟨.selected i e, ?_, by simpa [MuxEvent.handler] using hc⟩
          rw [lastResult_append]; simp [MuxEvent.about]
      | miss seen r hp hs =>
        simp only [MuxGo.goto, MuxPc.chosen, if_true, Option.some.injEq] at hc ⊢
        refine ⟨.default i, ?_, by simpa [MuxEvent.handler] using hc⟩
        rw [lastResult_append]; simp [MuxEvent.about]
      | unlockHit m e hp =>
        refine ih hd ?_
        rw [hp]
        cases ho : e.once <;> simp_all [MuxGo.goto, MuxPc.chosen]
      | unlockMiss hp =>
        refine ih hd ?_
        rw [hp]
        simpa [MuxGo.goto, MuxPc.chosen] using hc
      | unlock o hp =>
        refine ih hd ?_
        rw [hp]
        cases o <;> simp_all [MuxGo.goto, MuxPc.chosen, MuxPc.after]
      | act k hp =>
        cases k with
        | take m e =>
          simp only [MuxGo.act, MuxGo.goto, if_true, MuxPc.chosen, Option.some.injEq] at hc
          simp only [MuxGo.act]
          rw [lastResult_append]
          by_cases hk : m ∈ c.hs.keys
          · refine ⟨.selected i e, by simp [hk, MuxEvent.about], ?_⟩
            simp [MuxEvent.handler, ← hc, MuxMap.take, hk]
          · refine ⟨.lost i e, by simp [hk, MuxEvent.about], ?_⟩
            simp [MuxEvent.handler, ← hc, MuxMap.take, hk]
        | register m h once =>
          simp only [MuxGo.act] at hc
          split at hc <;> simp [MuxGo.goto, MuxPc.chosen] at hc
    · have hpc := (st.others i hij).1
      rw [hpc] at hc
      obtain ⟨ev, h1, h2⟩ := ih hd hc
      refine ⟨ev, ?_, h2⟩
      rw [← h1]
      have hji : ¬ j = i := fun h => hij h.symm
      cases st with
      | hit seen r m e r' hp hm hs hr =>
        by_cases ho : e.once
        · simp [ho]
        · simp only [ho, if_false, Bool.false_eq_true]; rw [lastResult_append]; simp [MuxEvent.about, hji]
      | miss seen r hp hs => simp only; rw [lastResult_append]; simp [MuxEvent.about, hji]
      | act k hp =>
        cases k with
        | take m e =>
          simp only [MuxGo.act]
          rw [lastResult_append]
          split <;> simp [MuxEvent.about, hji]
        | register m h once =>
          simp only [MuxGo.act]
          split
          · simp only; rw [lastResult_append]; simp [MuxEvent.about]
          · rfl
      | _ => rfl

/-! ## After a panic in a matcher -/

theorem MuxGo.Inv.nobody {env : Nat → MatchFn?} {reqs : Nat → Request} {c : MuxGo} (ih : c.Inv env reqs)
    (hl : c.leaked ≠ []) (i : Nat) : (c.pc i).holding = false := by
  cases h : (c.pc i).holding with
  | false => rfl
  | true =>
    obtain ⟨a, ha⟩ := List.exists_mem_of_ne_nil _ hl
    have h1 := ih.count a
    rw [ih.alone i h] at h1
    have := List.count_pos_iff.2 ha
    simp at h1
    omega

theorem MuxGo.Inv.stuck {env : Nat → MatchFn?} {reqs : Nat → Request} {dflt : Handler}
    {nested : List MuxOp → Prop} {c c' : MuxGo} (ih : c.Inv env reqs) (hl : c.leaked ≠ [])
    (st : MuxGo.Step env reqs dflt nested c c') :
    c'.leaked ≠ [] ∧ c'.hs = c.hs ∧
    (∀ i k, c.pc i = .want k ∨ c.pc i = .wait k → c'.pc i = .want k ∨ c'.pc i = .wait k) ∧
    (∀ w, c.writer = some w → c'.writer = some w ∧
      ∀ i t, c.pc i = .idle → c.todo i = .dispatch :: t → c'.pc i = .idle ∧ c'.todo i = .dispatch :: t) := by
  obtain ⟨j, st⟩ := st
  have hh := ih.nobody hl j
  have hr : c.readers ≠ [] := by
    intro h
    obtain ⟨a, ha⟩ := List.exists_mem_of_ne_nil _ hl
    have h1 := ih.count a
    have := List.count_pos_iff.2 ha
    simp [h] at h1
    omega
  have rest := fun i (hi : i ≠ j) => st.others i hi
  have h3 : ∀ i k, c.pc i = .want k ∨ c.pc i = .wait k → c'.pc i = .want k ∨ c'.pc i = .wait k := by
    intro i k hi
    by_cases hij : i = j
    · subst hij
      cases st with
      | lock k' hp hw =>
        rw [hp] at hi
        simp only [MuxPc.want.injEq, reduceCtorEq, or_false] at hi
        subst hi
        exact .inr (by simp [MuxGo.goto])
      | locked k' hp hr' => exact absurd hr' hr
      | rlock t hp | next seen r m e r' hp | hit seen r m e r' hp | crash seen r m e hp | miss seen r hp
      | unlockHit m e hp | unlockMiss hp | call m h once t hp | act k hp | unlock o hp | serve h l hp =>
        rw [hp] at hi; simp at hi
    · rw [(rest i hij).1]; exact hi
  have h4 : ∀ w, c.writer = some w → ∀ i t, c.pc i = .idle → c.todo i = .dispatch :: t →
      c'.pc i = .idle ∧ c'.todo i = .dispatch :: t := by
    intro w hw i t h1 h2
    by_cases hij : i = j
    · subst hij
      cases st with
      | rlock t hp ht hw' => rw [hw] at hw'; cases hw'
      | call m h once t hp ht => rw [h2] at ht; cases ht
      | lock k hp | locked k hp | next seen r m e r' hp | hit seen r m e r' hp | crash seen r m e hp | miss seen r hp
      | unlockHit m e hp | unlockMiss hp | act k hp | unlock o hp | serve h l hp =>
        rw [h1] at hp; cases hp
    · rw [(rest i hij).1, (rest i hij).2]; exact ⟨h1, h2⟩
  cases st with
  | act k hp => rw [hp] at hh; cases hh
  | unlock o hp => rw [hp] at hh; cases hh
  | lock k hp hw => exact ⟨hl, rfl, h3, fun w hw' => by rw [hw] at hw'; cases hw'⟩
  | crash seen r m e hp => exact ⟨by simp, rfl, h3, fun w hw => ⟨hw, h4 w hw⟩⟩
  | _ => exact ⟨hl, rfl, h3, fun w hw => ⟨hw, h4 w hw⟩⟩

theorem MuxGo.Inv.steps {env : Nat → MatchFn?} {reqs : Nat → Request} {dflt : Handler}
    {nested : List MuxOp → Prop} {c c' : MuxGo} (ih : c.Inv env reqs) (h : MuxGo.Steps env reqs dflt nested c c') :
    c'.Inv env reqs := by
  induction h with
  | refl => exact ih
  | tail _ st ih => exact ih.step st

end Verif
