import Verif.Props.Mux
import Verif.Facade

/-!
# C101: the functions of the package, TypeMuxes and multiplexers in multiplexers
-/

namespace Verif.Props

/-! ## The specification: a table of handlers for every multiplexer -/

/-- For every multiplexer and every type the handler, and whether it is for one message only. -/
abbrev Tables := Nat → UInt8 → Option (Handler × Bool)

/-- One row of one table is replaced. -/
def Tables.set (tb : Tables) (k : Nat) (t : UInt8) (v : Option (Handler × Bool)) : Tables :=
  fun j u => if j = k ∧ u = t then v else tb j u

/-- A registration: nil handlers are refused, and so is a second handler for a type. -/
def Tables.register (tb : Tables) (k : Nat) (t : UInt8) (h : Option Handler) (once : Bool) : FResult × Tables :=
  match h, tb k t with
  | none, _ => (.panicked .nilHandler, tb)
  | some _, some _ => (.panicked .duplicate, tb)
  | some h, none => (.returned, tb.set k t (some (h, once)))

/-- The handler for a message of type `t`, and the tables after it has been chosen. -/
def Tables.choose (dflt : Handler) (tb : Tables) (k : Nat) (t : UInt8) : Handler × Tables :=
  match tb k t with
  | none => (dflt, tb)
  | some (h, once) => (h, if once then tb.set k t none else tb)

/-- Serving a message of type `t`: the handler is chosen, and if it is a multiplexer, again with its table. -/
inductive Tables.Serves (sub : Nat → Option Nat) (dflt : Handler) :
    Tables → Nat → UInt8 → FResult → Tables → Prop where
  | call (tb : Tables) (k t o) (h : o = match (tb.choose dflt k t).1 with
      | .user i => FResult.ran (some i)
      | .discard => FResult.ran none
      | .nilFunc => FResult.nilCall)
    (hs : ∀ i, (tb.choose dflt k t).1 = .user i → sub i = none) :
    Serves sub dflt tb k t o (tb.choose dflt k t).2
  | mux (tb : Tables) (k t i j o tb') (h : (tb.choose dflt k t).1 = .user i) (hs : sub i = some j)
    (ht : Serves sub dflt (tb.choose dflt k t).2 j t o tb') : Serves sub dflt tb k t o tb'

/-- `HandleFunc` takes any function, and a nil function also. -/
def funcHandler : Option Nat → Handler
  | none => .nilFunc
  | some i => .user i

/-- What the calls do to the tables. -/
def FCall.Meets (sub : Nat → Option Nat) (dflt : Handler) (tb : Tables) : FCall → FResult → Tables → Prop
  | .handle k t h, o, tb' => (o, tb') = tb.register k t h false
  | .handleOnce k t h, o, tb' => (o, tb') = tb.register k t h true
  | .handleFunc k t f, o, tb' => (o, tb') = tb.register k t (some (funcHandler f)) false
  | .handler k r, o, tb' => o = .chose (tb.choose dflt k r.header.type).1 ∧ tb' = (tb.choose dflt k r.header.type).2
  | .serve k r, o, tb' => Tables.Serves sub dflt tb k r.header.type o tb'
  | .pkgHandle t h, o, tb' => (o, tb') = tb.register 0 t h false
  | .pkgHandleOnce t h, o, tb' => (o, tb') = tb.register 0 t h true
  | .pkgHandleFunc t f, o, tb' => (o, tb') = tb.register 0 t (some (funcHandler f)) false

/-- Calls one after the other. -/
def FCall.MeetsAll (sub : Nat → Option Nat) (dflt : Handler) :
    Tables → List FCall → List FResult → Tables → Prop
  | tb, [], [], tb' => tb' = tb
  | tb, c :: cs, o :: os, tb'' => ∃ tb', FCall.Meets sub dflt tb c o tb' ∧ MeetsAll sub dflt tb' cs os tb''
  | _, _, _, _ => False

/-- Nothing is registered. -/
def noTables : Tables := fun _ _ => none

/-! ## The multiplexers implement the tables -/

/-- A map with the entries of a table. -/
structure InTable (hs : MuxMap) (f : UInt8 → Option (Handler × Bool)) : Prop where
  nodup : hs.keys.Nodup
  types : ∀ p ∈ hs, ∃ t, p.1 = .typ t
  some : ∀ t e, (.typ t, e) ∈ hs → f t = some (e.handler, e.once)
  none : ∀ t, Matcher.typ t ∉ hs.keys → f t = none

/-- All multiplexers have the entries of their tables. -/
def InTables (ms : Muxes) (tb : Tables) : Prop := ∀ k, InTable (ms k) (tb k)

theorem holdsAll_new : InTables .new noTables := fun k => by
  refine ⟨?_, ?_, ?_, ?_⟩ <;> simp [Muxes.new, MuxMap.keys, noTables]

private theorem InTables.put {ms : Muxes} {tb : Tables} (h : InTables ms tb) {k : Nat} {t : UInt8}
    {v : Option (Handler × Bool)} {hs : MuxMap} (hk : InTable hs (fun u => if u = t then v else tb k u)) :
    InTables (ms.put k hs) (tb.set k t v) := by
  intro j
  by_cases hj : j = k
  · subst hj
    have e1 : (ms.put j hs) j = hs := by simp [Muxes.put]
    have e2 : tb.set j t v j = fun u => if u = t then v else tb j u := by funext u; simp [Tables.set]
    rw [e1, e2]
    exact hk
  · have : (fun u => tb.set k t v j u) = tb j := by funext u; simp [Tables.set, hj]
    show InTable (ms.put k hs j) (fun u => tb.set k t v j u)
    rw [this]
    simpa [Muxes.put, hj] using h j

private theorem put_self (ms : Muxes) (k : Nat) : ms.put k (ms k) = ms := by
  funext j
  simp only [Muxes.put]
  split
  · rename_i h; rw [h]
  · rfl

private theorem InTable.take {hs : MuxMap} {f : UInt8 → Option (Handler × Bool)} (h : InTable hs f) (t : UInt8) :
    InTable (hs.delete (.typ t)) (fun u => if u = t then Option.none else f u) := by
  refine ⟨MuxMap.nodup_delete h.nodup _, fun p hp => ?_, fun u e he => ?_, fun u hu => ?_⟩
  · exact h.types p (List.mem_filter.mp hp).1
  · have := List.mem_filter.mp he
    have hne : u ≠ t := fun hu => by subst hu; simp at this
    simp only [hne, if_false]
    exact h.some u e this.1
  · by_cases hut : u = t
    · simp [hut]
    · simp only [hut, if_false]
      refine h.none u fun hm => hu ?_
      exact (MuxMap.keys_delete _ _ _).mpr ⟨hm, by simpa using hut⟩

private theorem InTable.insert {hs : MuxMap} {f : UInt8 → Option (Handler × Bool)} (h : InTable hs f) (t : UInt8)
    (hn : Matcher.typ t ∉ hs.keys) (e : MuxEntry) :
    InTable ((.typ t, e) :: hs) (fun u => if u = t then Option.some (e.handler, e.once) else f u) := by
  refine ⟨?_, fun p hp => ?_, fun u e' he => ?_, fun u hu => ?_⟩
  · simp only [MuxMap.keys, List.map_cons, List.nodup_cons]
    exact ⟨hn, h.nodup⟩
  · rcases List.mem_cons.mp hp with rfl | hp
    · exact ⟨t, rfl⟩
    · exact h.types p hp
  · by_cases hut : u = t
    · subst hut
      rcases List.mem_cons.mp he with he | he
      · simp only [Prod.mk.injEq, true_and] at he; subst he; simp
      · exact absurd (MuxMap.mem_keys.mpr ⟨e', he⟩) hn
    · simp only [hut, if_false]
      rcases List.mem_cons.mp he with he | he
      · simp only [Prod.mk.injEq, Matcher.typ.injEq] at he; exact absurd he.1 hut
      · exact h.some u e' he
  · have hut : u ≠ t := fun hh => hu (by simp [MuxMap.keys, hh])
    simp only [hut, if_false]
    exact h.none u fun hm => hu (by simp only [MuxMap.keys, List.map_cons, List.mem_cons]; exact .inr hm)

/-- One registration. -/
private theorem holds_register {ms : Muxes} {tb : Tables} (h : InTables ms tb) (k : Nat) (t : UInt8)
    (hd : Option Handler) (once : Bool) (id : Nat) :
    (ms.handle k t hd once id).1 = (tb.register k t hd once).1 ∧
    InTables (ms.handle k t hd once id).2 (tb.register k t hd once).2 := by
  cases hd with
  | none =>
    refine ⟨by simp [Muxes.handle, MuxMap.handleType, MuxMap.handle, FResult.of, Tables.register], ?_⟩
    simp only [Muxes.handle, MuxMap.handleType, MuxMap.handle, Tables.register, put_self]
    exact h
  | some hd =>
    by_cases hm : Matcher.typ t ∈ (ms k).keys
    · obtain ⟨e, he⟩ := MuxMap.mem_keys.mp hm
      have hs := (h k).some t e he
      refine ⟨by simp [Muxes.handle, MuxMap.handleType, MuxMap.handle, FResult.of, Tables.register, hm, hs], ?_⟩
      simp only [Muxes.handle, MuxMap.handleType, MuxMap.handle, hm, if_true, Tables.register, hs, put_self]
      exact h
    · have hs := (h k).none t hm
      refine ⟨by simp [Muxes.handle, MuxMap.handleType, MuxMap.handle, FResult.of, Tables.register, hm, hs], ?_⟩
      simp only [Muxes.handle, MuxMap.handleType, MuxMap.handle, hm, if_false, Tables.register, hs]
      exact h.put ((h k).insert t hm ⟨hd, once, id⟩)

/-- One lookup, with any iteration order. -/
private theorem holds_choose {ms : Muxes} {tb : Tables} (h : InTables ms tb) (env : Nat → MatchFn) (dflt : Handler)
    (k : Nat) (order : MuxMap) (hp : order.Perm (ms k)) (r : Request) :
    ((ms k).handler env dflt order r).1 = (tb.choose dflt k r.header.type).1 ∧
    InTables (ms.put k ((ms k).handler env dflt order r).2.1) (tb.choose dflt k r.header.type).2 ∧
    ((ms k).handler env dflt order r).2.2 = r := by
  have hn' : order.keys.Nodup := (List.Perm.map Prod.fst hp).nodup_iff.mpr (h k).nodup
  rcases typeMux_search env order (fun p hp' => (h k).types p (hp.mem_iff.mp hp')) hn' r with
    ⟨e, h1, h2⟩ | ⟨h1, h2⟩
  · have hm := hp.mem_iff.mp h1
    have hk : Matcher.typ r.header.type ∈ (ms k).keys := MuxMap.mem_keys.mpr ⟨e, hm⟩
    have hs := (h k).some _ e hm
    rcases ho : e.once with _ | _
    · refine ⟨?_, ?_, ?_⟩
      · simp [MuxMap.handler, h2, ho, Tables.choose, hs]
      · simp only [MuxMap.handler, h2, ho, Tables.choose, hs]
        simp only [Bool.false_eq_true, if_false, put_self]
        exact h
      · simp [MuxMap.handler, h2, ho]
    · refine ⟨?_, ?_, ?_⟩
      · simp [MuxMap.handler, h2, ho, Tables.choose, hs, MuxMap.take, hk]
      · simp only [MuxMap.handler, h2, ho, Tables.choose, hs, MuxMap.take, hk]
        simp only [if_true]
        exact h.put ((h k).take _)
      · simp [MuxMap.handler, h2, ho, MuxMap.take, hk]
  · have hk : Matcher.typ r.header.type ∉ (ms k).keys := fun hm => by
      obtain ⟨e, he⟩ := MuxMap.mem_keys.mp hm
      exact h1 (MuxMap.mem_keys.mpr ⟨e, hp.mem_iff.mpr he⟩)
    have hs := (h k).none _ hk
    refine ⟨?_, ?_, ?_⟩
    · simp [MuxMap.handler, h2, Tables.choose, hs]
    · simp only [MuxMap.handler, h2, Tables.choose, hs, put_self]
      exact h
    · simp [MuxMap.handler, h2]

private theorem holds_serves {env : Nat → MatchFn} {sub : Nat → Option Nat} {dflt : Handler} {ms ms' : Muxes}
    {k : Nat} {r : Request} {o : FResult} (hr : Muxes.Serves env sub dflt ms k r o ms') :
    ∀ tb, InTables ms tb → ∃ tb', Tables.Serves sub dflt tb k r.header.type o tb' ∧ InTables ms' tb' := by
  induction hr with
  | user ms k r order i hp hh hs =>
    intro tb h
    obtain ⟨h1, h2, _⟩ := holds_choose h env dflt k order hp r
    rw [hh] at h1
    refine ⟨_, .call tb k _ _ (by rw [← h1]) (fun j hj => ?_), h2⟩
    rw [← h1] at hj
    cases hj
    exact hs
  | mux ms k r order i j res ms' hp hh hs _ ih =>
    intro tb h
    obtain ⟨h1, h2, h3⟩ := holds_choose h env dflt k order hp r
    rw [hh] at h1
    obtain ⟨tb', g1, g2⟩ := ih _ h2
    rw [h3] at g1
    exact ⟨tb', .mux tb k _ i j _ _ h1.symm hs g1, g2⟩
  | discard ms k r order hp hh =>
    intro tb h
    obtain ⟨h1, h2, _⟩ := holds_choose h env dflt k order hp r
    rw [hh] at h1
    exact ⟨_, .call tb k _ _ (by rw [← h1]) (fun j hj => by rw [← h1] at hj; cases hj), h2⟩
  | nilFunc ms k r order hp hh =>
    intro tb h
    obtain ⟨h1, h2, _⟩ := holds_choose h env dflt k order hp r
    rw [hh] at h1
    exact ⟨_, .call tb k _ _ (by rw [← h1]) (fun j hj => by rw [← h1] at hj; cases hj), h2⟩

private theorem serves_holds {sub : Nat → Option Nat} {dflt : Handler} {tb tb' : Tables} {k : Nat} {t : UInt8}
    {o : FResult} (hr : Tables.Serves sub dflt tb k t o tb') (env : Nat → MatchFn) (r : Request)
    (ht : r.header.type = t) :
    ∀ ms, InTables ms tb → ∃ ms', Muxes.Serves env sub dflt ms k r o ms' ∧ InTables ms' tb' := by
  induction hr with
  | call tb k t o ho hs =>
    intro ms h
    obtain ⟨h1, h2, _⟩ := holds_choose h env dflt k (ms k) (List.Perm.refl _) r
    rw [ht] at h1 h2
    refine ⟨_, ?_, h2⟩
    rw [← h1] at ho hs
    subst ho
    rcases hc : (MuxMap.handler env dflt (ms k) (ms k) r).1 with i | _ | _
    · exact .user ms k r (ms k) i (List.Perm.refl _) hc (hs i hc)
    · exact .nilFunc ms k r (ms k) (List.Perm.refl _) hc
    · exact .discard ms k r (ms k) (List.Perm.refl _) hc
  | mux tb k t i j o tb' hc hs _ ih =>
    intro ms h
    obtain ⟨h1, h2, h3⟩ := holds_choose h env dflt k (ms k) (List.Perm.refl _) r
    rw [ht] at h1 h2
    rw [hc] at h1
    obtain ⟨ms', g1, g2⟩ := ih ht _ h2
    refine ⟨ms', .mux ms k r (ms k) i j o ms' (List.Perm.refl _) h1 hs ?_, g2⟩
    rw [h3]
    exact g1

private theorem runs_meets {env : Nat → MatchFn} {sub : Nat → Option Nat} {dflt : Handler} {ms ms' : Muxes}
    {c : FCall} {o : FResult} (hr : FCall.Runs env sub dflt ms c o ms') (tb : Tables) (h : InTables ms tb) :
    ∃ tb', FCall.Meets sub dflt tb c o tb' ∧ InTables ms' tb' := by
  have reg : ∀ k t hd once id, ∃ tb', ((ms.handle k t hd once id).1, tb') = tb.register k t hd once ∧
      InTables (ms.handle k t hd once id).2 tb' := fun k t hd once id =>
    ⟨(tb.register k t hd once).2, by rw [(holds_register h k t hd once id).1],
      (holds_register h k t hd once id).2⟩
  cases hr with
  | handle k t hd id => exact reg k t hd false id
  | handleOnce k t hd id => exact reg k t hd true id
  | handleFunc k t f id => exact reg k t _ false id
  | handler k r order hp =>
    obtain ⟨h1, h2, _⟩ := holds_choose h env dflt k order hp r
    exact ⟨_, ⟨by rw [h1], rfl⟩, h2⟩
  | serve k r res ms' hs => exact holds_serves hs tb h
  | pkgHandle t hd id => exact reg 0 t hd false id
  | pkgHandleOnce t hd id => exact reg 0 t hd true id
  | pkgHandleFunc t f id => exact reg 0 t _ false id

private theorem meets_runs {sub : Nat → Option Nat} {dflt : Handler} {tb tb' : Tables} {c : FCall} {o : FResult}
    (hm : FCall.Meets sub dflt tb c o tb') (env : Nat → MatchFn) (ms : Muxes) (h : InTables ms tb) :
    ∃ ms', FCall.Runs env sub dflt ms c o ms' ∧ InTables ms' tb' := by
  have reg : ∀ k t hd once, (o, tb') = tb.register k t hd once →
      o = (ms.handle k t hd once 0).1 ∧ InTables (ms.handle k t hd once 0).2 tb' := by
    intro k t hd once he
    obtain ⟨h1, h2⟩ := holds_register h k t hd once 0
    rw [← he] at h1 h2
    exact ⟨h1.symm, h2⟩
  cases c with
  | handle k t hd => obtain ⟨rfl, g⟩ := reg _ _ _ _ hm; exact ⟨_, .handle ms k t hd 0, g⟩
  | handleOnce k t hd => obtain ⟨rfl, g⟩ := reg _ _ _ _ hm; exact ⟨_, .handleOnce ms k t hd 0, g⟩
  | handleFunc k t f => obtain ⟨rfl, g⟩ := reg _ _ _ _ hm; exact ⟨_, .handleFunc ms k t f 0, g⟩
  | handler k r =>
    obtain ⟨rfl, rfl⟩ := hm
    obtain ⟨h1, h2, _⟩ := holds_choose h env dflt k (ms k) (List.Perm.refl _) r
    rw [← h1]
    exact ⟨_, .handler ms k r (ms k) (List.Perm.refl _), h2⟩
  | serve k r =>
    obtain ⟨ms', g1, g2⟩ := serves_holds hm env r rfl ms h
    exact ⟨ms', .serve ms k r o ms' g1, g2⟩
  | pkgHandle t hd => obtain ⟨rfl, g⟩ := reg _ _ _ _ hm; exact ⟨_, .pkgHandle ms t hd 0, g⟩
  | pkgHandleOnce t hd => obtain ⟨rfl, g⟩ := reg _ _ _ _ hm; exact ⟨_, .pkgHandleOnce ms t hd 0, g⟩
  | pkgHandleFunc t f => obtain ⟨rfl, g⟩ := reg _ _ _ _ hm; exact ⟨_, .pkgHandleFunc ms t f 0, g⟩

private theorem runsAll_meets {env : Nat → MatchFn} {sub : Nat → Option Nat} {dflt : Handler} {ms ms' : Muxes}
    {cs : List FCall} {os : List FResult} (hr : FCall.RunsAll env sub dflt ms cs os ms') :
    ∀ tb, InTables ms tb → ∃ tb', FCall.MeetsAll sub dflt tb cs os tb' ∧ InTables ms' tb' := by
  induction hr with
  | nil ms => exact fun tb h => ⟨tb, rfl, h⟩
  | cons ms c cs o os ms' ms'' h1 _ ih =>
    intro tb h
    obtain ⟨tb', g1, g2⟩ := runs_meets h1 tb h
    obtain ⟨tb'', g3, g4⟩ := ih tb' g2
    exact ⟨tb'', ⟨tb', g1, g3⟩, g4⟩

private theorem meetsAll_runs (env : Nat → MatchFn) {sub : Nat → Option Nat} {dflt : Handler} {tb' : Tables} :
    ∀ (cs : List FCall) (os : List FResult) (tb : Tables), FCall.MeetsAll sub dflt tb cs os tb' →
      ∀ ms, InTables ms tb → ∃ ms', FCall.RunsAll env sub dflt ms cs os ms'
  | [], [], _, _, ms, _ => ⟨ms, .nil ms⟩
  | c :: cs, o :: os, tb, ⟨tb1, h1, h2⟩, ms, h => by
    obtain ⟨ms', g1, g2⟩ := meets_runs h1 env ms h
    obtain ⟨ms'', g3⟩ := meetsAll_runs env cs os tb1 h2 ms' g2
    exact ⟨ms'', .cons ms c cs o os ms' ms'' g1 g3⟩

/-- C101.  What a program sees of its multiplexers, through the functions of the package, the methods of any
number of `TypeMux`es, and multiplexers that are registered in multiplexers, is what the tables say:
for every list of calls, all iteration orders of the maps, and every `DefaultHandler`. -/
theorem facade_refines (env : Nat → MatchFn) (sub : Nat → Option Nat) (dflt : Handler) (cs : List FCall)
    (os : List FResult) :
    (∃ ms, FCall.RunsAll env sub dflt .new cs os ms) ↔ ∃ tb, FCall.MeetsAll sub dflt noTables cs os tb := by
  constructor
  · rintro ⟨ms, h⟩
    obtain ⟨tb, h1, _⟩ := runsAll_meets h noTables holdsAll_new
    exact ⟨tb, h1⟩
  · rintro ⟨tb, h⟩
    exact meetsAll_runs env cs os noTables h .new holdsAll_new

/-! ## What the tables say -/

private theorem serves_unique {sub : Nat → Option Nat} {dflt : Handler} {tb tb1 : Tables} {k : Nat} {t : UInt8}
    {o1 : FResult} (h1 : Tables.Serves sub dflt tb k t o1 tb1) :
    ∀ {o2 tb2}, Tables.Serves sub dflt tb k t o2 tb2 → o1 = o2 ∧ tb1 = tb2 := by
  induction h1 with
  | call tb k t o ho hs =>
    intro o2 tb2 h2
    cases h2 with
    | call => simp_all
    | mux => rename_i i j hs' h _; rw [hs i h] at hs'; cases hs'
  | mux tb k t i j o tb' h hs _ ih =>
    intro o2 tb2 h2
    cases h2 with
    | call => rename_i hs' ho; rw [hs' i h] at hs; cases hs
    | mux =>
      rename_i i' j' hs' h' ht'
      rw [h] at h'
      cases h'
      rw [hs] at hs'
      cases hs'
      exact ih ht'

private theorem meets_unique {sub : Nat → Option Nat} {dflt : Handler} {tb tb1 tb2 : Tables} {c : FCall}
    {o1 o2 : FResult} (h1 : FCall.Meets sub dflt tb c o1 tb1) (h2 : FCall.Meets sub dflt tb c o2 tb2) :
    o1 = o2 ∧ tb1 = tb2 := by
  cases c with
  | serve k r => exact serves_unique h1 h2
  | handler k r => obtain ⟨rfl, rfl⟩ := h1; obtain ⟨rfl, rfl⟩ := h2; exact ⟨rfl, rfl⟩
  | _ => exact Prod.mk.inj ((show (o1, tb1) = _ from h1).trans (show (o2, tb2) = _ from h2).symm)

private theorem meetsAll_unique {sub : Nat → Option Nat} {dflt : Handler} {tb1 tb2 : Tables} :
    ∀ (cs : List FCall) (os1 os2 : List FResult) (tb : Tables), FCall.MeetsAll sub dflt tb cs os1 tb1 →
      FCall.MeetsAll sub dflt tb cs os2 tb2 → os1 = os2
  | [], [], [], _, _, _ => rfl
  | c :: cs, o1 :: os1, o2 :: os2, tb, ⟨a, h1, h2⟩, ⟨b, h3, h4⟩ => by
    obtain ⟨rfl, rfl⟩ := meets_unique h1 h3
    rw [meetsAll_unique cs os1 os2 a h2 h4]

/-- C101.  The results of a program do not depend on the iteration orders of the maps, nor on code of matchers
(a `TypeMux` calls none). -/
theorem facade_deterministic (env env' : Nat → MatchFn) (sub : Nat → Option Nat) (dflt : Handler)
    (cs : List FCall) (os os' : List FResult) (ms ms' : Muxes) (h : FCall.RunsAll env sub dflt .new cs os ms)
    (h' : FCall.RunsAll env' sub dflt .new cs os' ms') : os = os' := by
  obtain ⟨_, h1⟩ := (facade_refines env sub dflt cs os).mp ⟨ms, h⟩
  obtain ⟨_, h2⟩ := (facade_refines env' sub dflt cs os').mp ⟨ms', h'⟩
  exact meetsAll_unique cs os os' noTables h1 h2

/-- The same call, with the functions of the package replaced by the methods of `DefaultMux`. -/
def FCall.onDefault : FCall → FCall
  | .pkgHandle t h => .handle 0 t h
  | .pkgHandleOnce t h => .handleOnce 0 t h
  | .pkgHandleFunc t f => .handleFunc 0 t f
  | c => c

/-- C101.  The functions of the package are the methods of `DefaultMux`: a program that replaces any of them sees
the same. -/
theorem facade_default (env : Nat → MatchFn) (sub : Nat → Option Nat) (dflt : Handler) (cs : List FCall)
    (os : List FResult) :
    (∃ ms, FCall.RunsAll env sub dflt .new (cs.map FCall.onDefault) os ms) ↔
      ∃ ms, FCall.RunsAll env sub dflt .new cs os ms := by
  rw [facade_refines, facade_refines]
  have one : ∀ tb c o tb', FCall.Meets sub dflt tb (FCall.onDefault c) o tb' ↔ FCall.Meets sub dflt tb c o tb' := by
    intro tb c o tb'; cases c <;> exact Iff.rfl
  have all : ∀ (cs : List FCall) os tb tb', FCall.MeetsAll sub dflt tb (cs.map FCall.onDefault) os tb' ↔
      FCall.MeetsAll sub dflt tb cs os tb' := by
    intro cs
    induction cs with
    | nil => intro os tb tb'; exact Iff.rfl
    | cons c cs ih =>
      intro os tb tb'
      cases os with
      | nil => exact Iff.rfl
      | cons o os => simp only [List.map_cons, FCall.MeetsAll, one, ih]
  exact exists_congr fun tb => all cs os noTables tb

/-- Every call but `Serve` has a result, whatever has been called before; `Serve` has one if the handlers for
the type of the message are not multiplexers. -/
theorem facade_total (env : Nat → MatchFn) (sub : Nat → Option Nat) (dflt : Handler) (ms : Muxes) (c : FCall)
    (hc : ∀ k r, c = .serve k r →
      (∀ i, dflt = .user i → sub i = none) ∧
      ∀ m e i, (m, e) ∈ ms k → e.handler = .user i → sub i = none) :
    ∃ o ms', FCall.Runs env sub dflt ms c o ms' := by
  cases c with
  | handle k t h => exact ⟨_, _, .handle ms k t h 0⟩
  | handleOnce k t h => exact ⟨_, _, .handleOnce ms k t h 0⟩
  | handleFunc k t f => exact ⟨_, _, .handleFunc ms k t f 0⟩
  | handler k r => exact ⟨_, _, .handler ms k r (ms k) (List.Perm.refl _)⟩
  | pkgHandle t h => exact ⟨_, _, .pkgHandle ms t h 0⟩
  | pkgHandleOnce t h => exact ⟨_, _, .pkgHandleOnce ms t h 0⟩
  | pkgHandleFunc t f => exact ⟨_, _, .pkgHandleFunc ms t f 0⟩
  | serve k r =>
    obtain ⟨hd, hm⟩ := hc k r rfl
    rcases hh : ((ms k).handler env dflt (ms k) r).1 with i | _ | _
    · refine ⟨_, _, .serve ms k r _ _ (.user ms k r (ms k) i (List.Perm.refl _) hh ?_)⟩
      simp only [MuxMap.handler] at hh
      split at hh
      · exact hd i hh
      · rename_i m e r' hf
        have hmem := (MuxMap.search_some hf).1
        split at hh
        · rw [show ((ms k).take m e).1 = some e.handler from
            (MuxMap.take_iff _ _ _).mpr (MuxMap.mem_keys.mpr ⟨e, hmem⟩)] at hh
          exact hm m e i hmem hh
        · exact hm m e i hmem hh
    · exact ⟨_, _, .serve ms k r _ _ (.nilFunc ms k r (ms k) (List.Perm.refl _) hh)⟩
    · exact ⟨_, _, .serve ms k r _ _ (.discard ms k r (ms k) (List.Perm.refl _) hh)⟩

/-- C101.  Multiplexers do not know of each other: calls that concern other multiplexers do not change what one
does with a message, unless it has one of them as a handler. -/
theorem facade_independent (env : Nat → MatchFn) (sub : Nat → Option Nat) (dflt : Handler) (ms ms' : Muxes)
    (c : FCall) (o : FResult) (h : FCall.Runs env sub dflt ms c o ms') (k : Nat)
    (hk : match c with
      | .handle j .. | .handleOnce j .. | .handleFunc j .. | .handler j _ => j ≠ k
      | .serve j _ => j ≠ k ∧ ∀ i, sub i ≠ some k
      | .pkgHandle .. | .pkgHandleOnce .. | .pkgHandleFunc .. => k ≠ 0) : ms' k = ms k := by
  have put : ∀ (ms : Muxes) j hs, j ≠ k → ms.put j hs k = ms k := fun ms j hs hj => by
    simp [Muxes.put, Ne.symm hj]
  cases h with
  | handle j => exact put ms j _ hk
  | handleOnce j => exact put ms j _ hk
  | handleFunc j => exact put ms j _ hk
  | handler j => exact put ms j _ hk
  | pkgHandle => exact put ms _ _ (Ne.symm hk)
  | pkgHandleOnce => exact put ms _ _ (Ne.symm hk)
  | pkgHandleFunc => exact put ms _ _ (Ne.symm hk)
  | serve j r _ _ hs =>
    obtain ⟨h1, h2⟩ := hk
    clear put
    induction hs with
    | user ms j | discard ms j | nilFunc ms j => simp [Muxes.put, Ne.symm h1]
    | mux ms j r order i j' res ms' _ _ hs _ ih =>
      rw [ih (fun he => h2 i (by rw [hs, he]))]
      simp [Muxes.put, Ne.symm h1]

/-- C101.  A handler that is a multiplexer is asked in turn: `Serve` of the outer one does what `Serve` of the
inner one does, after what choosing the inner one has done to the outer. -/
theorem facade_nested {sub : Nat → Option Nat} {dflt : Handler} {tb : Tables} {k j : Nat} {t : UInt8} {i : Nat}
    (ht : tb k t = some (.user i, false)) (hs : sub i = some j) (o : FResult) (tb' : Tables) :
    Tables.Serves sub dflt tb k t o tb' ↔ Tables.Serves sub dflt tb j t o tb' := by
  have hc : tb.choose dflt k t = (.user i, tb) := by simp [Tables.choose, ht]
  constructor
  · intro h
    cases h with
    | call => rename_i hs' ho; rw [hs' i (by rw [hc])] at hs; cases hs
    | mux =>
      rename_i i' j' hs' h' ht'
      rw [hc] at h' ht'
      cases h'
      rw [hs] at hs'
      cases hs'
      exact ht'
  · intro h
    refine .mux tb k t i j o tb' (by rw [hc]) hs ?_
    rw [hc]
    exact h

/-- C101.  Multiplexers that are registered in a circle never finish with a message of that type: all
multiplexers of a set have as handlers for it multiplexers of the set. -/
theorem facade_circle {env : Nat → MatchFn} {sub : Nat → Option Nat} {dflt : Handler} {ms : Muxes} {tb : Tables}
    (hm : InTables ms tb) (S : Nat → Prop) (r : Request)
    (hS : ∀ k, S k → ∃ i j, tb k r.header.type = some (.user i, false) ∧ sub i = some j ∧ S j)
    (k : Nat) (hk : S k) (o : FResult) (ms' : Muxes) : ¬ FCall.Runs env sub dflt ms (.serve k r) o ms' := by
  intro h
  obtain ⟨tb', h1, _⟩ := runs_meets h tb hm
  have key : ∀ {tb₁ : Tables} {k t o tb'}, Tables.Serves sub dflt tb₁ k t o tb' → tb₁ = tb → t = r.header.type →
      S k → False := by
    intro tb₁ k t o tb' h
    induction h with
    | call tb₁ k t o ho hs' =>
      rintro rfl rfl hk
      obtain ⟨i, j, ht, hs, hj⟩ := hS k hk
      rw [hs' i (by simp [Tables.choose, ht])] at hs
      cases hs
    | mux tb₁ k t i' j' o tb' h' hs' ht' ih =>
      rintro rfl rfl hk
      obtain ⟨i, j, ht, hs, hj⟩ := hS k hk
      have hc : tb₁.choose dflt k r.header.type = (.user i, tb₁) := by simp [Tables.choose, ht]
      rw [hc] at h' ih
      cases h'
      rw [hs] at hs'
      cases hs'
      exact ih rfl rfl hj
  exact key h1 rfl rfl hk

/-! ## Cases -/

/-- A request of a type. -/
private def msg (t : UInt8) : Request :=
  { header := ⟨4, t, 8, 1⟩, body := .nil, contentLength := 0, protoMajor := 1, protoMinor := 3 }

/-- A program: the multiplexer 1 is the handler 7 of `DefaultMux` for messages of type 2, itself it has a
handler for one message. -/
example : ∃ ms, FCall.RunsAll (fun _ r => (false, r)) (fun i => if i = 7 then some 1 else none) .discard .new
    [.pkgHandle 2 (some (.user 7)), .handleOnce 1 2 (some (.user 3)), .pkgHandle 2 (some (.user 4)),
      .handle 1 3 none, .serve 0 (msg 2), .serve 0 (msg 2), .pkgHandleFunc 4 none, .serve 0 (msg 4)]
    [.returned, .returned, .panicked .duplicate, .panicked .nilHandler, .ran (some 3), .ran none, .returned,
      .nilCall] ms := by
  rw [facade_refines]
  apply Exists.intro
  refine ⟨_, rfl, _, rfl, _, rfl, _, rfl, _, .mux _ _ _ 7 1 _ _ rfl rfl (.call _ _ _ _ rfl ?_), ?_⟩
  · intro i hi; cases hi; rfl
  refine ⟨_, .mux _ _ _ 7 1 _ _ rfl rfl (.call _ _ _ _ rfl ?_), ?_⟩
  · intro i hi; cases hi
  refine ⟨_, rfl, _, .call _ _ _ _ rfl ?_, rfl⟩
  intro i hi; cases hi

/-- A multiplexer that is its own handler. -/
example (env : Nat → MatchFn) (o : FResult) (ms' : Muxes) :
    ¬ FCall.Runs env (fun _ => some 0) .discard (Muxes.new.handle 0 2 (some (.user 7)) false 0).2
      (.serve 0 (msg 2)) o ms' :=
  facade_circle (holds_register holdsAll_new 0 2 (some (.user 7)) false 0).2 (fun k => k = 0) (msg 2)
    (by rintro k rfl; exact ⟨7, 0, rfl, rfl, rfl⟩) 0 rfl o ms'

end Verif.Props
