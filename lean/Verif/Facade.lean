import Verif.Mux

/-!
# TypeMux, DefaultMux and the functions of package openflow that use it (mux.go:165-233)

All multiplexers of a program together; they are numbered, `DefaultMux` (mux.go:211) is number 0.  One goroutine;
`Verif/MuxConc.lean` has the locks.
-/

namespace Verif

/-- The multiplexers of a program, mux.go:174-176. -/
abbrev Muxes := Nat → MuxMap

/-- `NewTypeMux`, mux.go:179-181, as often as needed. -/
def Muxes.new : Muxes := fun _ => []

/-- The multiplexer `k` is changed through its pointer, mux.go:175. -/
def Muxes.put (ms : Muxes) (k : Nat) (hs : MuxMap) : Muxes := fun j => if j = k then hs else ms j

/-- The number of `DefaultMux`, mux.go:211. -/
def defaultMux : Nat := 0

/-- What a call does, as its caller sees it. -/
inductive FResult where
  | returned
  | panicked (p : MuxPanic)
  /-- `Handler` has returned this -/
  | chose (h : Handler)
  /-- the function of this handler has been called; `none` is that of `DiscardHandler`, server.go:39 -/
  | ran (i : Option Nat)
  /-- the call of a nil function, which panics, server.go:33-35 -/
  | nilCall
  deriving DecidableEq, Repr

/-- The calls of the API. -/
inductive FCall where
  /-- `(mux *TypeMux) Handle`, mux.go:184-186 -/
  | handle (k : Nat) (t : UInt8) (h : Option Handler)
  /-- `(mux *TypeMux) HandleOnce`, mux.go:189-191 -/
  | handleOnce (k : Nat) (t : UInt8) (h : Option Handler)
  /-- `(mux *TypeMux) HandleFunc`, mux.go:194-196; `none` is a nil function -/
  | handleFunc (k : Nat) (t : UInt8) (f : Option Nat)
  /-- `(mux *TypeMux) Handler`, mux.go:199-201 -/
  | handler (k : Nat) (r : Request)
  /-- `(mux *TypeMux) Serve`, mux.go:205-207 -/
  | serve (k : Nat) (r : Request)
  /-- `Handle`, mux.go:215-217 -/
  | pkgHandle (t : UInt8) (h : Option Handler)
  /-- `HandleOnce`, mux.go:221-223 -/
  | pkgHandleOnce (t : UInt8) (h : Option Handler)
  /-- `HandleFunc`, mux.go:227-229 -/
  | pkgHandleFunc (t : UInt8) (f : Option Nat)

/-- What is seen of a registration. -/
def FResult.of : Option MuxPanic → FResult
  | none => .returned
  | some p => .panicked p

/-- `(mux *TypeMux) Handle` and `HandleOnce`, mux.go:184-191, on multiplexer `k`. -/
def Muxes.handle (ms : Muxes) (k : Nat) (t : UInt8) (h : Option Handler) (once : Bool) (id : Nat) :
    FResult × Muxes :=
  let o := (ms k).handleType t h once id
  (.of o.1, ms.put k o.2)

/-- `(mux *TypeMux) HandleFunc`, mux.go:194-196: the function becomes a `Handler`, which is never nil. -/
def Muxes.handleFunc (ms : Muxes) (k : Nat) (t : UInt8) (f : Option Nat) (id : Nat) : FResult × Muxes :=
  ms.handle k t (some (match f with | none => .nilFunc | some i => .user i)) false id

/-- `(mux *ServeMux) Serve`, mux.go:166-169, called by `(mux *TypeMux) Serve`, mux.go:205-207.  `sub i`: the handler
`i` is not a function of the user but the multiplexer of that number, which is a `Handler` too.  `dflt`
is `DefaultHandler`.  A call that does not return (because multiplexers are registered in a circle) has no
result. -/
inductive Muxes.Serves (env : Nat → MatchFn) (sub : Nat → Option Nat) (dflt : Handler) :
    Muxes → Nat → Request → FResult → Muxes → Prop where
  | user (ms : Muxes) (k : Nat) (r : Request) (order i) (hp : List.Perm order (ms k))
    (hh : ((ms k).handler env dflt order r).1 = .user i) (hs : sub i = none) :
    Serves env sub dflt ms k r (.ran (some i)) (ms.put k ((ms k).handler env dflt order r).2.1)
  | mux (ms : Muxes) (k : Nat) (r : Request) (order i j res ms') (hp : List.Perm order (ms k))
    (hh : ((ms k).handler env dflt order r).1 = .user i) (hs : sub i = some j)
    (ht : Serves env sub dflt (ms.put k ((ms k).handler env dflt order r).2.1) j
      ((ms k).handler env dflt order r).2.2 res ms') :
    Serves env sub dflt ms k r res ms'
  | discard (ms : Muxes) (k : Nat) (r : Request) (order) (hp : List.Perm order (ms k))
    (hh : ((ms k).handler env dflt order r).1 = .discard) :
    Serves env sub dflt ms k r (.ran none) (ms.put k ((ms k).handler env dflt order r).2.1)
  | nilFunc (ms : Muxes) (k : Nat) (r : Request) (order) (hp : List.Perm order (ms k))
    (hh : ((ms k).handler env dflt order r).1 = .nilFunc) :
    Serves env sub dflt ms k r .nilCall (ms.put k ((ms k).handler env dflt order r).2.1)

/-- The calls, mux.go:184-229.  `id` is the identity of a new entry. -/
inductive FCall.Runs (env : Nat → MatchFn) (sub : Nat → Option Nat) (dflt : Handler) :
    Muxes → FCall → FResult → Muxes → Prop where
  | handle (ms : Muxes) (k t h id) :
    Runs env sub dflt ms (.handle k t h) (ms.handle k t h false id).1 (ms.handle k t h false id).2
  | handleOnce (ms : Muxes) (k t h id) :
    Runs env sub dflt ms (.handleOnce k t h) (ms.handle k t h true id).1 (ms.handle k t h true id).2
  | handleFunc (ms : Muxes) (k t f id) :
    Runs env sub dflt ms (.handleFunc k t f) (ms.handleFunc k t f id).1 (ms.handleFunc k t f id).2
  | handler (ms : Muxes) (k r order) (hp : List.Perm order (ms k)) :
    Runs env sub dflt ms (.handler k r) (.chose ((ms k).handler env dflt order r).1)
      (ms.put k ((ms k).handler env dflt order r).2.1)
  | serve (ms : Muxes) (k r res ms') (h : Muxes.Serves env sub dflt ms k r res ms') :
    Runs env sub dflt ms (.serve k r) res ms'
  | pkgHandle (ms : Muxes) (t h id) :
    Runs env sub dflt ms (.pkgHandle t h) (ms.handle defaultMux t h false id).1
      (ms.handle defaultMux t h false id).2
  | pkgHandleOnce (ms : Muxes) (t h id) :
    Runs env sub dflt ms (.pkgHandleOnce t h) (ms.handle defaultMux t h true id).1
      (ms.handle defaultMux t h true id).2
  | pkgHandleFunc (ms : Muxes) (t f id) :
    Runs env sub dflt ms (.pkgHandleFunc t f) (ms.handleFunc defaultMux t f id).1
      (ms.handleFunc defaultMux t f id).2

/-- A program: calls one after the other (a panic is recovered by the caller). -/
inductive FCall.RunsAll (env : Nat → MatchFn) (sub : Nat → Option Nat) (dflt : Handler) :
    Muxes → List FCall → List FResult → Muxes → Prop where
  | nil (ms : Muxes) : RunsAll env sub dflt ms [] [] ms
  | cons (ms : Muxes) (c cs o os ms' ms'') (h : FCall.Runs env sub dflt ms c o ms')
    (ht : RunsAll env sub dflt ms' cs os ms'') : RunsAll env sub dflt ms (c :: cs) (o :: os) ms''

end Verif
