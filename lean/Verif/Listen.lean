import Verif.Serve
import Verif.Conn

/-!
# Listening and dialling: server.go:149-152 and 210-217, net.go:244-335, ofptest/server.go:40-59

Calls of package net are results: a listener or a connection, or any error.  Simplifications: addresses
and the configuration of TLS only matter to package net and are not modelled.
-/

namespace Verif

/-! ## ListenAndServe -/

/-- A call of `(srv *Server) ListenAndServe`, server.go:210-217.  `opened`: the listener of a successful
`net.Listen`, with the call of `Serve` it was given to; `result`: the error returned to the caller. -/
structure ListenCall where
  opened : Option ServeCall
  result : Option Err

/-- Before `net.Listen`, server.go:211. -/
def ListenCall.init : ListenCall := ⟨none, none⟩

/-- The steps of `(srv *Server) ListenAndServe`, server.go:210-217, of the call of `Serve` in it, and of
the connections. -/
inductive ListenCall.Step (cseq seq : Bool) (maxConns : Int) : ListenCall → ListenCall → Prop where
  /-- `net.Listen` fails, server.go:211-214 -/
  | listenErr (x e) (ho : x.opened = none) (hr : x.result = none) :
    Step cseq seq maxConns x { x with result := some e }
  /-- `net.Listen` succeeds and `Serve` is called, server.go:211, 216 -/
  | listen (x) (ho : x.opened = none) (hr : x.result = none) :
    Step cseq seq maxConns x { x with opened := some .init }
  /-- a step of `Serve` or of its connections -/
  | serve (x y y') (ho : x.opened = some y) (st : ServeCall.Step cseq seq maxConns y y') :
    Step cseq seq maxConns x { x with opened := some y' }
  /-- the result of `Serve` is returned, server.go:216 -/
  | ret (x y e) (ho : x.opened = some y) (hy : y.result = some e) (hr : x.result = none) :
    Step cseq seq maxConns x { x with result := some e }

/-- The states of a call of `ListenAndServe`. -/
inductive ListenCall.Reach (cseq seq : Bool) (maxConns : Int) : ListenCall → Prop where
  | init : Reach cseq seq maxConns .init
  | tail {x x'} (h : Reach cseq seq maxConns x) (st : Step cseq seq maxConns x x') :
    Reach cseq seq maxConns x'

/-- Some number of steps. -/
inductive ListenCall.Steps (cseq seq : Bool) (maxConns : Int) : ListenCall → ListenCall → Prop where
  | refl (x) : Steps cseq seq maxConns x x
  | tail {x y z} (h : Steps cseq seq maxConns x y) (st : Step cseq seq maxConns y z) :
    Steps cseq seq maxConns x z

/-- The fields of `Server` that `Serve` gives a default, server.go:226-239, with handlers and runners named
by numbers; nil is `none`. -/
structure ServeConf where
  handler : Option Nat
  handlerRunner : Option Nat
  connRunner : Option Nat
  deriving DecidableEq, Repr

/-- What a connection is served with, server.go:226-239 and 245: `mux` is `DefaultMux`, `demand` an
`OnDemandRoutineRunner`. -/
structure Served.Conf where
  handler : Nat
  handlerRunner : Nat
  connRunner : Nat
  deriving DecidableEq, Repr

/-- server.go:226-239. -/
def ServeConf.resolve (mux demand : Nat) (c : ServeConf) : Served.Conf :=
  let handler := match c.handler with | none => mux | some h => h
  let hr := match c.handlerRunner with | none => demand | some r => r
  let cr := match c.connRunner with | none => demand | some r => r
  ⟨handler, hr, cr⟩

/-- `ListenAndServe`, server.go:149-152: the server it makes. -/
def listenAndServeConf (handler : Option Nat) : ServeConf := ⟨handler, none, none⟩

/-! ## Dial, Listen and the listener -/

/-- The two directions of a `net.Conn`. -/
structure NetConn where
  rd : Rd
  plan : List (Option (Nat × Err))

/-- `conn`, net.go:101-113, without its timeouts: the reader and the writer of the `bufio.ReadWriter`. -/
structure FullConn where
  rd : Rd
  bw : BW

/-- `newConn`, net.go:122-128: both buffers are empty. -/
def newConn (c : NetConn) : FullConn := ⟨.buf [] none c.rd, .new c.plan⟩

/-- `Dial`, net.go:244-251, `DialTLS`, net.go:256-263, and `(l *listener) Accept`, net.go:293-300, with the
result of `net.Dial`, `tls.Dial` or `l.ln.Accept`. -/
def dial (r : Except Err NetConn) : Except Err FullConn :=
  match r with
  | .error e => .error e
  | .ok c => .ok (newConn c)

/-- `Listen`, net.go:313-325: `resolve` is the error of `net.ResolveTCPAddr`, `ln` the result of
`net.ListenTCP`. -/
def listen {α : Type} (resolve : Option Err) (ln : Except Err α) : Except Err α :=
  match resolve with
  | some e => .error e
  | none => match ln with
    | .error e => .error e
    | .ok l => .ok l

/-- `newLocalListener`, ofptest/server.go:40-59: the loop over the addresses; each is the result of its
`net.Listen`.  `.error`: the panic with the error of the last one.  `none`: the `return nil` behind
the loop. -/
def newLocalListener {α : Type} : List (Except Err α) → Option (Except Err α)
  | [] => none
  | .ok l :: _ => some (.ok l)
  | [.error e] => some (.error e)
  | .error _ :: t => newLocalListener t

end Verif
