import Verif.Switch
import Verif.Ofp.Fixed

/-!
# A switch that is told which events a controller wants

The other side of `ofp.AsyncConfig`, `ofp.RoleRequest` and the bitmap helpers of
ofputil/bitmap.go: what the OpenFlow 1.3.5 specification (sections 6.3.4, 7.3.9 and 7.3.10) says
a switch does with these messages of one controller.  `SwAsync` is not code of /repo; it reads
the bytes at the offsets of the specification and does not use the decoder of package ofp.
-/

namespace Verif

/-- The messages that a switch sends on its own, section 7.3.10. -/
inductive AsyncKind where
  | packetIn
  | portStatus
  | flowRemoved
  deriving DecidableEq

/-- Where the masks of a kind are in struct ofp_async_config. -/
def AsyncKind.off : AsyncKind → Nat
  | .packetIn => 8
  | .portStatus => 16
  | .flowRemoved => 24

/-- What a switch keeps about one controller: its role (1 equal, 2 master, 3 slave), the largest
generation it has seen, and for each kind of event the mask for the roles equal and master
(index 0) and for the role slave (index 1). -/
structure SwAsync where
  role : Nat
  gen : Option Nat
  mask : AsyncKind → Nat → Nat

/-- Section 6.3.4: a generation is stale if its distance from the last one, as a signed 64-bit
number, is negative. -/
def staleGen : Option Nat → Nat → Bool
  | none, _ => false
  | some c, g => decide (2 ^ 63 ≤ (g + 2 ^ 64 - c) % 2 ^ 64)

/-- A message that comes to the switch: OFPT_SET_ASYNC (28) or OFPT_ROLE_REQUEST (24).  Refused
role requests (stale, or a role that does not exist) change nothing; the errors and replies that
are sent back are left out. -/
def SwAsync.recv (s : SwAsync) (msg : Bytes) : SwAsync :=
  if numAt msg 1 1 = 28 then { s with mask := fun k i => numAt msg (k.off + 4 * i) 4 }
  else if numAt msg 1 1 = 24 then
    if numAt msg 8 4 = 1 then { s with role := 1 }
    else if (numAt msg 8 4 = 2 ∨ numAt msg 8 4 = 3) ∧ staleGen s.gen (numAt msg 16 8) = false then
      { s with role := numAt msg 8 4, gen := some (numAt msg 16 8) }
    else s
  else s

/-- Whether an event is sent to the controller: the bit of its reason in the mask of its role. -/
def SwAsync.tells (s : SwAsync) (k : AsyncKind) (reason : Nat) : Bool :=
  (s.mask k (if s.role = 3 then 1 else 0)).testBit reason

/-- What the program of the controller sends: an `ofp.AsyncConfig` (ofp/handshake.go:271-280)
whose masks are made by `Bitmap64` and the bitmap functions (ofputil/bitmap.go:8-49), or an
`ofp.RoleRequest` (ofp/handshake.go:223-238). -/
inductive AsyncCall where
  | set (packetIn packetInSlave port portSlave flow flowSlave : List UInt8)
  | role (r : RoleRequest)

/-- The request, by `NewRequest` (request.go:105-116) with `TypeSetAsync` (28) or
`TypeRoleRequest` (24), header.go:135,153. -/
def AsyncCall.request : AsyncCall → Request
  | .set a a' b b' c c' => requestOf 28 (AsyncConfig.writeTo
      ⟨bitmap64 (packetInReasonBitmap a) (packetInReasonBitmap a'),
       bitmap64 (portReasonBitmap b) (portReasonBitmap b'),
       bitmap64 (flowReasonBitmap c) (flowReasonBitmap c')⟩)
  | .role r => requestOf 24 r.writeTo

/-- One step: the program sends a request (request.go:132-174), or something happens at the
switch. -/
inductive AsyncStep where
  | call (c : AsyncCall)
  | event (k : AsyncKind) (reason : Nat)

/-- The events that the switch sends to the controller.  The switch receives what
`Request.WriteTo` (request.go:132-174) wrote. -/
def asyncRun (s : SwAsync) : List AsyncStep → List (AsyncKind × Nat)
  | [] => []
  | .call c :: l => asyncRun ((c.request.writeTo recorder []).dst.foldl SwAsync.recv s) l
  | .event k r :: l => if s.tells k r then (k, r) :: asyncRun s l else asyncRun s l

end Verif
