import Verif.Ofputil

/-!
# A switch that is sent flow modifications

The other side of the helpers of ofputil/flow.go: the flow tables of a switch and what the
OpenFlow 1.3.5 specification (sections 5.2, 6.4 and 7.3.4.1) says a flow modification does to
them.  Nothing of it is in /repo.  It reads the bytes of the message at the offsets of the
specification and does not use the decoder of package ofp.
-/

namespace Verif

/-- A flow entry, section 5.2: `fields` are the match fields and `instrs` the instructions, as
they were sent.  Counters and timeouts are left out. -/
structure SwEntry where
  table : Nat
  priority : Nat
  cookie : Nat
  fields : Bytes
  instrs : Bytes
  deriving DecidableEq

/-- How a switch compares match fields with each other and with packets, and which ports and
groups it finds in instructions. -/
structure SwRules (π : Type) where
  narrower : Bytes → Bytes → Bool
  same : Bytes → Bytes → Bool
  overlap : Bytes → Bytes → Bool
  hit : Bytes → π → Bool
  ports : Bytes → List Nat
  groups : Bytes → List Nat

/-- What holds for every switch: no fields at all match every packet, and everything is at least
as narrow as that. -/
structure SwRules.Lawful {π : Type} (R : SwRules π) : Prop where
  narrower_nil : ∀ a, R.narrower a [] = true
  hit_nil : ∀ p, R.hit [] p = true

/-- Why a modification is refused, section 7.4.4. -/
inductive SwErr where
  | badMatch
  | badTable
  | overlap
  | other
  deriving DecidableEq

/-- The number of `k` bytes at an offset of a message. -/
def numAt (msg : Bytes) (off k : Nat) : Nat := getBE ((msg.drop off).take k)

/-- The match fields of a flow modification: the match begins at offset 48, its length, which
includes the first four bytes, is at offset 50. -/
def modFields (msg : Bytes) : Bytes := (msg.drop 52).take (numAt msg 50 2 - 4)

/-- The instructions, behind the match and its padding. -/
def modInstrs (msg : Bytes) : Bytes := msg.drop (48 + (numAt msg 50 2 + 7) / 8 * 8)

/-- Non-strict deletion, section 6.4: the entry is in the table (255: any), as specific as the
match or more, has the port and the group as outputs (0xffffffff: any) and the cookie under the
mask. -/
def SwRules.fits {π : Type} (R : SwRules π) (msg : Bytes) (e : SwEntry) : Bool :=
  (numAt msg 24 1 == 255 || e.table == numAt msg 24 1) && R.narrower e.fields (modFields msg) &&
  (numAt msg 36 4 == 0xffffffff || (R.ports e.instrs).contains (numAt msg 36 4)) &&
  (numAt msg 40 4 == 0xffffffff || (R.groups e.instrs).contains (numAt msg 40 4)) &&
  e.cookie &&& numAt msg 16 8 == numAt msg 8 8 &&& numAt msg 16 8

/-- A flow modification, sections 6.4 and 7.3.4.1.  Adding (command 0) replaces the entry with
the same match and priority; the flag 2 asks for a check for overlapping entries of the same
priority.  Deleting (command 3) removes all entries that fit.  The other commands are left
out: no helper sends them. -/
def SwRules.flowMod {π : Type} (R : SwRules π) (msg : Bytes) (S : List SwEntry) :
    Except SwErr (List SwEntry) :=
  if numAt msg 48 2 ≠ 1 then .error .badMatch
  else if numAt msg 25 1 = 0 then
    if numAt msg 24 1 = 255 then .error .badTable
    else if numAt msg 44 2 / 2 % 2 = 1 ∧ S.any (fun e => e.table == numAt msg 24 1 &&
        e.priority == numAt msg 30 2 && R.overlap e.fields (modFields msg)) = true then
      .error .overlap
    else .ok (S.filter (fun e => !(e.table == numAt msg 24 1 && e.priority == numAt msg 30 2 &&
        R.same e.fields (modFields msg))) ++
      [⟨numAt msg 24 1, numAt msg 30 2, numAt msg 8 8, modFields msg, modInstrs msg⟩])
  else if numAt msg 25 1 = 3 then .ok (S.filter (fun e => !R.fits msg e))
  else .error .other

/-- A switch at the end of a connection: the length of a message is in the third and fourth byte of
its header, section 7.1; refused modifications leave the tables as they are.  It stops at something
that is no message. -/
def SwRules.stream {π : Type} (R : SwRules π) : Nat → Bytes → List SwEntry → List SwEntry
  | 0, _, S => S
  | fuel + 1, b, S =>
    if numAt b 2 2 < 8 ∨ b.length < numAt b 2 2 then S
    else R.stream fuel (b.drop (numAt b 2 2)) (match R.flowMod (b.take (numAt b 2 2)) S with
      | .ok S' => S'
      | .error _ => S)

/-- The entry that handles a packet in a table, section 5.3: one of the highest priority among
those that match. -/
def SwRules.Handles {π : Type} (R : SwRules π) (S : List SwEntry) (t : Nat) (p : π)
    (e : SwEntry) : Prop :=
  e ∈ S ∧ e.table = t ∧ R.hit e.fields p = true ∧
    ∀ e' ∈ S, e'.table = t → R.hit e'.fields p = true → e'.priority ≤ e.priority

end Verif
