import Verif.Switch
import Verif.Spec.Structs

/-!
# What a switch does with the instructions of a flow entry

The execution of instructions and of the action set by the OpenFlow 1.3.5 specification (sections
5.9, 5.10 and 5.11), as far as it decides to which ports a packet is sent.  The bytes are taken
apart by `Spec.instructions` and not by the decoder of package ofp.  Nothing of it is in /repo.
What groups do with a packet, and what other actions change in it, is left out.
-/

namespace Verif

/-- The port of an output action. -/
def portOf (a : Spec.Action) : Option Nat :=
  if a.name = "OFPAT_OUTPUT" then
    match a.members.lookup "port" with
    | some (.num n) => some n
    | _ => none
  else none

/-- Section 5.10: an action set has one action of each type, and one set-field action for each
field. -/
def sameKind (a b : Spec.Action) : Bool :=
  a.name == b.name && a.field.map (fun o => (o.cls, o.field)) == b.field.map (fun o => (o.cls, o.field))

/-- Writes an action to the set; it takes the place of the one of its type. -/
def setWrite (σ : List Spec.Action) (a : Spec.Action) : List Spec.Action :=
  σ.filter (fun b => !sameKind a b) ++ [a]

/-- The actions of the instructions of a name. -/
def actionsOf (name : String) (is : List Spec.Instruction) : List Spec.Action :=
  (is.filter fun i => i.name == name).flatMap (·.actions)

/-- The action set behind the instructions, section 5.9: whatever their order in the message, it
is cleared before it is written to. -/
def setAfter (is : List Spec.Instruction) (σ : List Spec.Action) : List Spec.Action :=
  (actionsOf "OFPIT_WRITE_ACTIONS" is).foldl setWrite
    (if is.any (fun i => i.name == "OFPIT_CLEAR_ACTIONS") then [] else σ)

/-- Where the action set sends a packet at the end of the pipeline, section 5.10: with a group
action the output action is ignored. -/
def setOut (σ : List Spec.Action) : List Nat :=
  if σ.any (fun a => a.name == "OFPAT_GROUP") then [] else σ.filterMap portOf

/-- The ports to which a packet is sent that comes with the action set `σ` to an entry with these
instructions, in the last table of its way: those of the applied actions, in their order, and that
of the action set. -/
def sentTo (instrs : Bytes) (σ : List Spec.Action) : Option (List Nat) :=
  (Spec.instructions instrs).map fun is =>
    (actionsOf "OFPIT_APPLY_ACTIONS" is).filterMap portOf ++ setOut (setAfter is σ)

/-- The table to which a packet is sent on. -/
def gotoOf (is : List Spec.Instruction) : Option Nat :=
  match is.find? (fun i => i.name == "OFPIT_GOTO_TABLE") with
  | some i => match i.members.lookup "table_id" with
    | some (.num n) => some n
    | _ => none
  | none => none

/-- The way of a packet through the tables, section 5.1.1: it is in table `t` with the action set
`σ`, and from there on it is sent to the ports `outs`.  In a table in which no entry handles it, it
is dropped, section 5.4; tables are only visited in ascending order. -/
inductive Walk {π : Type} (R : SwRules π) (S : List SwEntry) (p : π) :
    Nat → List Spec.Action → List Nat → Prop
  | miss (t : Nat) (σ : List Spec.Action) : (∀ e, ¬R.Handles S t p e) → Walk R S p t σ []
  | last (t : Nat) (σ : List Spec.Action) (e : SwEntry) (is : List Spec.Instruction) :
      R.Handles S t p e → Spec.instructions e.instrs = some is → gotoOf is = none →
      Walk R S p t σ ((actionsOf "OFPIT_APPLY_ACTIONS" is).filterMap portOf ++ setOut (setAfter is σ))
  | next (t t' : Nat) (σ : List Spec.Action) (e : SwEntry) (is : List Spec.Instruction)
      (outs : List Nat) :
      R.Handles S t p e → Spec.instructions e.instrs = some is → gotoOf is = some t' → t < t' →
      Walk R S p t' (setAfter is σ) outs →
      Walk R S p t σ ((actionsOf "OFPIT_APPLY_ACTIONS" is).filterMap portOf ++ outs)

end Verif
