import Verif.Ofp.Table
import Verif.Ofp.Flow
import Verif.Ofp.Packet
import Verif.Ofp.Group

/-!
# What values hold

The memory of a decoded value that depends on the input: the elements of its lists and the bytes
of its byte slices.  (Numbers, and arrays of a fixed length, are not counted.)
-/

namespace Verif

/-- The size of a list: its elements and what they hold. -/
def listSize {τ : Type} (f : τ → Nat) : List τ → Nat
  | [] => 0
  | x :: l => f x + 1 + listSize f l

/-- The bytes that an extensible match holds. -/
def XM.held (x : XM) : Nat := x.value.length + x.mask.length

/-- The extensible matches of a match. -/
def Match.held (m : Match) : Nat := listSize XM.held m.fields

/-- What an action holds: the value and the mask of a set-field action. -/
def Action.held : Action → Nat
  | .setField f => f.held
  | _ => 0

/-- What an instruction holds: its actions. -/
def Instruction.held : Instruction → Nat
  | .writeActions as => listSize Action.held as
  | .applyActions as => listSize Action.held as
  | _ => 0

/-- What a property of a table holds. -/
def TableProp.held : TableProp → Nat
  | .instructions _ ts => ts.length
  | .nextTables _ ts => ts.length
  | .writeActions _ ts => ts.length
  | .applyActions _ ts => ts.length
  | .matches xs => listSize XM.held xs
  | .wildcards xs => listSize XM.held xs
  | .writeSetField _ xs => listSize XM.held xs
  | .applySetField _ xs => listSize XM.held xs
  | .experimenter _ _ _ d => d.length

/-- What a packet-in message holds. -/
def PacketIn.held (p : PacketIn) : Nat := p.mtch.held + p.data.length

/-- What a packet-out message holds. -/
def PacketOut.held (p : PacketOut) : Nat := listSize Action.held p.actions + p.data.length

/-- What a flow modification holds. -/
def FlowMod.held (f : FlowMod) : Nat := f.mtch.held + listSize Instruction.held f.instructions

/-- What the statistics of a flow hold. -/
def FlowStats.held (f : FlowStats) : Nat := f.mtch.held + listSize Instruction.held f.instructions

/-- What the features of a table hold. -/
def TableFeatures.held (t : TableFeatures) : Nat := listSize TableProp.held t.properties

end Verif
