import Verif.Switch
import Verif.Spec.Structs

/-!
# How a switch compares match fields

The parameter `SwRules` of `Verif/Switch` by the OpenFlow 1.3.5 specification (sections 6.4 and
7.2.3): match fields are OXM fields, which are taken apart by `Spec.oxms` and not by the decoder of
package ofp.  Nothing of it is in /repo.  Prerequisites of fields (section 7.2.3.6) are left out.
-/

namespace Verif

/-- A packet as the tables see it: the value of each header field, by class and number, if the
packet has that field. -/
abbrev Pkt := Nat → Nat → Option Bytes

/-- Bytewise and. -/
def andB (a b : Bytes) : Bytes := List.zipWith (· &&& ·) a b

/-- The mask of a field; without mask all bits count. -/
def oxmMask (o : Spec.Oxm) : Bytes := o.mask.getD (List.replicate o.value.length 255)

/-- Section 7.2.3.5: the packet has the field, and its value agrees with that of the match in all
bits of the mask. -/
def oxmHit (p : Pkt) (o : Spec.Oxm) : Bool :=
  match p o.cls o.field with
  | none => false
  | some v => v.length == o.value.length && andB v (oxmMask o) == andB o.value (oxmMask o)

/-- A field `o'` of an entry is at least as specific as the field `o` of a description, section
6.4: the same header field, all bits of the mask of `o` are in that of `o'`, and in these bits the
values agree. -/
def oxmWithin (o' o : Spec.Oxm) : Bool :=
  o'.cls == o.cls && o'.field == o.field && o'.value.length == o.value.length &&
    (oxmMask o').length == o.value.length && (oxmMask o).length == o.value.length &&
    andB (oxmMask o) (oxmMask o') == oxmMask o && andB o'.value (oxmMask o) == andB o.value (oxmMask o)

/-- A list of fields is at least as specific as another if it has for each field of the other one
that is. -/
def oxmNarrower (a b : Bytes) : Bool :=
  match Spec.oxms b with
  | some l => l.all fun o => ((Spec.oxms a).getD []).any fun o' => oxmWithin o' o
  | none => false

/-- The rules of the specification.  What overlaps and which ports and groups are in instructions
remain parameters. -/
def oxmRules (overlap : Bytes → Bytes → Bool) (ports groups : Bytes → List Nat) : SwRules Pkt where
  narrower := oxmNarrower
  same a b := oxmNarrower a b && oxmNarrower b a
  overlap := overlap
  hit b p := match Spec.oxms b with
    | none => false
    | some l => l.all (oxmHit p)
  ports := ports
  groups := groups

end Verif
