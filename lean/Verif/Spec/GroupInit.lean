import Verif.Model.GroupInit
/-!
# Specification vocabulary for creation of groups
-/

namespace Netlab.Spec

/-- Members listed in the definition of a group -/
def ListedMembers : GiVal → List String
  | .null => []
  | .list l => l
  | .dict d => match d.members with | .list l => l | .one s => [s] | _ => []

/-- Type in the definition of a group -/
def ListedType : GiVal → Option String
  | .dict d => d.gtype
  | _ => none

/-- The definition of a group asks for its members to be created -/
def WantsMembers : GiVal → Bool
  | .dict d => d.autoCreate
  | _ => false

/-- The definition of a group is neither empty nor has a wrong list of members -/
def WellFormedGroup : GiVal → Prop
  | .null => False
  | .list _ => True
  | .dict d => d.members ≠ .bad

/-- A group in a dictionary with groups and settings -/
def GroupIn (gs : List (String × GiVal)) (g : String) (v : GiVal) : Prop := (g, v) ∈ gs ∧ giSetting g = false

/-- An object has to be created: it is a member of a topology group that creates its members, or all topology groups do that, or it is
a member of a default group that creates its members. Groups are not created. -/
def ToCreate (i : GiInput) (ty n : String) : Prop :=
  n ∉ i.topo.map (·.1) ∧ n ∉ i.dflt.map (·.1) ∧
  ∃ g v, n ∈ ListedMembers v ∧ (ListedType v).getD "node" = ty ∧
    ((GroupIn i.topo g v ∧ (i.autoCreate = true ∨ WantsMembers v = true)) ∨ (GroupIn i.dflt g v ∧ WantsMembers v = true))

/-- The member is listed in the topology group. When there is no topology group, it is listed in the default group, and it is an existing
object or a default group. -/
def MemberFrom (i : GiInput) (o : GiObjs) (g n : String) : Prop :=
  (∃ v, GroupIn i.topo g v ∧ n ∈ ListedMembers v) ∨
  (g ∉ i.topo.map (·.1) ∧ ∃ v, GroupIn i.dflt g v ∧ n ∈ ListedMembers v ∧ (n ∈ o.of ((ListedType v).getD "node") ∨ n ∈ i.dflt.map (·.1)))

/-- The type of a group comes from the topology group or from the default group -/
def HasType (i : GiInput) (g ty : String) : Prop :=
  (∃ v, GroupIn i.topo g v ∧ ListedType v = some ty) ∨
  ((∀ v, GroupIn i.topo g v → ListedType v = none) ∧ ∃ v, GroupIn i.dflt g v ∧ ListedType v = some ty)

/-- Members of a group -/
def MembersOf (gs : List (String × GiFull)) (g : String) : List String := ((gs.lookup g).map (·.members)).getD []

end Netlab.Spec
