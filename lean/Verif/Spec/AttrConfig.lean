import Verif.Spec.Box
import Verif.Model.Settings
/-!
# Specification vocabulary for attribute definitions and search paths
-/

namespace Netlab.Spec

/-- The attributes defined in a scope (no attributes when the scope is missing or is not a dictionary) -/
def attrsOf : Option Val → List (String × Val)
  | some (.dict d) => d
  | _ => []

/-- The first data type in a list of candidates; an attribute without a data type is `null` -/
def firstType : List (Option Val) → Val
  | [] => .null
  | some .null :: r => firstType r
  | none :: r => firstType r
  | some v :: _ => v

/-- The list stored at a path, the empty list when there is none -/
def listAt (v : Val) (q : List String) : List Val :=
  match Val.at v q with
  | some (.list l) => l
  | _ => []

/-- The source of a definition: the value of the `copy` or the `merge` request -/
def requestSource (d : List (String × Val)) : Option Val :=
  match d.lookup "copy", d.lookup "merge" with
  | some c, m => if c.truthy then some c else m.filter Val.truthy
  | none, m => m.filter Val.truthy

/-- No definition is copied from, or merged with a definition that contains a copy or merge request. -/
def NoChains (attr : List (String × Val)) : Prop :=
  ∀ ns name d s d', Val.at (.dict attr) [ns, name] = some (.dict d) → requestSource d = some (.str s) →
    Val.at (.dict attr) [s, name] = some (.dict d') → requestSource d' = none

end Netlab.Spec
