import Verif.Spec.Outputs
import Verif.Spec.Box
/-!
# Specification of `netlab show attributes`
-/

namespace Netlab.Spec

/-- Attributes are stored at this path. -/
def attrPath (module kind : String) : List String := (if module = "" then ["attributes"] else [module, "attributes"]) ++ [kind]

/-- The name is in the list of link attributes that are not propagated to interfaces. -/
def NotPropagated (settings : List (String × Val)) (k : String) : Prop :=
  ∃ l, Val.at (.dict settings) ["attributes", "link_no_propagate"] = some (.list l) ∧ .str k ∈ l

end Netlab.Spec
