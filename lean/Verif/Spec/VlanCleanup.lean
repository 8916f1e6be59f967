import Verif.Spec.Svi
import Verif.Model.VlanCleanup
/-!
# Specification vocabulary: descriptions of VLAN access interfaces
-/

namespace Netlab.Spec
open Netlab

/-- `text` describes a connection from a node to its neighbors. -/
def IfText (text node : String) (ngb : List String) : Prop :=
  (ngb = [] → text = node ++ " -> stub") ∧
  (∀ x, ngb = [x] → text = node ++ " -> " ++ x) ∧
  (2 ≤ ngb.length → text = node ++ " -> [" ++ ",".intercalate ngb ++ "]")

end Netlab.Spec
