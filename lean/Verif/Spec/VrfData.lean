import Verif.Model.VrfData
import Verif.Spec.Box
/-!
# Vocabulary for C144
-/

namespace Netlab.Spec
open Netlab

/-- The VRF has a definition with at least one attribute. -/
def VrfDefined (vrfs : List (String × List (String × Val))) (v : String) : Prop := ∃ d, vrfs.lookup v = some d ∧ d ≠ []

end Netlab.Spec
