import Verif.Spec.Access
import Verif.Model.DeviceInv
/-!
# Specification vocabulary: device inventory
-/

namespace Netlab.Spec
open Netlab

/-- The name of the attribute contains `_pfx` or `_eui`. -/
def InternalPoolAttr (k : String) : Prop := "_pfx".toList <:+: k.toList ∨ "_eui".toList <:+: k.toList

end Netlab.Spec
