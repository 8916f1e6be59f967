import Verif.Spec.Vlan
import Verif.Model.TransitReg
/-!
# Specification vocabulary: VNIs of VLANs and VRFs
-/

namespace Netlab.Spec
open Netlab

/-- The VRF has a transit VNI set by the user. -/
def StaticTransit (d : TVniDict) (vrf : String) (n : Int) : Prop := d.lookup vrf = some (.num n)

/-- A VLAN, defined globally or in a node, has a VNI set by the user. -/
def StaticVlanVni (t : VlanTopo) (n : Int) : Prop := ∃ p a, vlanAt t p = some a ∧ vniNum a = some n

end Netlab.Spec
