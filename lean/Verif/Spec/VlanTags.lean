import Verif.Spec.Vlan
import Verif.Spec.Svi
import Verif.Spec.VlanTrunk
/-!
# Vocabulary for C128
-/

namespace Netlab.Spec
open Netlab

/-- The data used when VLAN interfaces are created has the identifiers assigned to VLANs (`t` are the VLANs after
identifiers were assigned, `T` the global VLANs and `nd` a node). -/
structure TagsFrom (t : VlanTopo) (T : SvTopo) (nd : SvNode) : Prop where
  glob : ∀ v, ((T.vlans.lookup v).bind (·.id)).map Int.ofNat = (vlanAt t (none, v)).bind (·.id)
  loc : ∀ v, ((nd.vlans.lookup v).bind (·.id)).map Int.ofNat = (vlanAt t (some nd.name, v)).bind (·.id)

/-- The VLAN that name `v` means on node `n`: the global VLAN if there is one, otherwise the VLAN of the node. -/
def vlanMeant (t : VlanTopo) (n v : String) : VlanPos := vlanOwner t (some n, v)

/-- Packets of VLAN `v` are sent without a tag on the interface, or the interface is a VLAN subinterface for `v`. -/
def belongsTo (i : SvIf) (v : String) : Prop :=
  memberOfVlan i v ∨ (untaggedIn i v ∧ i.mode = some .route ∧ isMember i)

end Netlab.Spec
