import Verif.Spec.Vlan
import Verif.Model.Vtep
/-!
# Vocabulary for C138
-/

namespace Netlab.Spec
open Netlab

/-- Node `n` has VLAN `w`: in its node data or on one of its interfaces -/
def NodeHasVlan (t : VlanTopo) (used : String → List String) (n w : String) : Prop :=
  w ∈ used n ∨ (vlanAt t (some n, w)).isSome

/-- The VLAN `w` in the resulting data of a node -/
def FinalVlan (m : VxNode) (w : String) (v : VxVlan) : Prop :=
  ∃ l, m.vlans = some l ∧ v ∈ l ∧ v.name = w

/-- Traffic of VLAN `w` of node `m` is flooded to the tunnel endpoint of node `k` -/
def FloodsTo (m k : VxNode) (w : String) : Prop :=
  ∃ a v, k.vtep = some a ∧ FinalVlan m w v ∧ a ∈ v.vtepList.getD []

/-- The `vni` attributes of the topology are integers or `false`, as requested by the attribute definitions -/
def VnisValid (t : VlanTopo) : Prop := ∀ p a, vlanAt t p = some a → a.vni ≠ .flag true

end Netlab.Spec
