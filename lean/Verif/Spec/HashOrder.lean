import Verif.Model.Vrf

namespace Netlab.Spec

open Netlab

/-- Two dictionaries with the same content -/
def SameContent {α : Type} (a b : List (String × α)) : Prop := ∀ k, a.lookup k = b.lookup k

/-- Two descriptions of the same node: the set of VRFs used by its VLANs may be listed in a different order. -/
structure SameNode (a b : String × VrfNode) : Prop where
  name : a.1 = b.1
  bgpAs : a.2.bgpAs = b.2.bgpAs
  vrfAs : a.2.vrfAs = b.2.vrfAs
  vrfs : a.2.vrfs = b.2.vrfs
  vlanVrfs : ∀ v, v ∈ a.2.vlanVrfs ↔ v ∈ b.2.vlanVrfs

/-- Every VRF used by a VLAN of the node is defined in the node or in the topology. -/
def VrfsDefined (glob : Option VrfDict) (n : VrfNode) : Prop :=
  ∀ v ∈ n.vlanVrfs, n.vrfs.lookup v ≠ none ∨ ∃ g, glob = some g ∧ g.lookup v ≠ none

/-- The same VRFs (with the same attributes) on every node, the same sets of used identifiers, and the same number of errors; or the same fatal error -/
def SameVrfs : Except Fatal (List (String × VrfNode) × VrfSets × Nat) → Except Fatal (List (String × VrfNode) × VrfSets × Nat) → Prop
  | .ok (a, s, e), .ok (b, s', e') => a.map (·.1) = b.map (·.1) ∧ (∀ (k : Nat) x y, a[k]? = some x → b[k]? = some y → SameContent x.2.vrfs y.2.vrfs) ∧ s = s' ∧ e = e'
  | .error e, .error e' => e = e'
  | _, _ => False

end Netlab.Spec
