import Verif.Model.Bfd
/-!
# BFD on interfaces
-/

namespace Netlab.Spec

/-- BFD is enabled for the protocol on the interface (what the configuration templates check) -/
def BfdOn (i : BfdIntf) : Prop := ∃ v, i.proto = some v ∧ v.truthy = true

/-- BFD is enabled for an address family on the interface -/
def BfdOn4 (i : BfdIntf) : Prop := ∃ b, i.proto = some (.fams (some true) b)
def BfdOn6 (i : BfdIntf) : Prop := ∃ a, i.proto = some (.fams a (some true))

/-- The node uses the BFD module and its protocol setting enables BFD -/
def NodeBfd (n : BfdNode) : Prop := n.hasModule = true ∧ ∃ v, n.proto = some v ∧ v.truthy = true

/-- The node uses the BFD module and its protocol setting enables BFD for IPv4: `true` enables it for the
address families of the protocol -/
def NodeBfd4 (n : BfdNode) : Prop :=
  n.hasModule = true ∧ (n.proto = some (.flag true) ∧ n.v4 = true ∨ ∃ b, n.proto = some (.fams (some true) b))
def NodeBfd6 (n : BfdNode) : Prop :=
  n.hasModule = true ∧ (n.proto = some (.flag true) ∧ n.v6 = true ∨ ∃ a, n.proto = some (.fams a (some true)))

end Netlab.Spec
