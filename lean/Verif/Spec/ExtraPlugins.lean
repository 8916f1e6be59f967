import Verif.Model.ExtraPlugins
import Verif.Spec.Box
/-!
# Specification of small plugins
-/

namespace Netlab.Spec

/-- An interface that can become a member of a bond: the device supports bonding, and it's a physical interface on a link between two nodes. -/
def Bondable (support : Bool) (count : Nat → Option Nat) (i : BdIntf) : Prop := support = true ∧ i.virt = false ∧ count i.linkindex = some 2

/-- A bond consists of all its members in the order of interfaces; mode, addresses and neighbors are those of the first member (the default mode is used when the first member has no mode), the
primary interface is the last member with the primary flag. -/
structure BondOf (topMode : String) (first : BdIntf) (more : List BdIntf) (b : Bond) : Prop where
  members : b.members = (first :: more).map (·.ifname)
  mode : b.mode = first.mode.getD topMode
  attrs : b.attrs = first.attrs.filter (fun a => a.1 ∈ ["ipv4", "ipv6", "vlan", "_vlan_mode", "vlan_name", "gateway"])
  nbrs : b.nbrs = first.nbrs
  primary : b.primary = (((first :: more).filter (·.primary)).getLast?).map (·.ifname)

/-- The value of a parameter after the evaluation of format strings -/
def Evaluated (ev : String → String) (v w : Val) : Prop :=
  (∀ s, v = .str s → w = .str (if '{' ∈ s.toList then ev s else s)) ∧ (v.isDict = false → (∀ s, v ≠ .str s) → w = v) ∧ (v.isDict = true → w.isDict = true)

end Netlab.Spec
