import Verif.Model.VlanLinks
/-!
# VLAN attributes of links: vocabulary of the properties
-/

namespace Netlab.Spec
open Netlab

/-- The VLAN is mentioned as access or native VLAN, or in the trunk. -/
def mentions (a : VlanAttr) (v : String) : Prop :=
  a.access = some v ∨ a.native = some v ∨ ∃ tr m, a.trunk = some tr ∧ (v, m) ∈ tr

/-- VLAN attributes set on the link or on one of its interfaces (by the user). -/
def OnLink (l : VLink) (a : VlanAttr) : Prop := l.vlan = some a ∨ ∃ i ∈ l.ifs, i.vlan = some a

/-- The native VLAN of an interface: set on the interface, or on the link. -/
def nativeOf (l : VLink) (i : VIf) (n : String) : Prop :=
  (∃ a, i.vlan = some a ∧ a.native = some n) ∨
    ((∀ a, i.vlan = some a → a.native = none) ∧ ∃ a, l.vlan = some a ∧ a.native = some n)

/-- The VLAN is in the trunk of an interface, or in the trunk of the link. -/
def inTrunkOf (l : VLink) (i : VIf) (v : String) : Prop :=
  (∃ a tr m, i.vlan = some a ∧ a.trunk = some tr ∧ (v, m) ∈ tr) ∨
    ∃ a tr m, l.vlan = some a ∧ a.trunk = some tr ∧ (v, m) ∈ tr

/-- The interface of the transformed link carries the VLAN. -/
def carries (i : VIf) (v : String) : Prop := ∃ a tr m, i.vlan = some a ∧ a.trunk = some tr ∧ (v, m) ∈ tr

/-- The access or native VLAN of an interface of the transformed link. -/
def untagged (i : VIf) (v : String) : Prop :=
  ∃ a, i.vlan = some a ∧ (a.access = some v ∨ (a.access = none ∧ a.native = some v))

/-- The first value that is set. -/
def firstSet : List (Option VMode) → VMode → VMode
  | [], d => d
  | some m :: _, _ => m
  | none :: r, d => firstSet r d

/-- Documented precedence of forwarding modes: interface, node VLAN, node, global VLAN, topology, `irb`. -/
def modeOf (t : VTopo) (ifMode : Option VMode) (node v : String) : VMode :=
  firstSet [ifMode, ((t.node node).vlans.lookup v).bind (·.mode), (t.node node).mode,
    (t.vlans.lookup v).bind (·.mode), t.mode] .irb

/-- All interfaces with a forwarding mode are routed, and there is one. -/
def allRouted (ifs : List VIf) : Prop := (∃ i ∈ ifs, i.fwd ≠ none) ∧ ∀ i ∈ ifs, i.fwd ≠ none → i.fwd = some .route

/-- `vlan.mode` of an interface: set on the interface or (on nodes using VLANs) on the link. -/
def modeAttr (t : VTopo) (l : VLink) (i : VIf) : Option VMode :=
  (i.vlan.bind (·.mode)).or (if (t.node i.node).aware then l.vlan.bind (·.mode) else none)

/-- `vlan.mode` of a VLAN in a trunk: set in the trunk of the interface or (on nodes using VLANs) of the link. -/
def trunkMode (t : VTopo) (l : VLink) (i : VIf) (v : String) : Option VMode :=
  ((((i.vlan.bind (·.trunk)).getD []).lookup v).getD none).or
    (if (t.node i.node).aware then (((l.vlan.bind (·.trunk)).getD []).lookup v).getD none else none)

/-- The arbitrary element of a set: an element of every non-empty set. -/
def Picks (pick : List String → Option String) : Prop := pick [] = none ∧ ∀ s, s ≠ [] → ∃ x ∈ s, pick s = some x

/-- No forwarding modes and VLAN names before the transformation. -/
def Fresh (l : VLink) : Prop := l.vlanName = none ∧ ∀ i ∈ l.ifs, i.fwd = none

end Netlab.Spec
