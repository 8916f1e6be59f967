import Verif.Model.VlanTrunk
/-!
# Specification vocabulary: VLAN trunks and subinterfaces
-/

namespace Netlab.Spec
open Netlab

/-- The interface was created from a VLAN in a trunk. -/
def isMember (i : SvIf) : Prop := i.kind = "vlan_member"

/-- The interface the member interface was created from: the interface attached to the parent link; when a node is attached to
the link more than once, the interfaces are numbered. -/
def parentOf (ifs : List SvIf) (i : SvIf) : Option SvIf :=
  let c := ifs.filter (fun p => p.linkindex == i.parentindex)
  c[if c.length = 1 then 0 else i.selfloop]?

/-- The member interface becomes a VLAN subinterface: a routed VLAN, or any VLAN on devices using the router model; not a loopback
VLAN interface. -/
def isSub (f : VlanFeat) (i : SvIf) : Prop :=
  isMember i ∧ i.parentindex ≠ none ∧ (f.model = .router ∨ i.attrMode = some .route)

/-- The interface is left on the node: member interfaces that are not subinterfaces are removed. -/
def isKept (f : VlanFeat) (i : SvIf) : Prop := ¬ isMember i ∨ isSub f i

instance (i : SvIf) : Decidable (isMember i) := by unfold isMember; infer_instance
instance (f : VlanFeat) (i : SvIf) : Decidable (isSub f i) := by unfold isSub; infer_instance
instance (f : VlanFeat) (i : SvIf) : Decidable (isKept f i) := by unfold isKept; infer_instance

/-- IDs of VLANs in the trunk of an interface. -/
def trunkIds (vlans : List (String × NVlan)) (i : SvIf) : List Nat :=
  (i.trunk.getD []).map (fun v => ((vlans.lookup v).bind (·.id)).getD 0)

/-- The native VLAN of the interface is routed, and has this ID. -/
def routedNative (vlans : List (String × NVlan)) (i : SvIf) (id : Nat) : Prop :=
  i.mode = some .route ∧ ∃ v d, i.nativeFlag = some v ∧ vlans.lookup v = some d ∧ d.id = some id

/-- The number of the first subinterface. -/
def firstSub (f : VlanFeat) : Nat := if f.first.getD 0 = 0 then 1 else f.first.getD 0

/-- `j` is the subinterface created from the member interface `i`: it's numbered within the parent interface, and named from the
name of the parent interface, subinterface number and VLAN ID. -/
def isSubinterface (f : VlanFeat) (ifs : List SvIf) (i j : SvIf) : Prop :=
  ∃ par pre post, parentOf ifs i = some par ∧ ifs = pre ++ i :: post ∧
    j.ifname = f.subName par.ifname
      (firstSub f + (pre.filter (fun s => decide (isSub f s) && parentOf ifs s == some par)).length) i.accessId ∧
    j.parentIfindex = some par.ifindex ∧ j.isVirtual = true

/-- `j` is the interface `i` with VLAN IDs of its trunk: these are all VLANs in the trunk apart from the VLANs that have
subinterfaces and the routed native VLAN; the trunk is removed when nothing is left. -/
def isTrunk (f : VlanFeat) (vlans : List (String × NVlan)) (ifs : List SvIf) (i j : SvIf) : Prop :=
  j.ifname = i.ifname ∧ j.isVirtual = i.isVirtual ∧ j.parentIfindex = none ∧
  (∀ v, 0 < v → (v ∈ j.trunkId.getD [] ↔ v ∈ trunkIds vlans i ∧
    (∀ s ∈ ifs, isSub f s → parentOf ifs s = some i → s.accessId ≠ some v) ∧ ¬ routedNative vlans i v)) ∧
  j.trunkId ≠ some [] ∧ (j.trunkId = none → j.trunk.getD [] = []) ∧ (j.trunkId ≠ none → j.trunk = i.trunk)

/-- The interfaces before the process. -/
structure TrunkInput (ifs : List SvIf) : Prop where
  index : (ifs.map SvIf.ifindex).Nodup
  parents : ∀ i ∈ ifs, ∀ p ∈ ifs, isMember i → i.parentindex ≠ none → p.linkindex = i.parentindex → ¬ isMember p
  fresh : ∀ i ∈ ifs, i.subifIndex = none ∧ i.parentIfindex = none ∧ i.trunkId = none
  loop : ∀ i ∈ ifs, i.loopback = true ↔ isMember i ∧ i.parentindex = none

end Netlab.Spec
