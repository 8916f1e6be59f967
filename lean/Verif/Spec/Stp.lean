import Verif.Model.Stp
/-!
# Specification of STP settings

The port type of a layer-2 port is the first one set on the interface, derived from stub-port rules, set on the access VLAN, or set on the node.
-/

namespace Netlab.Spec

/-- Layer-2 physical port -/
def StpPort (i : StIntf α) : Prop := i.l3 = false ∧ i.virt = false

/-- Neighbors of a port: VLAN access ports have saved neighbors. -/
def StpNeighbors (i : StIntf α) : List String := i.nbrs.getD (i.saved.getD [])

/-- A port connected to hosts -/
def HostPort (t : StTopo) (i : StIntf α) : Prop :=
  ((∃ x, x ∈ i.nbrs.getD []) ∨ (∃ x, x ∈ i.saved.getD [])) ∧ ∀ x ∈ StpNeighbors i, t.roles.lookup x = some (some "host")

/-- The topology has a port type for stub ports. -/
def StubType (t : StTopo) (s : String) : Prop := t.stub = some s ∧ s ≠ "none"

/-- Port type of the access VLAN -/
def VlanType (n : StNode α) (i : StIntf α) (s : String) : Prop := ∃ a v, i.access = some a ∧ n.vlans.lookup a = some v ∧ v.portType = some s

/-- The port type of an interface without an explicit port type -/
inductive InheritedType (t : StTopo) (n : StNode α) (i : StIntf α) : Option String → Prop where
  | stub (s : String) (h : StubType t s) (hp : HostPort t i) : InheritedType t n i (some s)
  | vlan (s : String) (h : ∀ s, StubType t s → ¬ HostPort t i) (hv : VlanType n i s) : InheritedType t n i (some s)
  | node (h : ∀ s, StubType t s → ¬ HostPort t i) (hv : ∀ s, ¬ VlanType n i s) : InheritedType t n i n.portType

/-- Settings of the node are correct: the protocol is supported, the priority is a multiple of 4096, no STP on IP interfaces, unsupported
interface attributes are not used, VLAN priorities are used only with per-VLAN STP. -/
structure StpOk (f : StFeat) (t : StTopo) (n : StNode α) : Prop where
  protocol : t.protocol.getD "stp" ∈ f.protocols
  priority : ∀ p, n.priority = some p → ∃ k : Int, p = 4096 * k
  l3 : ∀ i ∈ n.intfs, i.stp = true → i.l3 = false
  enable : ∀ i ∈ n.intfs, i.stp = true → i.enable = true → f.perPort = true
  portType : ∀ i ∈ n.intfs, i.stp = true → i.portType ≠ none → f.portType = true
  vlan : ∀ v ∈ n.vlans, ∀ p, v.2.priority = some p → p ≠ 0 → t.protocol = some "pvrst"

/-- Neighbors are nodes and access VLANs are VLANs of the node. -/
def StpRefs (t : StTopo) (n : StNode α) : Prop :=
  ∀ i ∈ n.intfs, (∀ x ∈ StpNeighbors i, (t.roles.lookup x).isSome = true) ∧ ∀ a, i.access = some a → (n.vlans.lookup a).isSome = true

end Netlab.Spec
