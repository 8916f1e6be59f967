import Verif.Model.Evpn
/-!
# Specification vocabulary for EVPN
-/

namespace Netlab.Spec

/-- The VLAN is a part of the EVPN bundle of VRF `r`. -/
def InBundle (vrfs : List EvVrf) (v : EvVlan) (r : EvVrf) : Prop :=
  r ∈ vrfs ∧ v.vrf = some r.name ∧ ∃ e b, r.evpn = some e ∧ e.bundle = some b ∧ b ≠ ""

/-- `a` is the AS number used in EVPN route targets: the first one defined for EVPN, VRFs and BGP (zero counts as
missing). -/
inductive EvpnAs (s : EvAs) : Int → Prop
  | evpn (a : Int) : s.evpn = some a → a ≠ 0 → EvpnAs s a
  | vrf (a : Int) : (∀ x, s.evpn = some x → x = 0) → s.vrf = some a → a ≠ 0 → EvpnAs s a
  | bgp (a : Int) : (∀ x, s.evpn = some x → x = 0) → (∀ x, s.vrf = some x → x = 0) → s.bgp = some a → a ≠ 0 → EvpnAs s a

/-- `evi` is the EVPN instance of a VLAN service: the configured one or the VLAN id. -/
def VlanEvi (v : EvVlan) (evi : Int) : Prop :=
  (∃ e, v.evpn = some e ∧ e.evi = some evi ∧ evi ≠ 0) ∨
  ((∀ e x, v.evpn = some e → e.evi = some x → x = 0) ∧ evi = v.id)

/-- The VLAN `w` has the attributes of an independent EVPN service built from VLAN `v`. -/
def VlanService (s : EvAs) (v w : EvVlan) : Prop :=
  ∃ a evi e, EvpnAs s a ∧ VlanEvi v evi ∧ 1 ≤ evi ∧ evi ≤ 65535 ∧ w.evpn = some e ∧ e.evi = some evi ∧
    (∀ l, (∃ f, v.evpn = some f ∧ f.imp = some l) → e.imp = some l) ∧
    (∀ l, (∃ f, v.evpn = some f ∧ f.exp = some l) → e.exp = some l) ∧
    ((∀ f, v.evpn = some f → f.imp = none) → e.imp = some [toString a ++ ":" ++ toString evi]) ∧
    ((∀ f, v.evpn = some f → f.exp = none) → e.exp = some [toString a ++ ":" ++ toString evi]) ∧
    e.rd = v.evpn.bind (·.rd) ∧ e.bundle = v.evpn.bind (·.bundle)

/-- The value set on the node or else the global value -/
def nodeOr {α : Type} (a b : Option α) (x : α) : Prop := a = some x ∨ (a = none ∧ b = some x)

/-- The VRF uses symmetric IRB on a node: it has a transit VNI or the transport (`node`, `glob`: node and global setting)
is MPLS. -/
def SymmetricIrb (node glob : Option String) (v : EvNodeVrf) : Prop :=
  (∃ e, v.evpn = some e ∧ e.transitVni = true) ∨ nodeOr node glob "mpls"

/-- The VRF can be used on the node, where `needed` tells which of the global VLANs it needs: symmetric IRB has to be
supported by the device (unless the transport is not VXLAN); asymmetric IRB has to be supported, and all needed VLANs with
EVPN attributes have to be on the node. -/
def UsableVrf (g : EvGlobal) (n : EvNode) (needed : Option String → Prop) (v : EvNodeVrf) : Prop :=
  (SymmetricIrb n.transport g.transport v ∧ (n.irb = true ∨ ∃ x, nodeOr n.transport g.transport x ∧ x ≠ "vxlan")) ∨
  (¬ SymmetricIrb n.transport g.transport v ∧ n.asymIrb = true ∧
    ∀ l ∈ g.vlans, needed l.2.1 → l.2.2 = true → l.1 ∈ n.vlans.map (·.1))

/-- The name of the VRF is a part of the name of the VRF of a VLAN. -/
def NamedLike (name : String) (vrf : Option String) : Prop :=
  ∃ a b, (vrf.getD "").toList = a ++ name.toList ++ b

end Netlab.Spec
