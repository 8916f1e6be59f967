import Verif.Model.Mpls
/-!
# Specification vocabulary for MPLS
-/

namespace Netlab.Spec

/-- LDP runs on an interface: it has an IPv4 address, it is in the global routing table, and the link does not
lead to an external network. -/
def RunsLdp (i : LdpIntf) : Prop :=
  "ipv4" ∈ i.intf.af ∧ i.intf.vrf = none ∧ i.intf.role ≠ "external"

/-- LDP is passive on an interface: no other router is expected on the link. -/
def LdpPassive (i : LdpIntf) : Prop :=
  i.intf.role = "passive" ∨ i.intf.role = "stub" ∨ i.intf.type = "stub"

/-- The value of one address family: the requested session types -/
def valTypes (d : List String) : MVal → Option (List String)
  | .flag true => some d
  | .flag false => none
  | .list l => some l

/-- The session types requested for an address family (`d`: the default types): `true` requests the default types, a
list applies to all address families of the node, a dictionary specifies them separately. -/
def sessTypes (d : List String) (nodeAf : List Afam) (s : Option MSet) (a : Afam) : Option (List String) :=
  match s with
  | none => none
  | some (.flag true) => some d
  | some (.flag false) => none
  | some (.list l) => if a ∈ nodeAf then some l else none
  | some (.dict v4 v6) =>
    match a with
    | .v4 => v4.bind (valTypes d)
    | .v6 => v6.bind (valTypes d)

/-- No empty list and no disabled address family in the setting -/
def NothingEmpty : Option MSet → Prop
  | some (.list l) => l ≠ []
  | some (.dict v4 v6) => (∀ v ∈ v4, v ≠ .flag false ∧ v ≠ .list []) ∧ (∀ v ∈ v6, v ≠ .flag false ∧ v ≠ .list [])
  | _ => True

/-- Sessions of type `t` use labels for the address family. -/
def WantsLabel (u : MplsUser) (x : MplsNode) (a : Afam) (t : String) : Prop :=
  ∃ l, sessTypes ["ibgp", "ebgp"] x.af u.bgp a = some l ∧ t ∈ l

/-- The VPN address family is enabled on the node: it is requested, and it is used by a VRF, needed on a route
reflector, or requested for EBGP sessions. -/
def WantsVpn (u : MplsUser) (x : MplsNode) (a : Afam) : Prop :=
  ∃ l, sessTypes ["ibgp"] x.af u.vpn a = some l ∧ (x.rr = true ∨ (∃ v ∈ x.vrfs, a ∈ v) ∨ "ebgp" ∈ l)

/-- 6PE is enabled on sessions of type `t`. -/
def Wants6pe (u : MplsUser) (t : String) : Prop :=
  ∃ v l, u.sixPe = some v ∧ valTypes ["ibgp"] v = some l ∧ t ∈ l

/-- What MPLS does to a BGP neighbor `n`; `remote` are the 6PE session types of other nodes -/
structure MplsNeighbor (u : MplsUser) (x : MplsNode) (remote : String → List String) (n m : MplsNgb) : Prop where
  name : m.name = n.name
  type : m.type = n.type
  ipv4 : m.ipv4 = n.ipv4
  label4 : m.label4 = true ↔ n.ipv4 ≠ none ∧ WantsLabel u x .v4 n.type
  label6 : m.label6 = true ↔ n.ipv6 ≠ none ∧ WantsLabel u x .v6 n.type
  vpnv4 : (WantsVpn u x .v4 → m.vpnv4 = n.ipv4) ∧ (¬ WantsVpn u x .v4 → m.vpnv4 = none)
  vpnv6 : (WantsVpn u x .v6 → m.vpnv6 = n.ipv4) ∧ (¬ WantsVpn u x .v6 → m.vpnv6 = none)
  sixPe : m.sixPe = true ↔ n.ipv4 ≠ none ∧ Wants6pe u n.type
  ipv6 : m.ipv6 = n.ipv6 ∨ m.ipv6 = none
  ipv6Removed : n.ipv6 ≠ none → (m.ipv6 = none ↔ n.ipv4 ≠ none ∧ Wants6pe u n.type ∧ n.type ∈ remote n.name)

end Netlab.Spec
