import Verif.Model.DeviceChecks
/-!
# Combinations of features that cannot be used on a device

The list is taken from the documentation of device caveats and from error messages.
-/

namespace Netlab.Spec
open Netlab

/-- A node with this name has an interface with this name -/
def IntfExists (t : DcTopo) (node ifname : String) : Prop := ∃ m ∈ t.nodes, m.name = node ∧ ∃ i ∈ m.intfs, i.ifname = ifname

/-- Neighbors of all interfaces are interfaces of other nodes -/
def NbrsExist (t : DcTopo) (n : DcNode) : Prop := ∀ i ∈ n.intfs, ∀ b ∈ i.nbrs, IntfExists t b.1 b.2

/-- The node is a container -/
def IsContainer (t : DcTopo) (n : DcNode) : Prop := n.provider = some "clab" ∨ n.provider = none ∧ t.provider = "clab"

/-- The SVI of a VLAN that is in an EVPN/MPLS bundle: EOS has no such interfaces. -/
def BundleSvi (n : DcNode) (i : DcIntf) : Prop :=
  "evpn" ∈ n.mods ∧ n.transport = some "mpls" ∧ ∃ v ∈ n.vlans, v.2.bundle = true ∧ i.ifname = "Vlan" ++ v.2.id.repr

/-- Two sets of settings are the same: every setting has the same value. -/
def SameSettings (a b : List (String × Val)) : Prop := ∀ k, a.lookup k = b.lookup k

/-- OSPF settings of a loopback interface that can be merged into the primary loopback: the interface is in the global routing
table and has the same OSPF settings as the primary loopback, or the only difference is that it is explicitly not passive. -/
def Mergeable (n : DcNode) (i : DcIntf) (o : List (String × Val)) : Prop :=
  i.vrf = none ∧ ∃ l, n.lo = some l ∧
    (SameSettings o l ∨ ∀ k, o.lookup k = if k = "passive" then some (.bool false) else l.lookup k)

/-- Settings of a Python dictionary have different names -/
def DcKeys (n : DcNode) : Prop :=
  (∀ l, n.lo = some l → (l.map (·.1)).Nodup) ∧ ∀ i ∈ n.intfs, ∀ o, i.ospf = some o → (o.map (·.1)).Nodup

/-- The OSPF network type of an interface -/
def ospfNetType (i : DcIntf) : Option Val := i.ospf.bind (·.lookup "network_type")

/-- Junos devices -/
def IsJunos (d : String) : Prop := d = "vsrx" ∨ d = "vmx" ∨ d = "vptx" ∨ d = "vjunos-router" ∨ d = "vjunos-switch"

/-- `text` contains `part` -/
def ContainsText (text part : String) : Prop := ∃ a b, text = a ++ part ++ b

/-- SR Linux hardware with multiple line cards -/
def SrlChassis (c : String) : Prop := c = "ixr6" ∨ c = "ixr10" ∨ c = "ixr6e" ∨ c = "ixr10e"

/-- The node uses something its device does not support. -/
inductive Unsupported (t : DcTopo) (n : DcNode) : Prop
  /-- Cisco ASA: IS-IS on point-to-point links -/
  | asaIsis (i : DcIntf) : n.device = "asav" → "isis" ∈ n.mods → i ∈ n.intfs → i.isis = some (some "point-to-point") → i.nbrs ≠ [] → Unsupported t n
  /-- FRR: STP on VLAN trunks -/
  | frrStp (i : DcIntf) : n.device = "frr" → "stp" ∈ n.mods → i ∈ n.intfs → i.type = "vlan_member" → Unsupported t n
  /-- IOSv: VRRP on BVI interfaces -/
  | iosVrrp (i : DcIntf) : n.device = "iosv" → "gateway" ∈ n.mods → i ∈ n.intfs → i.type = "svi" → i.gwProto = some "vrrp" → Unsupported t n
  /-- IOSv: VLAN 1 in a trunk -/
  | iosVlan1 (i : DcIntf) : n.device = "iosv" → "vlan" ∈ n.mods → i ∈ n.intfs → i.type = "vlan_member" → i.accessId = some 1 → Unsupported t n
  /-- IOSvL2 and IOLL2: VLANs 1002 through 1005 -/
  | iosVlans (v : String × EosVlan) : n.device = "iosvl2" ∨ n.device = "ioll2" → "vlan" ∈ n.mods → v ∈ n.vlans → 1002 ≤ v.2.id → v.2.id ≤ 1005 → Unsupported t n
  /-- Nexus OS: VLANs above 3966 -/
  | nxosVlans (v : String × EosVlan) : n.device = "nxos" → "vlan" ∈ n.mods → v ∈ n.vlans → 3967 ≤ v.2.id → Unsupported t n
  /-- Dell OS10: OSPF on SVI interfaces -/
  | dellOspf (i : DcIntf) : n.device = "dellos10" → "ospf" ∈ n.mods → (i ∈ n.intfs ∨ ∃ v ∈ n.vrfs, i ∈ v.2.ospf) → i.type = "svi" → i.ospf ≠ none → Unsupported t n
  /-- Dell OS10: anycast gateway on interfaces that are not SVIs -/
  | dellAnycast (i : DcIntf) : n.device = "dellos10" → "gateway" ∈ n.mods → "anycast" ∈ n.gateway → i ∈ n.intfs → i.type ≠ "svi" → i.gwAnycast = true → Unsupported t n
  /-- Dell OS10: VRRP on virtual networks -/
  | dellVrrp (i : DcIntf) : n.device = "dellos10" → "gateway" ∈ n.mods → "vrrp" ∈ n.gateway → i ∈ n.intfs → i.type = "svi" → i.gwVrrp = true →
      ContainsText (t.svi "dellos10") "virtual-network" → Unsupported t n
  /-- Dell OS10: PVRST on virtual networks -/
  | dellPvrst : n.device = "dellos10" → "stp" ∈ n.mods → n.stp = some "pvrst" → ContainsText (t.svi "dellos10") "virtual-network" → Unsupported t n
  /-- Dell OS10: community lists that are not standard -/
  | dellComm (c : String × Option String) : n.device = "dellos10" → "routing" ∈ n.mods → c ∈ n.communities → c.2 ≠ some "standard" → Unsupported t n
  /-- Cumulus Linux: OSPF default route in a VRF -/
  | cumVrf (v : String × DcVrf) : n.device = "cumulus" ∨ n.device = "cumulus_nvue" → "ospf" ∈ n.mods → v ∈ n.vrfs → v.2.ospfDefault = true → Unsupported t n
  /-- Cumulus NVUE: OSPFv3 -/
  | nvueOspf6 : n.device = "cumulus_nvue" → "ospf" ∈ n.mods → n.ospf6 = true → Unsupported t n
  /-- Cumulus NVUE: OSPF on additional loopback interfaces -/
  | nvueLo (i : DcIntf) (o : List (String × Val)) : n.device = "cumulus_nvue" → "ospf" ∈ n.mods → i ∈ n.intfs → i.type = "loopback" → i.ospf = some o → ¬Mergeable n i o → Unsupported t n
  /-- Cumulus NVUE: STP port priority on interfaces without VLANs, or without PVRST -/
  | nvueStp (i : DcIntf) : n.device = "cumulus_nvue" → "stp" ∈ n.mods → i ∈ n.intfs → i.stpPrio = true → (i.vlan = false ∨ t.stp ≠ some "pvrst") → Unsupported t n
  /-- Cumulus NVUE: STP port priority of trunk VLANs without PVRST -/
  | nvueTrunk (i : DcIntf) (v : String) : n.device = "cumulus_nvue" → "stp" ∈ n.mods → i ∈ n.intfs → (v, true) ∈ i.trunk → t.stp ≠ some "pvrst" → Unsupported t n
  /-- Cumulus NVUE: the native VLAN is a routed topology VLAN, and there is a bridged VLAN in the same trunk -/
  | nvueNative (i j : DcIntf) (v : String) : n.device = "cumulus_nvue" → "vlan" ∈ n.mods → i ∈ n.intfs → i.native = some v → t.vlans.lookup v = some (some "route") →
      j ∈ n.intfs → j.parent = some i.ifindex → (j.vlanMode = none ∨ j.vlanMode = some "bridge" ∨ j.vlanMode = some "irb") → Unsupported t n
  /-- EOS: routed VLANs in an EVPN/MPLS bundle -/
  | eosBundle (v : String × EosVlan) : n.device = "eos" → "evpn" ∈ n.mods → n.transport = some "mpls" → v ∈ n.vlans → v.2.bundle = true → v.2.mode ≠ "bridge" → Unsupported t n
  /-- cEOS: anycast gateway on interfaces without VLANs -/
  | eosAnycast (i : DcIntf) : n.device = "eos" → "gateway" ∈ n.mods → IsContainer t n → i ∈ n.intfs → ¬BundleSvi n i → i.gwProto = some "anycast" → i.vlan = false → Unsupported t n
  /-- cEOS: DHCP clients -/
  | eosDhcp (i : DcIntf) : n.device = "eos" → "dhcp" ∈ n.mods → IsContainer t n → i ∈ n.intfs → ¬BundleSvi n i → i.dhcpClient = true → Unsupported t n
  /-- cEOS: the serial number or MAC address cannot be set when the user maps the cEOS configuration file -/
  | eosSerial (b : String) : n.device = "eos" → (n.serial = true ∨ n.sysmac = true) → n.kind = some "ceos" → b ∈ n.binds → ContainsText b "/mnt/flash/ceos-config" → Unsupported t n
  /-- SR Linux: chassis without a license -/
  | srlLicense (c : String) : n.device = "srlinux" → n.ctype = some c → SrlChassis c → n.license = false → Unsupported t n
  /-- SR Linux: VRF route leaking without EVPN -/
  | srlLeak (v : String × DcVrf) : n.device = "srlinux" → "vrf" ∈ n.mods → "evpn" ∉ n.mods → v ∈ n.vrfs → (1 < v.2.imports ∨ 1 < v.2.exports) → Unsupported t n
  /-- SR Linux: MPLS on anything but a chassis -/
  | srlMpls : n.device = "srlinux" → ("mpls" ∈ n.mods ∨ "sr" ∈ n.mods) → (∀ c, n.ctype = some c → ¬SrlChassis c) → Unsupported t n
  /-- SR Linux: prefix filters with deny entries -/
  | srlDeny (p : String × List (Option String)) : n.device = "srlinux" → "routing" ∈ n.mods → p ∈ n.prefixes → some "deny" ∈ p.2 → Unsupported t n
  /-- Aruba CX: OSPF in more than 62 VRFs -/
  | acxVrfs : n.device = "arubacx" → "ospf" ∈ n.mods → "vrf" ∈ n.mods → 62 < n.vrfs.length → Unsupported t n
  /-- Aruba CX: MPLS on virtual devices -/
  | acxMpls : n.device = "arubacx" → "mpls" ∈ n.mods → n.provider ≠ some "external" → Unsupported t n
  /-- Linux and BIRD: static routes with indirect next hops -/
  | indirect : n.device = "linux" ∨ n.device = "bird" → false ∈ n.static → Unsupported t n
  /-- Linux containers: DHCP -/
  | linuxDhcp : n.device = "linux" → IsContainer t n → "dhcp" ∈ n.mods → Unsupported t n
  /-- Junos: EVPN together with other address families on an EBGP session -/
  | junosEvpn (b : DcNbr) : IsJunos n.device → b ∈ n.bgp → b.type = "ebgp" → b.evpn = true → (b.ipv4 = true ∨ b.ipv6 = true) → Unsupported t n
  /-- Unknown devices: containers must have a containerlab kind.  The check is also performed for other nodes of a containerlab lab. -/
  | unknownKind : n.device = "unknown" → (t.provider = "clab" ∨ n.provider = some "clab") → n.kind = none → Unsupported t n

end Netlab.Spec
