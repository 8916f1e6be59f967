import Verif.Model.Quirks
import Verif.Model.LabHost
import Verif.Model.Box
/-!
# Device checks (`netsim/devices/*.py`)

The functions called by `process_quirks` at the end of the transformation: reported errors, and changes of
node data that are not in `Verif.Model.Quirks`.
-/

namespace Netlab

/-- Attributes of an interface used in device checks (`netsim/devices/eos.py:41-111`, `netsim/devices/cumulus_nvue.py:15-118`,
`netsim/devices/dellos10.py:11-93`, `netsim/devices/iosv.py:12-50`, `netsim/devices/asav.py:9-24`).  `isis` is the
network type of an interface running IS-IS, `vlan`: the interface has VLAN data, `native` is `_vlan_native`, `trunk` are trunk VLANs and
whether they have STP port priority, `gwAnycast` and `gwVrrp`: the interface has non-empty gateway data, `rip` is the
passive flag of an interface running RIPv2, `nbrs` are neighbors (node and interface name). -/
structure DcIntf where
  ifname : String := ""
  ifindex : Nat := 0
  type : String := "lan"
  vrf : Option String := none
  ospf : Option (List (String × Val)) := none
  isis : Option (Option String) := none
  ipv4 : Bool := false
  ipv6 : Bool := false
  vlan : Bool := false
  vlanMode : Option String := none
  accessId : Option Nat := none
  native : Option String := none
  parent : Option Nat := none
  stpPrio : Bool := false
  trunk : List (String × Bool) := []
  gwProto : Option String := none
  gwAnycast : Bool := false
  gwVrrp : Bool := false
  dhcpClient : Bool := false
  rip : Option Bool := none
  nbrs : List (String × String) := []
  deriving DecidableEq

/-- VRF data (`netsim/devices/dellos10.py:109-110`, `netsim/devices/cumulus.py:10-12`, `netsim/devices/srlinux.py:34-36`):
OSPF interfaces, is there an OSPF default route, and the number of import and export route targets -/
structure DcVrf where
  ospf : List DcIntf := []
  ospfDefault : Bool := false
  imports : Nat := 1
  exports : Nat := 1
  deriving DecidableEq

/-- A BGP neighbor (`netsim/devices/junos.py:101-105`): session type, is EVPN used, is IPv4 or IPv6 activated -/
structure DcNbr where
  type : String
  evpn : Bool := false
  ipv4 : Bool := false
  ipv6 : Bool := false
  deriving DecidableEq

/-- Attributes of a node used in device checks (the same files).  `gateway` are the gateway protocols of the node,
`ospf6` and `isis6`: the protocol is used for IPv6, `communities`: community lists with their types, `static`: static routes (does the
next hop have an interface), `prefixes`: actions of prefix filter entries, `kind`/`ctype`/`license`: containerlab settings,
`lo`: OSPF data of the primary loopback, `shared`: `vxlan._shared_vtep`. Used in `netsim/devices/eos.py:116-131` and the other device checks. -/
structure DcNode where
  name : String
  device : String
  provider : Option String := none
  mods : List String := []
  intfs : List DcIntf := []
  lo : Option (List (String × Val)) := none
  vrfs : List (String × DcVrf) := []
  vlans : List (String × EosVlan) := []
  bgp : List DcNbr := []
  ospf6 : Bool := false
  isis6 : Bool := false
  gateway : List String := []
  stp : Option String := none
  communities : List (String × Option String) := []
  transport : Option String := none
  vtep : Option String := none
  shared : Option String := none
  static : List Bool := []
  prefixes : List (String × List (Option String)) := []
  kind : Option String := none
  ctype : Option String := none
  license : Bool := false
  serial : Bool := false
  sysmac : Bool := false
  binds : List String := []
  templates : List String := []
  deriving DecidableEq

/-- Topology data used in device checks: nodes, provider, modes of VLANs (`netsim/devices/cumulus_nvue.py:60`), STP protocol
(`netsim/devices/cumulus_nvue.py:17`), and the name of SVI interfaces from device data (`netsim/devices/dellos10.py:67-68`) -/
structure DcTopo where
  nodes : List DcNode := []
  provider : String := "libvirt"
  vlans : List (String × Option String) := []
  stp : Option String := none
  svi : String → String := fun _ => "vlan{vlan}"

/-- `netsim/augment/devices.py:108-109` (`get_provider`), called with the topology -/
def dcProvider (t : DcTopo) (n : DcNode) : String := n.provider.getD t.provider

/-- A single report: an error unless the device warning is disabled (`netsim/devices/__init__.py:146-163`).  `w` are the values of
`defaults.devices.X.warnings`. -/
def dcReport (w : String → Option Val) (quirk : String) (found : Bool) : Nat := if found && quirkReported (w quirk) then 1 else 0

/-- `netsim/devices/asav.py:9-24` (`check_isis_p2p_interfaces`): the number of errors.  The remote node is found by its name. -/
def dcAsa (t : DcTopo) (n : DcNode) : Nat :=
  ((n.intfs.filter (fun i => i.isis.isSome)).flatMap (fun i =>
    i.nbrs.flatMap (fun b =>
      match t.nodes.find? (fun m => m.name == b.1) with
      | some m => (m.intfs.filter (fun r => r.ifname == b.2)).filter (fun _ => i.isis == some (some "point-to-point"))
      | none => []))).length

/-- `netsim/devices/frr.py:14-25` (`check_stp_on_trunks`) -/
def dcFrr (w : String → Option Val) (n : DcNode) : Nat := dcReport w "stp_on_trunks" (n.intfs.any (fun i => i.type == "vlan_member"))

/-- `netsim/devices/iosv.py:12-24` (`check_vrrp_bvi`): the check stops at the first problem. -/
def dcVrrpBvi (n : DcNode) : Nat := if n.intfs.any (fun i => i.gwProto == some "vrrp" && i.type == "svi") then 1 else 0

/-- `netsim/devices/iosv.py:41-50` (`vlan_1_subinterface`) -/
def dcVlan1 (w : String → Option Val) (n : DcNode) : Nat :=
  ((n.intfs.filter (fun i => !(i.type != "vlan_member" || i.accessId != some 1))).map (fun _ => dcReport w "vlan.trunk_1" true)).sum

/-- `netsim/devices/dellos10.py:10-23` (`check_vlan_ospf`) -/
def dcDellOspf (w : String → Option Val) (l : List DcIntf) : Nat :=
  dcReport w "svi_ospf" (l.any (fun i => !(i.ospf.isNone || i.type != "svi")))

/-- `netsim/devices/dellos10.py:48-60` (`check_anycast_gateways`) -/
def dcDellAnycast (w : String → Option Val) (n : DcNode) : Nat :=
  dcReport w "non_svi_anycast" (n.intfs.any (fun i => i.type != "svi" && i.gwAnycast))

/-- SVI interfaces are virtual networks (`netsim/devices/dellos10.py:68`, `netsim/devices/dellos10.py:79`) -/
def dcVirtual (t : DcTopo) (n : DcNode) : Bool := subIn "virtual-network".toList (t.svi n.device).toList

/-- `netsim/devices/dellos10.py:64-71` (`check_pvrst_on_virtual_networks`) -/
def dcDellPvrst (w : String → Option Val) (t : DcTopo) (n : DcNode) : Nat :=
  if n.stp = some "pvrst" then dcReport w "pvrst_on_virtual_networks" (dcVirtual t n) else 0

/-- `netsim/devices/dellos10.py:76-89` (`check_vrrp_on_virtual_networks`) -/
def dcDellVrrp (w : String → Option Val) (t : DcTopo) (n : DcNode) : Nat :=
  if dcVirtual t n then dcReport w "vrrp_on_virtual_networks" (n.intfs.any (fun i => i.type == "svi" && i.gwVrrp)) else 0

/-- `netsim/devices/dellos10.py:94-100` (`check_expanded_communities`) -/
def dcDellComm (w : String → Option Val) (n : DcNode) : Nat :=
  (n.communities.map (fun c => dcReport w "non-standard_communities" (c.2 != some "standard"))).sum

/-- `netsim/devices/dellos10.py:105-121` (`OS10.device_quirks`) -/
def dcDell (w : String → Option Val) (t : DcTopo) (n : DcNode) : Nat :=
  (if n.mods.contains "ospf" then dcDellOspf w n.intfs + (n.vrfs.map (fun v => dcDellOspf w v.2.ospf)).sum else 0) +
  (if n.mods.contains "gateway" then
    (if n.gateway.contains "anycast" then dcDellAnycast w n else 0) + (if n.gateway.contains "vrrp" then dcDellVrrp w t n else 0) else 0) +
  (if n.mods.contains "stp" then dcDellPvrst w t n else 0) +
  (if n.mods.contains "routing" then dcDellComm w n else 0)

/-- `netsim/devices/cumulus.py:9-15` (`check_ospf_vrf_default`) -/
def dcVrfDefault (n : DcNode) : Nat := (n.vrfs.filter (fun v => v.2.ospfDefault)).length

/-- `netsim/devices/cumulus_nvue.py:14-40` (`nvue_check_stp_features`) -/
def dcNvueStp (w : String → Option Val) (t : DcTopo) (n : DcNode) : Nat :=
  dcReport w "stp_port_priority"
    (n.intfs.any (fun i => i.stpPrio && (!i.vlan || t.stp.getD "stp" != "pvrst")) ||
     (t.stp.getD "stp" != "pvrst" && n.intfs.any (fun i => i.trunk.any (·.2))))

/-- The mode of the native VLAN (`netsim/devices/cumulus_nvue.py:60-61`): only topology VLANs are used; a VLAN that is not there
has no mode. -/
def dcNativeMode (t : DcTopo) (v : String) : Option String := (t.vlans.lookup v).getD none

/-- `netsim/devices/cumulus_nvue.py:56-73` (`nvue_check_native_routed_on_mixed_trunk`) -/
def dcNvueNative (w : String → Option Val) (t : DcTopo) (n : DcNode) : Nat :=
  ((n.intfs.filter (fun i => match i.native with | some v => dcNativeMode t v == some "route" | none => false)).flatMap (fun i =>
    (n.intfs.filter (fun j => j.parent == some i.ifindex && ["bridge", "irb"].contains (j.vlanMode.getD "irb"))).map
      (fun _ => dcReport w "native_routed_on_mixed_trunk" true))).sum

/-- Python comparison of dictionaries (the order of keys is not important; `netsim/devices/cumulus_nvue.py:106`) -/
def dictSame (a b : List (String × Val)) : Bool := a.length == b.length && a.all (fun kv => b.lookup kv.1 == some kv.2)

/-- Can the OSPF data of a loopback interface be merged with the primary loopback? (`netsim/devices/cumulus_nvue.py:105-106`) -/
def dcMerge (n : DcNode) (i : DcIntf) (o : List (String × Val)) : Bool :=
  match n.lo with
  | some l => i.vrf.isNone && (dictSame o l || dictSame o (setKey l "passive" (.bool false)))
  | none => false

/-- `netsim/devices/cumulus_nvue.py:99-118` (`nvue_merge_ospf_loopbacks`): changed interface, and is it reported in an error? -/
def dcNvueLo (n : DcNode) (i : DcIntf) : DcIntf × Bool :=
  if i.type = "loopback" then
    match i.ospf with
    | none => (i, false)
    | some o => if dcMerge n i o then ({ i with ospf := none }, false) else (i, true)
  else (i, false)

/-- Errors of `netsim/devices/cumulus_nvue.py:137-160` (`Cumulus_Nvue.device_quirks`) -/
def dcNvue (w : String → Option Val) (t : DcTopo) (n : DcNode) : Nat :=
  (if n.mods.contains "ospf" then
    dcVrfDefault n + (if n.ospf6 then 1 else 0) + dcReport w "secondary_loopback_ospf" (n.intfs.any (fun i => (dcNvueLo n i).2)) else 0) +
  (if n.mods.contains "stp" then dcNvueStp w t n else 0) +
  (if n.mods.contains "vlan" then dcNvueNative w t n else 0)

/-- `netsim/devices/cumulus_nvue.py:125-132` (`mark_shared_mlag_vtep`): nodes with different names have different data.  An empty VTEP
address is ignored. -/
def dcSharedVtep (t : DcTopo) (n : DcNode) : DcNode :=
  match n.vtep with
  | none => n
  | some v =>
    if v = "" then n
    else
      match t.nodes.find? (fun m => m.name != n.name && m.vtep == some v) with
      | some m => { n with shared := some m.name }
      | none => n

/-- Interfaces left after the EVPN/MPLS check (`netsim/devices/eos.py:12-25`, `eosBundle` in `Verif.Model.Quirks`) -/
def dcEosIntfs (n : DcNode) : List DcIntf :=
  if n.mods.contains "evpn" then
    n.intfs.filter (fun i => (eosBundle n.transport (n.vlans.map (·.2)) (n.intfs.map (·.ifname))).1.contains i.ifname)
  else n.intfs

/-- `netsim/devices/eos.py:41-57` (`check_shared_mac`): the check stops at the first problem. -/
def dcEosAnycast (t : DcTopo) (n : DcNode) (l : List DcIntf) : Nat :=
  if dcProvider t n != "clab" then 0
  else if l.any (fun i => !(i.gwProto != some "anycast") && !i.vlan) then 1 else 0

/-- `netsim/devices/eos.py:58-68` (`check_dhcp_clients`) -/
def dcEosDhcp (t : DcTopo) (n : DcNode) (l : List DcIntf) : Nat :=
  if dcProvider t n != "clab" then 0 else (l.filter (·.dhcpClient)).length

/-- The file mapped into a cEOS container (`netsim/devices/eos.py:85`) -/
def ceosFile : String := "/mnt/flash/ceos-config"

/-- The file is already mapped (`netsim/devices/eos.py:86-87`) -/
def ceosMapped (n : DcNode) : Bool := n.binds.any (fun b => subIn ceosFile.toList b.toList)

/-- `append_to_list` (`netsim/data/__init__.py:37-47`) -/
def dcAppend (l : List String) (s : String) : List String := if l.contains s then l else l ++ [s]

/-- `netsim/devices/eos.py:70-94` (`configure_ceos_attributes`): the changed node and the number of errors.  A node without
serial number and MAC address is not changed; other EOS devices get a warning. -/
def dcCeos (n : DcNode) : DcNode × Nat :=
  if !n.serial && !n.sysmac then (n, 0)
  else if n.kind != some "ceos" then (n, 0)
  else if ceosMapped n then (n, 1)
  else
    ({ n with binds := dcAppend n.binds ("clab_files/" ++ n.name ++ "/ceos-config:" ++ ceosFile),
              templates := dcAppend n.templates ("ceos-config:" ++ ceosFile) }, 0)

/-- `netsim/devices/eos.py:96-111` (`passive_stub_interfaces`), a single interface -/
def dcStub (i : DcIntf) : DcIntf :=
  match i.ospf with
  | some o => if i.type != "stub" || !i.ipv4 then i else { i with ospf := some (setKey o "network_type" (.str "point-to-point")) }
  | none => i

/-- `netsim/devices/eos.py:96-111` (`passive_stub_interfaces`), interfaces returned by `routing_protocol_interfaces`
(`netsim/modules/_routing.py:780-789`): interfaces of the node running OSPF and OSPF interfaces in VRFs -/
def dcStubs (t : DcTopo) (n : DcNode) : DcNode :=
  if dcProvider t n != "clab" then n
  else { n with intfs := n.intfs.map dcStub, vrfs := n.vrfs.map (fun v => (v.1, { v.2 with ospf := v.2.ospf.map dcStub })) }

/-- Errors of `netsim/devices/eos.py:116-131` (`EOS.device_quirks`) -/
def dcEos (t : DcTopo) (n : DcNode) : Nat :=
  (if n.mods.contains "evpn" then (eosBundle n.transport (n.vlans.map (·.2)) (n.intfs.map (·.ifname))).2 else 0) +
  (if n.mods.contains "gateway" then dcEosAnycast t n (dcEosIntfs n) else 0) +
  (if n.mods.contains "dhcp" then dcEosDhcp t n (dcEosIntfs n) else 0) +
  (dcCeos n).2

/-- Container types that need a license and can run MPLS (`netsim/devices/srlinux.py:27`) -/
def srlChassis : List String := ["ixr6", "ixr10", "ixr6e", "ixr10e"]

/-- `netsim/devices/srlinux.py:12-20` (`check_prefix_deny`): one error per prefix filter -/
def dcSrlDeny (n : DcNode) : Nat := (n.prefixes.filter (fun p => p.2.any (fun a => a == some "deny"))).length

/-- `netsim/devices/srlinux.py:25-67` (`SRLINUX.device_quirks`): the number of errors -/
def dcSrl (n : DcNode) : Nat :=
  (if srlChassis.contains (n.ctype.getD "") && !n.license then 1 else 0) +
  (if n.mods.contains "vrf" && n.vrfs.any (fun v => (decide (v.2.imports > 1) || decide (v.2.exports > 1)) && !n.mods.contains "evpn") then 1 else 0) +
  (if (n.mods.contains "mpls" || n.mods.contains "sr") && !srlChassis.contains (n.ctype.getD "") then 1 else 0) +
  (if n.mods.contains "routing" then dcSrlDeny n else 0)

/-- `netsim/devices/unknown.py:13-19` (`check_clab_device_kind`) -/
def dcUnknown (t : DcTopo) (n : DcNode) : Nat :=
  if t.provider ≠ "clab" ∧ n.provider ≠ some "clab" then 0 else if n.kind.isNone then 1 else 0

/-- `netsim/devices/_common.py:8-15` (`check_indirect_static_routes`) -/
def dcIndirect (w : String → Option Val) (n : DcNode) : Nat := (n.static.map (fun intf => dcReport w "indirect_nexthop" (!intf))).sum

/-- `netsim/devices/junos.py:101-110` (`check_evpn_ebgp`) -/
def dcJunos (w : String → Option Val) (n : DcNode) : Nat :=
  (n.bgp.map (fun b => dcReport w "evpn_ebgp" (b.type == "ebgp" && b.evpn && (b.ipv4 || b.ipv6)))).sum

/-- Errors reported for a node (`netsim/devices/__init__.py:64-71`, `netsim/devices/iosv.py:62-71`, `netsim/devices/iosvl2.py:36-44`,
`netsim/devices/nxos.py:36-42`, `netsim/devices/arubacx.py:16-55`, `netsim/devices/linux.py:33-46`, `netsim/devices/cumulus.py:20-24`, `netsim/devices/asav.py:28-32`,
`netsim/devices/frr.py:29-35`, `netsim/devices/bird.py:11-13`).  IOS-XE devices report no errors.  Loopback interfaces of Junos devices are in `junosLoopbacks`. -/
def dcErrors (w : String → Option Val) (t : DcTopo) (n : DcNode) : Nat :=
  if n.device = "asav" then if n.mods.contains "isis" then dcAsa t n else 0
  else if n.device = "frr" then if n.mods.contains "stp" then dcFrr w n else 0
  else if n.device = "iosv" then
    (if n.mods.contains "gateway" then dcVrrpBvi n else 0) + (if n.mods.contains "vlan" then dcVlan1 w n else 0)
  else if n.device = "iosvl2" then if n.mods.contains "vlan" then reservedVlansIos (n.vlans.map (fun v => (v.1, v.2.id))) else 0
  else if n.device = "ioll2" then if n.mods.contains "vlan" then reservedVlansIos (n.vlans.map (fun v => (v.1, v.2.id))) else 0
  else if n.device = "nxos" then
    if n.mods.contains "vlan" then (if quirkReported (w "vlan.range") then reservedVlansNxos (n.vlans.map (fun v => (v.1, v.2.id))) else 0) else 0
  else if n.device = "dellos10" then dcDell w t n
  else if n.device = "cumulus" then if n.mods.contains "ospf" then dcVrfDefault n else 0
  else if n.device = "cumulus_nvue" then dcNvue w t n
  else if n.device = "eos" then dcEos t n
  else if n.device = "srlinux" then dcSrl n
  else if n.device = "arubacx" then
    if n.mods.contains "ospf" && n.mods.contains "vrf" && (acxIndex (n.vrfs.map (·.1)) 2).2 then 1
    else if n.mods.contains "mpls" && n.provider.getD "" != "external" then 1 else 0
  else if n.device = "linux" then dcIndirect w n + (if dcProvider t n = "clab" then (if n.mods.contains "dhcp" then 1 else 0) else 0)
  else if n.device = "bird" then dcIndirect w n
  else if n.device = "vsrx" ∨ n.device = "vmx" ∨ n.device = "vptx" ∨ n.device = "vjunos-router" ∨ n.device = "vjunos-switch" then dcJunos w n
  else if n.device = "unknown" then dcUnknown t n
  else 0

/-- Changes of node data made by Cumulus NVUE and EOS checks (`netsim/devices/cumulus_nvue.py:137-160`, `netsim/devices/eos.py:116-131`) -/
def dcApply (t : DcTopo) (n : DcNode) : DcNode :=
  if n.device = "cumulus_nvue" then
    let n1 := if n.mods.contains "ospf" then { n with intfs := n.intfs.map (fun i => (dcNvueLo n i).1) } else n
    if n.mods.contains "vxlan" then dcSharedVtep t n1 else n1
  else if n.device = "eos" then
    let n1 := { n with intfs := dcEosIntfs n }
    let n2 := if n.mods.contains "ospf" then dcStubs t n1 else n1
    (dcCeos n2).1
  else n

/-- One step of `process_quirks` (`netsim/devices/__init__.py:76-78`): the next node sees changed data of the previous nodes. -/
def dcStep (t : DcTopo) (name : String) : DcTopo :=
  { t with nodes := t.nodes.map (fun n => if n.name = name then dcApply t n else n) }

/-- `netsim/devices/__init__.py:76-78` (`process_quirks`): changed topology -/
def dcAll (t : DcTopo) : DcTopo := (t.nodes.map (·.name)).foldl dcStep t

end Netlab
