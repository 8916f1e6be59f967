import Verif.Model.Val
import Verif.Model.Nodeset
/-!
# Device quirks (`netsim/devices`)

Quirks that change the lab topology, and checks whose result depends on more than one object.
-/

namespace Netlab

/-- Truth value of a setting (`netsim/devices/__init__.py:154-155`, Python semantics) -/
def quirkTrue : Val → Bool
  | .null => false
  | .bool b => b
  | .int i => i != 0
  | .str s => s != ""
  | .list l => !l.isEmpty
  | .dict d => !d.isEmpty

/-- `netsim/devices/__init__.py:146-156` (`report_quirk`): is the quirk reported?  The argument is the value of `defaults.devices.X.warnings.Y`. -/
def quirkReported (v : Option Val) : Bool :=
  match v with
  | none => true
  | some v => quirkTrue v

/-- `netsim/devices/__init__.py:82-107` (`get_ansible_collection`): names and versions of collections from several locations; the first one wins. -/
def acGet (locations : List (List (String × String))) (c : String) : Option String := (locations.flatMap id).lookup c

/-- `netsim/devices/__init__.py:111-138` (`need_ansible_collection`): the result, the list of devices we complained about, and the number of errors.  Versions are compared as strings. -/
def acNeed (locations : List (List (String × String))) (warned : List String) (device c : String) (version : Option String) : Bool × List String × Nat :=
  match acGet locations c, version with
  | some _, none => (true, warned, 0)
  | some v, some w =>
    if w ≤ v then (true, warned, 0)
    else if warned.contains device then (false, warned, 0) else (false, device :: warned, 1)
  | none, _ => if warned.contains device then (false, warned, 0) else (false, device :: warned, 1)

/-- `netsim/devices/__init__.py:140-142` (`process_config_sw_check`): the check is performed for every node; the number of errors. -/
def acCheckAll (locations : List (List (String × String))) : List (String × String × Option String) → List String → Nat
  | [], _ => 0
  | (d, c, v) :: r, w => (acNeed locations w d c v).2.2 + acCheckAll locations r (acNeed locations w d c v).2.1

/-- An interface of a Junos device (`netsim/devices/junos.py:17-64`): original attributes (`vlan`: the VLAN mode when the interface has VLAN data; `native`: the ID of the native VLAN) and attributes
set by the quirk -/
structure JunosIntf where
  ifname : String
  mtu : Option Int := none
  vlan : Option (Option String) := none
  native : Option Int := none
  parent : String := ""
  unit : String := ""
  headerMtu : Option Int := none
  master : Bool := false
  nativeId : Option Int := none
  deriving DecidableEq, Repr

/-- `netsim/devices/junos.py:17-24` (`unit_0_trick`) -/
def junosUnit0 (i : JunosIntf) : JunosIntf := { i with ifname := i.ifname ++ ".0", parent := i.ifname, unit := "0" }

/-- `netsim/devices/junos.py:26-29` (`set_junos_mtu`) -/
def junosMtu (i : JunosIntf) (delta : Int) : JunosIntf :=
  match i.mtu with
  | some m => { i with headerMtu := some (m + delta) }
  | none => i

/-- `'.' in intf.ifname` (`netsim/devices/junos.py:37`) -/
def junosDot (s : String) : Bool := s.toList.contains '.'

/-- The first part of the loop (`netsim/devices/junos.py:37-44`) -/
def junosFirst (vlanMod : Bool) (i : JunosIntf) : JunosIntf :=
  if junosDot i.ifname then i
  else
    let j := junosMtu (junosUnit0 i) 14
    if vlanMod && j.native.isSome then { j with nativeId := j.native } else j

/-- The second part of the loop (`netsim/devices/junos.py:46-50`); the `irb` interface always has a dot at this point. -/
def junosSplit (i : JunosIntf) : JunosIntf :=
  match splitOnChar '.' i.ifname.toList with
  | p :: u :: _ => { i with parent := String.ofList p, unit := String.ofList u }
  | _ => i

/-- Names of interfaces with VLANs (`netsim/devices/junos.py:51-52`) -/
def junosBase (vlanMod : Bool) (l : List JunosIntf) : List String :=
  if vlanMod then (l.filter (fun i => i.vlan.isSome)).map (·.parent) else []

/-- VLAN parameters (`netsim/devices/junos.py:55-68`); `model` is the VLAN model of the device. -/
def junosMaster (model : String) (base : List String) (i : JunosIntf) : JunosIntf :=
  if i.unit = "0" ∧ i.parent ∈ base then
    let j := { i with master := true }
    if model = "router" then junosMtu j 22
    else if model = "l3-switch" ∧ (i.vlan = none ∨ i.vlan = some (some "route")) then junosMtu j 22
    else j
  else i

/-- `netsim/devices/junos.py:31-68` (`fix_unit_0`), interfaces of the node -/
def junosFix (vlanMod : Bool) (model : String) (l : List JunosIntf) : List JunosIntf :=
  let a := l.map (fun i => junosSplit (junosFirst vlanMod i))
  a.map (junosMaster model (junosBase vlanMod a))

/-- Interfaces in VRF OSPF data (`netsim/devices/junos.py:70-75`) -/
def junosVrfFix (l : List JunosIntf) : List JunosIntf := l.map (fun i => if junosDot i.ifname then i else junosUnit0 i)

/-- Count loopbacks in a VRF (`netsim/devices/junos.py:77-90`); interfaces are loopbacks with their VRF. -/
def junosCount (c : List (String × Nat)) (vrf : String) : List (String × Nat) :=
  match c.lookup vrf with
  | some n => setKey c vrf (n + 1)
  | none => c ++ [(vrf, 1)]

/-- `netsim/devices/junos.py:77-99` (`check_multiple_loopbacks`): VRFs reported in errors.  Interfaces are pairs of type and VRF. -/
def junosLoopbacks (loopback : Bool) (intfs : List (String × Option String)) : List String :=
  let start := if loopback then [("default", 1)] else []
  let cnt := ((intfs.filter (fun i => i.1 == "loopback")).map (fun i => i.2.getD "default")).foldl junosCount start
  (cnt.filter (fun c => decide (c.2 > 1))).map (·.1)

/-- OSPF process IDs of VRFs on ArubaCX (`netsim/devices/arubacx.py:21-31`): assigned IDs, and was there an error? -/
def acxIndex : List String → Nat → List (String × Nat) × Bool
  | [], _ => ([], false)
  | v :: r, i =>
    if i > 63 then ([], true)
    else ((v, i) :: (acxIndex r (i + 1)).1, (acxIndex r (i + 1)).2)

/-- An interface of an ArubaCX switch: MLAG peer group and VSX role (`netsim/devices/arubacx.py:60-79`) -/
structure AcxIntf where
  group : Option Int
  role : Option String := none
  deriving DecidableEq, Repr

/-- A node (`netsim/devices/arubacx.py:66-70`) -/
structure AcxNode where
  name : String
  aruba : Bool
  intfs : List AcxIntf
  deriving DecidableEq, Repr

/-- Interfaces of the other ArubaCX nodes in the same peer group (`netsim/devices/arubacx.py:66-75`) -/
def acxPeers (nodes : List AcxNode) (me : String) (g : Int) : List AcxIntf :=
  nodes.flatMap (fun n => if n.name ≠ me ∧ n.aruba = true then n.intfs.filter (fun i => i.group == some g) else [])

/-- The role of the interface: the last peer wins (`netsim/devices/arubacx.py:75-80`). -/
def acxRole (peers : List AcxIntf) (old : Option String) : Option String :=
  peers.foldl (fun _ p => some (if p.role = some "primary" then "secondary" else "primary")) old

/-- The MLAG part of ArubaCX quirks (`netsim/devices/arubacx.py:58-80`); peer group 0 is ignored. -/
def acxNode (nodes : List AcxNode) (n : AcxNode) : AcxNode :=
  { n with intfs := n.intfs.map (fun i =>
      match i.group with
      | some g => if g = 0 then i else { i with role := acxRole (acxPeers nodes n.name g) i.role }
      | none => i) }

/-- Quirks of a single node change its data in the lab topology (`netsim/devices/__init__.py:64-71`). -/
def acxStep (nodes : List AcxNode) (name : String) : List AcxNode :=
  nodes.map (fun n => if n.name = name ∧ n.aruba = true then acxNode nodes n else n)

/-- `netsim/devices/__init__.py:76-78` (`process_quirks`) for ArubaCX MLAG roles -/
def acxAll (nodes : List AcxNode) : List AcxNode := (nodes.map (·.name)).foldl acxStep nodes

/-- A trunk interface (`netsim/devices/iosvl2.py:24-34`) -/
structure TrunkIntf where
  trunk : List Nat
  access : Option Nat := none
  native : Option String := none
  deriving DecidableEq, Repr

/-- `vlan_1_tagged` (`netsim/devices/iosvl2.py:24-34`, `netsim/devices/nxos.py:24-34`): modified interface; the fake VLAN is 1002 (`fddi`) or 3967 (`fake`). -/
def vlan1Tagged (fakeId : Nat) (fakeName : String) (i : TrunkIntf) : TrunkIntf :=
  if i.trunk.contains 1 && (i.access == none || i.access == some 0) then { i with access := some fakeId, native := some fakeName } else i

/-- `check_reserved_vlans` (`netsim/devices/iosvl2.py:13-19`): the number of errors -/
def reservedVlansIos (vlans : List (String × Nat)) : Nat := (vlans.filter (fun v => decide (1002 ≤ v.2) && decide (v.2 < 1006))).length

/-- `check_reserved_vlans` (`netsim/devices/nxos.py:11-19`): the number of errors -/
def reservedVlansNxos (vlans : List (String × Nat)) : Nat := (vlans.filter (fun v => decide (v.2 > 3966))).length

/-- `netsim/devices/linux.py:16-28` (`check_routing_module`): modules of a node; `routing` are the keys of routing data. -/
def linuxModules (modules : List String) (routing : Option (List String)) : List String :=
  match routing with
  | none => modules
  | some k => if modules.contains "routing" && k == ["static"] then modules.erase "routing" else modules

/-- A VLAN on an EOS device (`netsim/devices/eos.py:16-24`): ID, is it in a bundle, mode -/
structure EosVlan where
  id : Nat
  bundle : Bool
  mode : String
  deriving DecidableEq, Repr

/-- `netsim/devices/eos.py:12-25` (`check_mlps_vlan_bundle`): remaining interfaces and the number of errors -/
def eosBundle (transport : Option String) (vlans : List EosVlan) (intfs : List String) : List String × Nat :=
  if transport = some "mpls" then
    let b := vlans.filter (·.bundle)
    (b.foldl (fun l v => l.filter (fun i => i != "Vlan" ++ v.id.repr)) intfs, (b.filter (fun v => v.mode != "bridge")).length)
  else (intfs, 0)

/-- cEOS version from the image name, and the check for MPLS support (`netsim/devices/eos.py:27-39`): is there a warning?  Versions are compared as strings. -/
def eosMplsWarning (image : String) : Bool :=
  match splitOnChar ':' image.toList with
  | _ :: v :: _ => decide (String.ofList v < "4.32.1F")
  | _ => true

/-- Quirks of unknown devices (`netsim/devices/unknown.py:24-30`): members of the `unprovisioned` group -/
def unknownMembers (members nodes : List String) : List String := nodes.foldl (fun m n => if m.contains n then m else m ++ [n]) members

/-- VRF OSPF interfaces on Cumulus NVUE (`netsim/devices/cumulus_nvue.py:80-94`): modified interfaces (name and `passive` flag), and is there a warning? -/
def nvuePassive (l : List (String × Option Bool)) : List (String × Option Bool) × Bool :=
  (l.map (fun i => if i.2 = some true then (i.1, some false) else i), l.any (fun i => i.2 == some true))

end Netlab
