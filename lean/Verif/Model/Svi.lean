import Verif.Model.VlanLinks
import Verif.Model.Links
import Verif.Model.Box
/-!
# VLAN interfaces

Creation of VLAN (SVI) interfaces and VLAN-wide neighbor lists after the links have been transformed
(`netsim/modules/vlan.py`).

Simplifications:

* addresses are opaque strings (an unnumbered interface has a special one), interface attributes that are not used by these
  functions are not modelled;
* VLAN attributes other than the VLAN ID, mode, bridge group, addresses and gateway are not modelled;
* the neighbor lists of VLANs are only read after all of them have been built; that's why the creation of interfaces returns
  a list of updates.
-/

namespace Netlab

/-- An entry in a neighbor list: `netsim/modules/vlan.py:769-775`, `netsim/augment/links.py:869-881`. -/
structure SvNgb where
  node : String
  ifname : String
  ip4 : Option String := none
  ip6 : Option String := none
deriving DecidableEq, Repr

/-- An interface of a node: `netsim/modules/vlan.py:821-913`. -/
structure SvIf where
  ifindex : Int
  ifname : String
  /-- `type` -/
  kind : String
  /-- `vlan.access` -/
  access : Option String := none
  /-- `vlan.native` -/
  native : Option String := none
  /-- `vlan.mode` -/
  attrMode : Option VMode := none
  /-- `vlan.trunk` -/
  trunk : Option (List String) := none
  /-- `vlan.trunk_id` -/
  trunkId : Option (List Nat) := none
  /-- `vlan.access_id` -/
  accessId : Option Nat := none
  /-- `vlan.name` -/
  vname : Option String := none
  /-- `vlan.routed_link` -/
  routedLink : Bool := false
  /-- `_vlan_mode` -/
  mode : Option VMode := none
  /-- `_vlan_native` -/
  nativeFlag : Option String := none
  /-- `vlan_name` -/
  vlanName : Option String := none
  ip4 : Option String := none
  ip6 : Option String := none
  gateway : Option String := none
  role : Option String := none
  neighbors : List SvNgb := []
  /-- `_vlan_saved_neighbors` -/
  saved : Option (List SvNgb) := none
  isVirtual : Bool := false
  linkindex : Option Nat := none
  /-- `parentindex` if it's the index of a link -/
  parentindex : Option Nat := none
  /-- `parentindex` is `loopback` -/
  loopback : Bool := false
  /-- `_selfloop_ifindex` -/
  selfloop : Nat := 0
  /-- `subif_index` -/
  subifIndex : Option Nat := none
  parentIfindex : Option Int := none
deriving DecidableEq, Repr

/-- A VLAN of a node or the topology: `netsim/modules/vlan.py:486-505`, `780-801`. -/
structure NVlan where
  id : Option Nat := none
  mode : Option VMode := none
  /-- `bridge_group` -/
  bg : Option Nat := none
  ip4 : Option String := none
  ip6 : Option String := none
  gateway : Option String := none
  /-- `_global_merge` -/
  merged : Bool := false
deriving DecidableEq, Repr

/-- The part of the topology used by these functions: `netsim/modules/vlan.py:780-801`. -/
structure SvTopo where
  /-- `vlans` -/
  vlans : List (String × NVlan) := []
  /-- `vlan.mode` -/
  mode : Option VMode := none

/-- A node: `netsim/modules/vlan.py:780-913`. -/
structure SvNode where
  name : String
  /-- `role` is `host` -/
  isHost : Bool := false
  /-- `'vlan' in module` -/
  aware : Bool := true
  ifs : List SvIf := []
  /-- `vlans` -/
  vlans : List (String × NVlan) := []
  /-- `vlan.max_bridge_group` -/
  bgMax : Nat := 0
  /-- `vlan.mode` -/
  mode : Option VMode := none
  /-- `svi_interface_name` in device features: VLAN ID, bridge group and interface name -/
  sviName : Option (Option Nat → Option Nat → String → String) := none

/-- Reasons for aborting the creation of interfaces: `netsim/modules/vlan.py:546`, `788`, `862-867`,
`netsim/augment/links.py:220`.  (Running out of interface indices is reported as an error in the code, the process is stopped
later.) -/
inductive SvAbort
  | noMode
  | unknownVlan
  | noSvi
  | noIndex
deriving DecidableEq, Repr

/-- `populate_node_vlan`, `netsim/modules/vlan.py:486-505`. -/
def populateVlan (t : SvTopo) (nodeMode : Option VMode) (g n : NVlan) : NVlan :=
  if n.merged then n
  else {
    id := n.id.or g.id
    mode := some ((((n.mode.or nodeMode).or g.mode).or t.mode).getD .irb)
    bg := n.bg.or g.bg
    ip4 := n.ip4.or g.ip4
    ip6 := n.ip6.or g.ip6
    gateway := n.gateway.or g.gateway
    merged := true }

/-- `populate_node_vlan_data`, `netsim/modules/vlan.py:1170-1175`. -/
def populateAll (t : SvTopo) (nd : SvNode) : List (String × NVlan) :=
  nd.vlans.map (fun p => (p.1, populateVlan t nd.mode ((t.vlans.lookup p.1).getD {}) p.2))

/-- The bridge group of a VLAN: `netsim/modules/vlan.py:794-799`. -/
def setBridgeGroup (bgMax : Nat) (v : NVlan) : NVlan × Nat :=
  if v.bg.isSome then (v, bgMax) else ({ v with bg := some (bgMax + 1) }, bgMax + 1)

/-- `create_node_vlan`, `netsim/modules/vlan.py:780-801`: the VLAN, VLANs of the node and the last bridge group. -/
def createNodeVlan (t : SvTopo) (nodeMode : Option VMode) (vlans : List (String × NVlan)) (bgMax : Nat) (v : String) :
    Option (NVlan × List (String × NVlan) × Nat) :=
  if (vlans.lookup v).isNone && (t.vlans.lookup v).isNone then none
  else
    let x := setBridgeGroup bgMax (populateVlan t nodeMode ((t.vlans.lookup v).getD {}) ((vlans.lookup v).getD {}))
    some (x.1, setKey vlans v x.1, x.2)

/-- A routed VLAN interface: `netsim/modules/vlan.py:839-858`.  VLAN attributes are merged with the attributes of the
interface. -/
def routedIf (vd : NVlan) (v : String) (i : SvIf) : SvIf :=
  let j := { i with
    access := none
    native := none
    ip4 := i.ip4.or vd.ip4
    ip6 := i.ip6.or vd.ip6
    gateway := i.gateway.or vd.gateway }
  if i.kind = "vlan_member" then { j with
    attrMode := some .route
    accessId := vd.id
    vname := some v }
  else { j with
    mode := some .route
    nativeFlag := i.native.or i.nativeFlag }

/-- The interface in a VLAN after VLAN interface has been created: `netsim/modules/vlan.py:904-911`.  Only attributes of physical
interfaces (`phy_ifattr` in `netsim/modules/vlan.yml:47-60`) are left. -/
def physIf (vd : NVlan) (i : SvIf) : SvIf :=
  { i with
    accessId := vd.id
    mode := none
    nativeFlag := none
    vlanName := none
    ip4 := none
    ip6 := none
    gateway := none
    role := none
    neighbors := []
    saved := some i.neighbors
    subifIndex := none
    parentIfindex := none }

/-- The VLAN mode used to copy addresses: `netsim/modules/vlan.py:871`. -/
def sviMode (vd : NVlan) (i : SvIf) : Option VMode := i.attrMode.or vd.mode

/-- The VLAN interface: `netsim/modules/vlan.py:870-896`.  Addresses and gateway are copied from the interface (addresses in
`bridge` mode: from the VLAN, because only the attributes copied from the interface are skipped in the second step); the VLAN
mode is finally replaced with the mode of the VLAN. -/
def mkSvi (fmt : Option Nat → Option Nat → String → String) (vd : NVlan) (v : String) (i : SvIf) (idx : Int) : SvIf :=
  { ifindex := idx
    ifname := fmt vd.id vd.bg i.ifname
    kind := "svi"
    attrMode := vd.mode.or (sviMode vd i)
    vname := some v
    vlanName := i.vlanName
    ip4 := if sviMode vd i = some .bridge then vd.ip4 else i.ip4
    ip6 := if sviMode vd i = some .bridge then vd.ip6 else i.ip6
    gateway := i.gateway
    isVirtual := true }

/-- An update of the neighbor list of a VLAN, the arguments of `update_vlan_neighbor_list`, `netsim/modules/vlan.py:749`. -/
structure SvUpd where
  /-- where the neighbor list is kept: a global VLAN or a VLAN of a node -/
  key : Option String × String
  /-- neighbors of the physical interface -/
  phy : List SvNgb
  /-- the node with its VLAN interface -/
  me : SvNgb
deriving DecidableEq, Repr

/-- Where the neighbor list is: `get_vlan_data`, `netsim/modules/vlan.py:731-738`, for a VLAN that exists on the node. -/
def vlanKey (t : SvTopo) (node v : String) : Option String × String :=
  if (t.vlans.lookup v).isSome then (none, v) else (some node, v)

/-- The state of the loop: `netsim/modules/vlan.py:813-913`. -/
structure SvState where
  vlans : List (String × NVlan)
  bgMax : Nat
  /-- processed interfaces -/
  out : List SvIf := []
  /-- `vlan_ifmap` -/
  svis : List (String × SvIf) := []
  upds : List SvUpd := []

/-- Get or create the VLAN interface: `netsim/modules/vlan.py:869-900`.  `ifs` are all interfaces of the node before this
process. -/
def sviFor (ifs : List SvIf) (fmt : Option Nat → Option Nat → String → String) (svis : List (String × SvIf)) (vd : NVlan)
    (v : String) (i : SvIf) : Option (SvIf × List (String × SvIf)) :=
  match svis.lookup v with
  | some s => some (s, svis)
  | none =>
    (ifindexLoop (((ifs ++ svis.map Prod.snd).filter (fun j => j.kind = "svi")).map SvIf.ifindex) 1000 40000).map
      (fun idx => (mkSvi fmt vd v i idx, svis ++ [(v, mkSvi fmt vd v i idx)]))

/-- One interface: `netsim/modules/vlan.py:823-911`. -/
def sviStep (t : SvTopo) (nd : SvNode) (st : SvState) (i : SvIf) : Except SvAbort SvState :=
  match i.access.or i.native with
  | none => .ok { st with out := st.out ++ [i] }
  | some v =>
    match i.mode with
    | none => .error .noMode
    | some m =>
      match createNodeVlan t nd.mode st.vlans st.bgMax v with
      | none => .error .unknownVlan
      | some (vd, vlans, bg) =>
        if m = .route then .ok { st with
          vlans := vlans
          bgMax := bg
          out := st.out ++ [routedIf vd v i] }
        else
          match nd.sviName with
          | none => .error .noSvi
          | some fmt =>
            match sviFor nd.ifs fmt st.svis vd v i with
            | none => .error .noIndex
            | some (s, svis) => .ok {
                vlans := vlans
                bgMax := bg
                out := st.out ++ [physIf vd i]
                svis := svis
                upds := st.upds ++ [⟨vlanKey t nd.name v, i.neighbors, ⟨nd.name, s.ifname, s.ip4, s.ip6⟩⟩] }

/-- The loop over interfaces: `netsim/modules/vlan.py:821-913`. -/
def sviLoop (t : SvTopo) (nd : SvNode) : List SvIf → SvState → Except SvAbort SvState
  | [], st => .ok st
  | i :: rest, st =>
    match sviStep t nd st i with
    | .error a => .error a
    | .ok st => sviLoop t nd rest st

/-- `create_svi_interfaces`, `netsim/modules/vlan.py:809-913`, with `populate_node_vlan_data`. -/
def createSvi (t : SvTopo) (nd : SvNode) : Except SvAbort (SvNode × List SvUpd) :=
  match sviLoop t nd nd.ifs ⟨populateAll t nd, nd.bgMax, [], [], []⟩ with
  | .error a => .error a
  | .ok st => .ok ({ nd with
      ifs := st.out ++ st.svis.map Prod.snd
      vlans := st.vlans
      bgMax := st.bgMax }, st.upds)

/-! ### Neighbor lists -/

/-- Change the last entry of the node: `n_map` maps nodes to their last entries, `netsim/modules/vlan.py:757`, `761-767`. -/
def replaceLast (me : SvNgb) : List SvNgb → List SvNgb
  | [] => []
  | n :: rest =>
    if n.node = me.node && !rest.any (fun m => m.node = me.node) then me :: rest else n :: replaceLast me rest

/-- `update_vlan_neighbor_list`, `netsim/modules/vlan.py:749-775`. -/
def applyUpd (l : List SvNgb) (u : SvUpd) : List SvNgb :=
  if l.any (fun m => m.node = u.me.node) then
    replaceLast u.me l ++ u.phy.filter (fun n => !l.any (fun m => m.node = n.node))
  else (l ++ u.phy.filter (fun n => !l.any (fun m => m.node = n.node))) ++ [u.me]

/-- The neighbor list of a VLAN: `netsim/modules/vlan.py:749-775`. -/
def vlanNgb (upds : List SvUpd) (key : Option String × String) : List SvNgb :=
  (upds.filter (fun u => u.key = key)).foldl applyUpd []

/-- Where the neighbor list used for an interface is: `get_vlan_data`, `netsim/modules/vlan.py:731-738`. -/
def ngbKey (t : SvTopo) (nodes : List SvNode) (nd : SvNode) (i : SvIf) (v : String) : Option (Option String × String) :=
  if (t.vlans.lookup v).isSome then some (none, v)
  else if (nd.vlans.lookup v).isSome then some (some nd.name, v)
  else ((i.neighbors.map SvNgb.node).find? (fun n =>
    nodes.any (fun m => m.name = n && (m.vlans.lookup v).isSome))).map (fun n => (some n, v))

/-- Number of hosts in a VLAN: `netsim/modules/vlan.py:928-929`. -/
def hostCount (nodes : List SvNode) (l : List SvNgb) : Nat :=
  (l.filter (fun n => nodes.any (fun m => m.name = n.node && m.isHost))).length

/-- One interface in `set_svi_neighbor_list`, `netsim/modules/vlan.py:918-939`, without interface descriptions. -/
def setNgb (t : SvTopo) (nodes : List SvNode) (upds : List SvUpd) (nd : SvNode) (i : SvIf) : SvIf :=
  match i.vlanName with
  | none => i
  | some v =>
    if i.routedLink then i
    else
      match ngbKey t nodes nd i v with
      | none => i
      | some k => { i with
          role := if i.role.isNone && (vlanNgb upds k).length = hostCount nodes (vlanNgb upds k) + 1 then some "stub"
            else i.role
          neighbors := (vlanNgb upds k).filter (fun n => n.node ≠ nd.name) }

/-- Create VLAN interfaces on all nodes using VLANs: `netsim/modules/vlan.py:1405-1409` without trunks. -/
def vlanIfNodes (t : SvTopo) : List SvNode → Except SvAbort (List SvNode × List SvUpd)
  | [] => .ok ([], [])
  | nd :: rest =>
    if nd.aware then
      match createSvi t nd with
      | .error a => .error a
      | .ok (nd', u) =>
        match vlanIfNodes t rest with
        | .error a => .error a
        | .ok (l, us) => .ok (nd' :: l, u ++ us)
    else
      match vlanIfNodes t rest with
      | .error a => .error a
      | .ok (l, us) => .ok (nd :: l, us)

/-- `module_post_link_transform`, `netsim/modules/vlan.py:1405-1424`, without trunks. -/
def sviTopology (t : SvTopo) (nodes : List SvNode) : Except SvAbort (List SvNode) :=
  match vlanIfNodes t nodes with
  | .error a => .error a
  | .ok (l, upds) => .ok (l.map (fun nd => { nd with ifs := nd.ifs.map (setNgb t l upds nd) }))

end Netlab
