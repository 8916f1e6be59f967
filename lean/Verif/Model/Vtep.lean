import Verif.Model.Val
/-!
# VXLAN tunnel endpoints and flooding lists (`netsim/modules/vxlan.py`)
-/

namespace Netlab

/-- The `vni` attribute of a VLAN after `assign_vni` (`netsim/modules/vxlan.py:51-90`): a number
or an explicit `false` -/
inductive VlanVni where
  | off
  | num (n : Int)
  deriving DecidableEq, Repr

/-- A VLAN in node data (`netsim/modules/vxlan.py:242-245`): `vni` is `none` when the attribute is
missing, the same applies to `vtep_list`. -/
structure VxVlan where
  name : String
  vni : Option VlanVni
  vtepList : Option (List String) := none
  deriving DecidableEq, Repr

/-- An interface of a node, as used in `netsim/modules/vxlan.py:103-107`; the addresses are
host addresses without the prefix length (`get_intf_address`, `netsim/utils/routing.py:17-18`). -/
structure VxIntf where
  isLoopback : Bool
  vtep : Bool
  ipv4 : Option String
  ipv6 : Option String
  deriving DecidableEq, Repr

/-- The node data used by the VXLAN module (`netsim/modules/vxlan.py:192-247`).  `vlans` is
`none` when the node has no VLANs; `l3vnis` tells whether a VRF has a transit VNI. -/
structure VxNode where
  name : String
  enabled : Bool
  loopback : VxIntf
  intfs : List VxIntf
  vtep6 : Bool
  domain : String
  static : Bool
  vlans : Option (List VxVlan)
  l3vnis : Bool
  vtep : Option String := none
  vtepList : Option (List String) := none
  deriving DecidableEq, Repr

/-- `netsim/modules/vxlan.py:95-132` (`node_set_vtep`): `none` = an error was reported.  The
loopback interface of the device is assumed to have a name. -/
def nodeSetVtep (useV6 : Bool) (n : VxNode) : Option String :=
  let intf := (n.intfs.find? (fun i => i.isLoopback && i.vtep)).getD n.loopback
  if useV6 then (if n.vtep6 then intf.ipv6 else none)
  else intf.ipv4

/-- `vdata.vni` in a condition (`netsim/modules/vxlan.py:211`) -/
def vniTruthy : Option VlanVni → Bool
  | some (.num n) => n != 0
  | _ => false

/-- `netsim/modules/vxlan.py:210-225`: does the node have VXLAN-enabled VLANs or L3VNIs? -/
def usesVxlan (n : VxNode) : Bool :=
  (n.vlans.getD []).any (fun v => vniTruthy v.vni) || n.l3vnis

/-- `netsim/modules/vxlan.py:198-233`: the first loop of `module_post_transform` for one node.
`some` = the node takes part in the flooding lists of its domain. -/
def vxPrepare (useV6 : Bool) (n : VxNode) : Option VxNode :=
  if !n.enabled then none
  else if n.intfs.isEmpty then none
  else if !(usesVxlan n) then none
  else match nodeSetVtep useV6 n with
    | none => none
    | some a => some { n with vtep := some a }

/-- `netsim/modules/vxlan.py:137-163` (`build_vtep_list`): `nodes` are the nodes in the same
domain -/
def buildVtepList (vni : VlanVni) (me : VxNode) : List VxNode → List String → List String
  | [], acc => acc
  | n :: rest, acc =>
    if n.name == me.name then buildVtepList vni me rest acc
    else match n.vlans with
      | none => buildVtepList vni me rest acc
      | some vl =>
        match n.vtep with
        | none => buildVtepList vni me rest acc
        | some a =>
          if n.vtep == me.vtep then buildVtepList vni me rest acc
          else if acc.contains a then buildVtepList vni me rest acc
          else if vl.any (fun v => v.vni == some vni) then buildVtepList vni me rest (acc ++ [a])
          else buildVtepList vni me rest acc

/-- `sorted(list(vtep_set))` (`netsim/modules/vxlan.py:247`) -/
def sortedSet (l : List String) : List String :=
  l.eraseDups.mergeSort (fun a b => decide (a ≤ b))

/-- `netsim/modules/vxlan.py:243-244`: the VTEP list of a VLAN; `if 'vni' in vlan` -/
def vlanVteps (dom : List VxNode) (me : VxNode) : Option VlanVni → List String
  | none => []
  | some x => buildVtepList x me dom []

/-- `netsim/modules/vxlan.py:159-161`: the VTEP list stored in VLAN data, an empty list is removed -/
def storeVteps (dom : List VxNode) (me : VxNode) (v : VxVlan) : VxVlan :=
  if v.vni.isNone then v
  else { v with vtepList := if (vlanVteps dom me v.vni).isEmpty then none
                            else some (vlanVteps dom me v.vni) }

/-- `netsim/modules/vxlan.py:235-247`: the second loop of `module_post_transform` for one node
(`dom` = nodes of the same domain) -/
def vxFlood (dom : List VxNode) (me : VxNode) : VxNode :=
  if !me.static then me
  else
    { me with
      vlans := me.vlans.map (fun l => l.map (storeVteps dom me))
      vtepList := some (sortedSet ((me.vlans.getD []).flatMap (fun v => vlanVteps dom me v.vni))) }

/-- `netsim/modules/vxlan.py:192-247` (`module_post_transform`): the nodes taking part in VXLAN
flooding after the transformation -/
def vxlanPost (useV6 : Bool) (nodes : List VxNode) : List VxNode :=
  let part := nodes.filterMap (vxPrepare useV6)
  part.map (fun me => vxFlood (part.filter (fun n => n.domain == me.domain)) me)

end Netlab
