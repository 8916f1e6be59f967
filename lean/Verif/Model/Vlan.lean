import Verif.Model.IdSet
import Verif.Model.Box
/-!
# VLAN identifiers and VXLAN VNIs (`netsim/modules/vlan.py`, `netsim/modules/vxlan.py`)

Only the attributes that take part in identifier assignment are kept.
-/

namespace Netlab

/-- The `vni` attribute of a VLAN (`netsim/modules/vxlan.py:69-83` tells these cases
apart; everything else is rejected by `must_be_int`). -/
inductive VniAttr where
  | missing
  | flag (b : Bool)
  | num (n : Int)
  deriving Repr, DecidableEq

/-- The part of a VLAN definition used in `netsim/modules/vlan.py:82-103` and
`netsim/modules/vxlan.py:50-88`.  The attribute types (integers) were checked by the
topology validation (`netsim/modules/vlan.yml:75-90`). -/
structure Vlan where
  id : Option Int := none
  vni : VniAttr := .missing
  deriving Repr, DecidableEq

/-- A `vlans` dictionary.  Null definitions are empty definitions
(`netsim/modules/vlan.py:93-94`, `vlan.py:1279-1280`). -/
abbrev VlanDict := List (String × Vlan)

/-- Global VLANs and VLANs of individual nodes (`topology.vlans` and
`topology.nodes[n].vlans`, `netsim/modules/vlan.py:24-30`); a missing dictionary is empty. -/
structure VlanTopo where
  vlans : VlanDict
  nodes : List (String × VlanDict)
  deriving Repr

/-- `build_id_set` (`netsim/modules/_dataplane.py:39-54`) for the attribute `id` -/
def vlanIds (d : VlanDict) : List IdVal := d.filterMap fun kv => kv.2.id.map .i

/-- `netsim/modules/vlan.py:24-30` (`populate_vlan_id_set`) -/
def populateVlanIdSet (start : Int) (t : VlanTopo) : IdVar :=
  t.nodes.foldl (fun v n => v.extend (vlanIds n.2))
    (((({} : IdVar).create).extend (vlanIds t.vlans)).setCounter start 4094)

/-- The identifier part of one iteration of the loop in `validate_vlan_attributes`
(`netsim/modules/vlan.py:92-103`); forwarding mode and prefix are left out. -/
def setVlanId (st : VlanDict × IdVar) (vname : String) : Except Fatal (VlanDict × IdVar) :=
  match st.1.lookup vname with
  | none => .ok st
  | some v =>
    match v.id with
    | some _ => .ok st
    | none =>
      match st.2.getNext with
      | .error e => .error e
      | .ok (n, var') => .ok (setKey st.1 vname { v with id := some n }, var')

/-- `netsim/modules/vlan.py:82-131` (`validate_vlan_attributes`): the loop over
`list(obj.vlans.keys())` -/
def validateVlans (st : VlanDict × IdVar) : List String → Except Fatal (VlanDict × IdVar)
  | [] => .ok st
  | v :: vs =>
    match setVlanId st v with
    | .error e => .error e
    | .ok st' => validateVlans st' vs

/-- `netsim/modules/vlan.py:54-69` (`validate_global_node_match`): number of errors
reported for the node VLAN `v` when the global VLAN is `g` (prefixes are left out). -/
def globalNodeMismatch (v g : Vlan) : Nat :=
  (if v.id ≠ none ∧ v.id ≠ g.id then 1 else 0) +
  (if v.vni ≠ .missing ∧ v.vni ≠ g.vni then 1 else 0)

/-- `topology.vlans[vname] + node.vlans[vname]` (`netsim/modules/vlan.py:1287`) restricted
to the modelled attributes: the node value wins. -/
def mergeVlan (g v : Vlan) : Vlan where
  id := match v.id with
    | some n => some n
    | none => g.id
  vni := match v.vni with
    | .missing => g.vni
    | x => x

/-- The loop at `netsim/modules/vlan.py:1278-1291` (`node_pre_transform`): copy global VLAN
data into node VLANs, and count the mismatches. -/
def mergeGlobalVlans (g : VlanDict) : VlanDict → VlanDict × Nat
  | [] => ([], 0)
  | (k, v) :: r =>
    let (r', e) := mergeGlobalVlans g r
    match g.lookup k with
    | some gv => ((k, mergeVlan gv v) :: r', globalNodeMismatch v gv + e)
    | none => ((k, v) :: r', e)

/-- `node_pre_transform` (`netsim/modules/vlan.py:1274-1294`) for all nodes, in order. -/
def nodeVlans (g : VlanDict) (var : IdVar) :
    List (String × VlanDict) → Except Fatal (List (String × VlanDict) × IdVar × Nat)
  | [] => .ok ([], var, 0)
  | (n, d) :: r =>
    let (d1, e1) := mergeGlobalVlans g d
    match validateVlans (d1, var) (d1.map (·.1)) with
    | .error e => .error e
    | .ok (d2, var') =>
      match nodeVlans g var' r with
      | .error e => .error e
      | .ok (r', var'', e2) => .ok ((n, d2) :: r', var'', e1 + e2)

/-- VLAN identifier assignment for the whole topology: `module_pre_transform`
(`netsim/modules/vlan.py:1254-1266`) followed by `node_pre_transform` of every node.  The
result carries the number of reported errors. -/
def vlanTransform (start : Int) (t : VlanTopo) : Except Fatal (VlanTopo × IdVar × Nat) :=
  match validateVlans (t.vlans, populateVlanIdSet start t) (t.vlans.map (·.1)) with
  | .error e => .error e
  | .ok (g, var) =>
    match nodeVlans g var t.nodes with
    | .error e => .error e
    | .ok (nodes, var', errs) => .ok ({ vlans := g, nodes := nodes }, var', errs)

/-- `build_id_set` (`netsim/modules/_dataplane.py:39-54`) for the attribute `vni`: Boolean
values are skipped (line 50). -/
def vlanVnis (d : VlanDict) : List IdVal :=
  d.filterMap fun kv => match kv.2.vni with
    | .num n => some (.i n)
    | _ => none

/-- `netsim/modules/vxlan.py:15-22` (`register_static_vni`) -/
def registerStaticVni (start : Int) (t : VlanTopo) : IdVar :=
  t.nodes.foldl (fun v n => v.extend (vlanVnis n.2))
    (((({} : IdVar).create).extend (vlanVnis t.vlans)).setCounter start 16777215)

/-- `netsim/modules/vxlan.py:84-89` (the end of the loop in `assign_vni`): use the start value
plus the VLAN identifier, or the next free VNI if that is in use.  A VLAN without
an identifier raises an exception in line 84; it cannot occur after `validate_vlan_attributes`
and is skipped here. -/
def autoVni (start : Int) (d : VlanDict) (var : IdVar) (errs : Nat) (vname : String) (v : Vlan) :
    Except Fatal (VlanDict × IdVar × Nat) :=
  match v.id with
  | none => .ok (d, var, errs)
  | some vid =>
    if var.isUsed (.i (start + vid)) then
      match var.getNext with
      | .error e => .error e
      | .ok (n, var') => .ok (setKey d vname { v with vni := .num n }, var', errs)
    else
      .ok (setKey d vname { v with vni := .num (start + vid) }, var.extend [.i (start + vid)], errs)

/-- One iteration of the loop in `assign_vni` (`netsim/modules/vxlan.py:56-88`).  `glob` is
the global `vlans` dictionary when a node is processed and `none` when the object is the
topology itself (test `toponode != topology`, line 61).  Errors are counted. -/
def setVlanVni (start : Int) (glob : Option VlanDict) (st : VlanDict × IdVar × Nat)
    (vname : String) : Except Fatal (VlanDict × IdVar × Nat) :=
  let (d, var, errs) := st
  match d.lookup vname with
  | none => .ok st
  | some v =>
    match glob.bind (·.lookup vname) with
    | some gv =>
      if v.vni ≠ .missing ∧ v.vni ≠ gv.vni then .ok (d, var, errs + 1) else .ok st
    | none =>
      match v.vni with
      | .flag false => .ok st
      | .num n => if n < 2 ∨ n > 16777215 then .ok (d, var, errs + 1) else .ok st
      | _ => autoVni start d var errs vname v

/-- The loop over `vxlan.vlans` in `assign_vni` (`netsim/modules/vxlan.py:56-88`) -/
def assignVni (start : Int) (glob : Option VlanDict) (st : VlanDict × IdVar × Nat) :
    List String → Except Fatal (VlanDict × IdVar × Nat)
  | [] => .ok st
  | v :: vs =>
    match setVlanVni start glob st v with
    | .error e => .error e
    | .ok st' => assignVni start glob st' vs

/-- The loop over nodes in `module_post_node_transform` (`netsim/modules/vxlan.py:186-188`);
`lists` is the `vxlan.vlans` list of each node. -/
def assignNodeVnis (start : Int) (g : VlanDict) (lists : String → List String)
    (st : IdVar × Nat) :
    List (String × VlanDict) → Except Fatal (List (String × VlanDict) × IdVar × Nat)
  | [] => .ok ([], st.1, st.2)
  | (n, d) :: r =>
    match assignVni start (some g) (d, st.1, st.2) (lists n) with
    | .error e => .error e
    | .ok (d', var', e') =>
      match assignNodeVnis start g lists (var', e') r with
      | .error e => .error e
      | .ok (r', var'', e'') => .ok ((n, d') :: r', var'', e'')

/-- `module_post_node_transform` (`netsim/modules/vxlan.py:183-188`): VNIs for the global
VLANs, then for the VLANs of every node.  The `vxlan.vlans` lists built or checked by
`validate_vxlan_list` are arguments. -/
def vniTransform (start : Int) (glist : List String) (lists : String → List String)
    (var : IdVar) (t : VlanTopo) : Except Fatal (VlanTopo × IdVar × Nat) :=
  match assignVni start none (t.vlans, var, 0) glist with
  | .error e => .error e
  | .ok (g, var', e') =>
    match assignNodeVnis start g lists (var', e') t.nodes with
    | .error e => .error e
    | .ok (nodes, var'', e'') => .ok ({ vlans := g, nodes := nodes }, var'', e'')

/-- VLAN and VNI assignment in the order of `netsim/augment/main.py:66-74`: static VNIs are
registered in `module_pre_transform` (`netsim/modules/vxlan.py:167-168`), other modules may
register more of them (`extra`; `netsim/modules/evpn.py:170-183`), VLAN identifiers are set
in the pre-transform hooks and VNIs in `module_post_node_transform`. -/
def vlanVxlanTransform (startVlan startVni : Int) (extra : List IdVal) (glist : List String)
    (lists : String → List String) (t : VlanTopo) : Except Fatal (VlanTopo × Nat) :=
  match vlanTransform startVlan t with
  | .error e => .error e
  | .ok (t1, _, e1) =>
    match vniTransform startVni glist lists ((registerStaticVni startVni t).extend extra) t1 with
    | .error e => .error e
    | .ok (t2, _, e2) => .ok (t2, e1 + e2)

end Netlab
