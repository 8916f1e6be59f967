import Verif.Model.Sort
import Verif.Model.Box
/-!
# Module hooks, module removal and propagation of node data into interfaces (`netsim/modules/__init__.py`)
-/

namespace Netlab

/-- A call of a module hook: the topology, node or link hook of a module (`netsim/modules/__init__.py:473`, 488 and 506) -/
inductive HookCall
  | topo (m : String)
  | node (name m : String)
  | link (index : Nat) (m : String)
  deriving DecidableEq, Repr

/-- `netsim/modules/__init__.py:461-473` (`module_transform`); `has kind m` says whether module `m` defines the hook (`netsim/utils/callback.py:39-44`). -/
def mhModule (has : String → String → Bool) (mods extra : List String) : List HookCall := ((mods ++ extra).filter (has "module")).map .topo

/-- `netsim/modules/__init__.py:475-488` (`node_transform`).  Simplification: hooks do not change lists of modules. -/
def mdhNode (has : String → String → Bool) (nodes : List (String × List String)) : List HookCall :=
  nodes.flatMap (fun n => (n.2.filter (has "node")).map (fun m => .node n.1 m))

/-- Modules used on a link (`netsim/modules/__init__.py:497-499`); `intfs` are names of nodes attached to the link, `none` is a crash (unknown node). -/
def mhLinkModules (nodes : List (String × List String)) (intfs : List String) : Option (List String) :=
  (intfs.mapM (fun n => nodes.lookup n)).map (fun lists => lists.foldl (fun acc l => l.foldl (fun a m => if a.contains m then a else a ++ [m]) acc) [])

/-- `netsim/modules/__init__.py:490-506` (`link_transform`), starting with link number `i` -/
def mhLinks (has : String → String → Bool) (nodes : List (String × List String)) : Nat → List (List String) → Option (List HookCall)
  | _, [] => some []
  | i, l :: r =>
    match mhLinkModules nodes l, mhLinks has nodes (i + 1) r with
    | some ms, some rest => some ((ms.filter (has "link")).map (fun m => .link i m) ++ rest)
    | _, _ => none

/-- A stage of the transformation: all three sets of hooks (`netsim/modules/__init__.py:60-62`, 76-81, 86-108 and 127-130) -/
def mhStage (has : String → String → Bool) (mods extra : List String) (nodes : List (String × List String)) (links : List (List String)) : Option (List HookCall) :=
  (mhLinks has nodes 0 links).map (fun l => mhModule has mods extra ++ mdhNode has nodes ++ l)

/-- `netsim/modules/__init__.py:369-379` (`reorder_node_modules`): topology modules and node modules; `none` is the fatal error in the dependency sort. -/
def mhReorder (params : String → Option ModDef) (mods extra : List String) (nodes : List (String × List String)) : Option (List String × List (String × List String)) :=
  let all := mods ++ extra.filter (fun m => !mods.contains m)
  match (if all.isEmpty then some all else sortModuleList all params), nodes.mapM (fun n => (sortModuleList n.2 params).map (fun l => (n.1, l))) with
  | some t, some n => some (t, n)
  | _, _ => none

/-- `netsim/modules/__init__.py:135-141` (`remove_module`): node attributes, interface attributes and modules -/
def mhRemove (node : List (String × Val)) (intfs : List (List (String × Val))) (mods : List String) (m : String) (extra : List String) :
    List (String × Val) × List (List (String × Val)) × List String :=
  ((extra ++ [m]).foldl popKey node, intfs.map (fun i => (extra ++ [m]).foldl popKey i), mods.filter (· != m))

/-- Attributes that could be copied (`netsim/modules/__init__.py:401-403` and 412-414) -/
def cnPick (keys : List String) (d : List (String × Val)) : List (String × Val) := d.filter (fun p => keys.contains p.1)

/-- VRF attributes of an interface (`netsim/modules/__init__.py:408-414`): `vrf` is the VRF of the interface, `vrfs` the module data of node VRFs; `none` is a crash. -/
def cnVrf (vrfAware : List String) (vrfs : List (String × Val)) (vrf : Option String) : Option (List (String × Val)) :=
  match vrf with
  | none => some []
  | some v =>
    if vrfAware.isEmpty then some []
    else match vrfs.lookup v with
      | none => some []
      | some (.dict d) => some (cnPick vrfAware d)
      | some (.bool false) => some []
      | some _ => none

/-- The interface part of `copy_node_data_into_interfaces` (`netsim/modules/__init__.py:405-417`): module data of an interface -/
def cnIntf (copyAttr : List (String × Val)) (vrfAware : List String) (vrfs : List (String × Val)) (vrf : Option String) (intf : Option Val) : Option (Option Val) :=
  match intf with
  | none =>
    match cnVrf vrfAware vrfs vrf with
    | none => none
    | some va => if copyAttr.isEmpty && va.isEmpty then some none else some (some (.dict (mergeDict (mergeDict copyAttr va) [])))
  | some (.dict d) =>
    match cnVrf vrfAware vrfs vrf with
    | none => none
    | some va => if copyAttr.isEmpty && va.isEmpty then some (some (.dict d)) else some (some (.dict (mergeDict (mergeDict copyAttr va) d)))
  | some v => some (some v)

/-- `netsim/modules/__init__.py:394-417` (`copy_node_data_into_interfaces`) for one module of a node; `node` is the module data of the node (`none` = no data), interfaces are pairs of VRF name
and module data. -/
def cnModule (nodeCopy vrfAware : List String) (node : Option Val) (vrfs : List (String × Val)) (intfs : List (Option String × Option Val)) : Option (List (Option Val)) :=
  if nodeCopy.isEmpty then some (intfs.map (·.2))
  else match node with
    | none => intfs.mapM (fun i => cnIntf [] vrfAware vrfs i.1 i.2)
    | some (.dict d) => intfs.mapM (fun i => cnIntf (cnPick nodeCopy d) vrfAware vrfs i.1 i.2)
    | some _ => none

end Netlab
