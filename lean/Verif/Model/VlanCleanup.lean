import Verif.Model.Svi
/-!
# Final cleanup of VLAN interfaces

`node_cleanup` in the VLAN module (`netsim/modules/vlan.py`) after `module_post_link_transform`.

Simplifications: those of the model of VLAN interfaces; the description of an interface that is not changed is not modelled.
-/

namespace Netlab

/-- `get_interface_description`, `netsim/augment/links.py:774-777` -/
def ifDescr (node : String) (ngb : List String) : String :=
  match ngb with
  | [] => node ++ " -> stub"
  | [x] => node ++ " -> " ++ x
  | l => node ++ " -> [" ++ ",".intercalate l ++ "]"

/-- The description of a VLAN access interface, `netsim/modules/vlan.py:1436-1441` -/
def vcName (node : String) (i : SvIf) : String :=
  match i.access with
  | some v =>
    if v = "" then ifDescr node (i.neighbors.map SvNgb.node)
    else if i.parentIfindex.isSome then "[SubIf VLAN " ++ v ++ "] " ++ ifDescr node (i.neighbors.map SvNgb.node)
    else "[Access VLAN " ++ v ++ "] " ++ ifDescr node (i.neighbors.map SvNgb.node)
  | none => ifDescr node (i.neighbors.map SvNgb.node)

/-- One interface in `node_cleanup`, `netsim/modules/vlan.py:1431-1441`: the interface and its new description. -/
def vcIf (node : String) (i : SvIf) : SvIf × Option String :=
  match i.saved with
  | none => (i, none)
  | some l =>
    let j := { i with neighbors := l, saved := none }
    (j, some (vcName node j))

/-- `node_cleanup`, `netsim/modules/vlan.py:1430-1441`, is called for nodes using VLANs. -/
def vcNode (nd : SvNode) : List (SvIf × Option String) :=
  if nd.aware then nd.ifs.map (vcIf nd.name) else nd.ifs.map (fun i => (i, none))

/-- VLAN interfaces and the final cleanup: `netsim/modules/vlan.py:1405-1441`, without trunks. -/
def vlanFinal (t : SvTopo) (nodes : List SvNode) : Except SvAbort (List (String × List (SvIf × Option String))) :=
  match sviTopology t nodes with
  | .error a => .error a
  | .ok l => .ok (l.map (fun nd => (nd.name, vcNode nd)))

end Netlab
