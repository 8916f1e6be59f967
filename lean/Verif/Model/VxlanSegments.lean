import Verif.Model.Vlan
import Verif.Model.Vtep
/-!
# VLANs of a topology turned into VXLAN segments (`netsim/modules/vlan.py`, `netsim/modules/vxlan.py`)
-/

namespace Netlab

/-- `populate_node_vlan` (`netsim/modules/vlan.py:486-505`): global VLAN data is merged with the VLAN data of the node, the
node data wins.  A missing definition is empty. -/
def mergedVlan (g d : VlanDict) (w : String) : Vlan :=
  mergeVlan ((g.lookup w).getD {}) ((d.lookup w).getD {})

/-- The `vni` attribute as seen by the flooding code (`netsim/modules/vxlan.py:155-157`, `243`): the attributes are compared with
`==`, therefore `True` is the same as one. -/
def vxVni : VniAttr → Option VlanVni
  | .missing => none
  | .flag false => some .off
  | .flag true => some (.num 1)
  | .num n => some (.num n)

/-- VLANs of a node after the link transformation: those mentioned in the node data (`populate_node_vlan_data`,
`netsim/modules/vlan.py:1170-1175`) and those used on an interface (`create_node_vlan`, `netsim/modules/vlan.py:780-801`). -/
def nodeVxVlans (g d : VlanDict) (used : List String) : List VxVlan :=
  (d.map (·.1) ++ used.filter (fun w => !(d.map (·.1)).contains w)).map fun w =>
    { name := w, vni := vxVni (mergedVlan g d w).vni }

/-- The VLANs of a topology copied into the node data used in `module_post_transform`
(`netsim/modules/vxlan.py:192-247`); a node without VLANs has no `vlans` dictionary. -/
def withVlans (t : VlanTopo) (used : String → List String) (n : VxNode) : VxNode :=
  let l := nodeVxVlans t.vlans ((t.nodes.lookup n.name).getD []) (used n.name)
  { n with vlans := if l.isEmpty then none else some l }

/-- VLAN identifiers, VNIs and VTEP lists in the order of `netsim/augment/main.py:66-107`: VNIs are assigned in
`module_post_node_transform` (`netsim/modules/vxlan.py:183-188`), VLANs are copied to the nodes when links are transformed, and
VTEP lists are built in `module_post_transform` (`netsim/modules/vxlan.py:192-247`).  `nodes` is the remaining node data. -/
def vxlanMesh (v6 : Bool) (startVlan startVni : Int) (extra : List IdVal) (glist : List String)
    (lists used : String → List String) (t : VlanTopo) (nodes : List VxNode) :
    Except Fatal (List VxNode × Nat) :=
  match vlanVxlanTransform startVlan startVni extra glist lists t with
  | .error e => .error e
  | .ok (t2, errs) => .ok (vxlanPost v6 (nodes.map (withVlans t2 used)), errs)

end Netlab
