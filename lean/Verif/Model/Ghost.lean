import Verif.Model.Links
import Verif.Model.LinkType
/-!
# Removal of unmanaged devices (`netsim/augment/nodes.py:626-656`)

Attributes of nodes, links and interfaces that are not used are values of arbitrary types.
-/

namespace Netlab

/-- A node (`netsim/augment/nodes.py:635`) -/
structure GbNode (α : Type) where
  name : String
  unmanaged : Bool
  rest : α
  deriving Repr, DecidableEq

/-- A link (`netsim/augment/nodes.py:638-651`): index, type, number of nodes, number of hosts, bridge, interfaces (node and other
attributes) and other attributes -/
structure GbLink (β : Type) where
  idx : Nat
  type : String
  nodeCount : Nat
  hostCount : Nat
  bridge : Option String
  ifs : List (String × β)
  rest : β
  deriving Repr, DecidableEq

/-- A topology with nodes and links (`netsim/augment/nodes.py:629-632`) -/
structure GbTopo (α β : Type) where
  nodes : List (GbNode α)
  links : List (GbLink β)
  deriving Repr, DecidableEq

/-- `intf.node in topo_copy.nodes` (`netsim/augment/nodes.py:640`) -/
def gbOn (nodes : List String) (i : String × β) : Bool := nodes.contains i.1

/-- `netsim/augment/links.py:971-980` (`set_link_bridge_name`): the link and the number of errors -/
def gbBridge (name : String) (l : GbLink β) : GbLink β × Nat :=
  if l.type = "p2p" || l.type = "loopback" || l.type = "vlan_member" then (l, 0)
  else match bridgeName name l.idx l.bridge with
    | some b => ({ l with bridge := some b }, 0)
    | none => (l, 1)

/-- The new number of nodes (`netsim/augment/nodes.py:644-645`) -/
def gbCount (l : GbLink β) (ifs : List (String × β)) : Nat := if l.nodeCount = l.ifs.length then ifs.length else l.nodeCount

/-- The new link type (`netsim/augment/nodes.py:647-648`) -/
def gbType (l : GbLink β) (count : Nat) : String := if l.ifs.length = 2 then ltDefault count l.hostCount else l.type

/-- The loop body in `netsim/augment/nodes.py:638-651` -/
def gbLink (name : String) (nodes : List String) (l : GbLink β) : GbLink β × Nat :=
  let ifs := l.ifs.filter (gbOn nodes)
  if ifs.length = l.ifs.length then (l, 0)
  else gbBridge name { l with ifs := ifs, nodeCount := gbCount l ifs, type := gbType l (gbCount l ifs) }

/-- `netsim/augment/nodes.py:629-656` (`ghost_buster`): the new topology and the number of errors; `name` is the name used in bridge names. -/
def ghostBuster (name : String) (t : GbTopo α β) : GbTopo α β × Nat :=
  let nodes := t.nodes.filter (fun n => !n.unmanaged)
  let r := t.links.map (gbLink name (nodes.map (·.name)))
  ({ nodes := nodes, links := (r.map (·.1)).filter (fun l => l.nodeCount > 0) }, (r.map (·.2)).sum)

end Netlab
