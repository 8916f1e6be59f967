import Verif.Model.BgpLab
/-!
# BGP attributes of interfaces and neighbors of a lab

Neighbor data contains the attributes of the interface of the neighbor, including its BGP attributes (`netsim/augment/links.py:870-882`).
-/

namespace Netlab

/-- A neighbor entry (`netsim/augment/links.py:870-882`); `attr` contains BGP attributes of interfaces. -/
structure NbrAttr (text : Nat → String) (attr : String → Option String → IfBgp) (b : Nbr) (q : NgbIf) : Prop extends NbrFrom text b q where
  bgp : q.bgp = attr b.node b.ifname

/-- A node interface with its BGP attributes (`netsim/augment/links.py:311-337`) -/
structure IfAttr (text : Nat → String) (attr : String → Option String → IfBgp) (i : NodeIf) (l : BgpIntf) : Prop where
  ifindex : l.ifindex = i.ifindex
  ipv4 : l.ipv4 = bgpAddr text i.ip4
  ipv6 : l.ipv6 = bgpAddr text i.ip6
  bgp : l.bgp = attr i.node i.ifname
  neighbors : List.Forall₂ (NbrAttr text attr) i.nbrs l.neighbors

/-- A node with its loopback and its interfaces (`netsim/modules/bgp.py:149,210`) -/
structure BgpNodeAttr (text : Nat → String) (attr : String → Option String → IfBgp) (ifs : List NodeIf) (x : LbNode × LbState) (n : BgpNode) : Prop where
  name : n.name = x.1.name
  loopback : n.loopback = bgpLoopback text x
  interfaces : List.Forall₂ (IfAttr text attr) (ifs.filter (fun i => i.node == n.name)) n.interfaces

/-- The nodes of the lab as seen by the BGP module (`netsim/modules/bgp.py:410-429`), including BGP attributes of interfaces and neighbors.  VLAN interfaces and interfaces
created by other modules are not included. -/
def LabBgpAttr (text : Nat → String) (attr : String → Option String → IfBgp) (out : PlanOut) (topo : List BgpNode) : Prop :=
  List.Forall₂ (BgpNodeAttr text attr out.ifs) out.loopbacks topo

end Netlab
