import Verif.Model.Plan
import Verif.Model.Bgp
import Mathlib.Data.List.Forall2
/-!
# BGP data of the nodes of a lab

The BGP module (`netsim/modules/bgp.py:410-429`) works with node data created by the rest of the transformation (`Verif.Model.Plan`): loopback interfaces and node
interfaces with their neighbors.  This module says how the nodes seen by the BGP module are related to the results of that transformation.
-/

namespace Netlab

/-- An interface address as seen by the BGP module (`netsim/modules/bgp.py:109-117`); `text` is the text of an address.  Host indices were replaced
with addresses or rejected (`netsim/augment/links.py:556-592`), as were texts that are not addresses. -/
def bgpAddr (text : Nat → String) : IfAddr → Option AddrV
  | .addr a l => some (.addr (text a) l)
  | .text (some a) l => some (.addr (text a) (l.getD 0))
  | .flag b => some (.flag b)
  | _ => none

/-- A loopback address as seen by the BGP module (`netsim/modules/bgp.py:109-117`); other values of the attribute were rejected (`netsim/augment/nodes.py:399-406`). -/
def bgpLbAddr (text : Nat → String) : Option LbVal → Option AddrV
  | some (.addr a l) => some (.addr (text a) l)
  | some (.other (.bool b)) => some (.flag b)
  | _ => none

/-- `'loopback' in n` and its addresses (`netsim/modules/bgp.py:134-136`): hosts have no loopback interface unless the user specified its attributes
(`netsim/augment/nodes.py:431-434`). -/
def bgpLoopback (text : Nat → String) (x : LbNode × LbState) : Option AfAddr :=
  if x.1.host && x.1.lb.isEmpty then none else some ⟨bgpLbAddr text (x.2.lb.lookup "ipv4"), bgpLbAddr text (x.2.lb.lookup "ipv6")⟩

/-- A neighbor entry (`netsim/augment/links.py:870-882`) -/
structure NbrFrom (text : Nat → String) (b : Nbr) (q : NgbIf) : Prop where
  node : q.node = b.node
  ipv4 : q.ipv4 = bgpAddr text b.ip4
  ipv6 : q.ipv6 = bgpAddr text b.ip6

/-- A node interface (`netsim/augment/links.py:311-337`) -/
structure IfFrom (text : Nat → String) (i : NodeIf) (l : BgpIntf) : Prop where
  ifindex : l.ifindex = i.ifindex
  ipv4 : l.ipv4 = bgpAddr text i.ip4
  ipv6 : l.ipv6 = bgpAddr text i.ip6
  neighbors : List.Forall₂ (NbrFrom text) i.nbrs l.neighbors

/-- A node with its loopback and its interfaces (`netsim/modules/bgp.py:149,210`).  BGP attributes can have any value. -/
structure BgpNodeFrom (text : Nat → String) (ifs : List NodeIf) (x : LbNode × LbState) (n : BgpNode) : Prop where
  name : n.name = x.1.name
  loopback : n.loopback = bgpLoopback text x
  interfaces : List.Forall₂ (IfFrom text) (ifs.filter (fun i => i.node == n.name)) n.interfaces

/-- The nodes of the lab as seen by the BGP module (`netsim/modules/bgp.py:410-429`).  VLAN interfaces and interfaces created by other modules are not included. -/
def LabBgp (text : Nat → String) (out : PlanOut) (topo : List BgpNode) : Prop := List.Forall₂ (BgpNodeFrom text out.ifs) out.loopbacks topo

end Netlab
