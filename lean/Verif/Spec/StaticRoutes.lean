import Verif.Model.StaticRoutes
/-!
# Specification vocabulary: static routes
-/

namespace Netlab.Spec
open Netlab

/-- The VRF in which the next hop is found: the one specified with the next hop (`none` is the global routing table) or the
VRF of the route. -/
def nextHopVrf (r : SrRoute) (n : SrNext) : Option String := n.vrf.getD r.vrf

/-- The node has address `a` in address family `af` on a link connected to interface `ifname` in the VRF. -/
def Adjacent (env : SrEnv) (ifs : List SrIntf) (vrf : Option String) (node : String) (af : Bool) (a ifname : String) :
    Prop :=
  ∃ i ∈ ifs, i.vrf = vrf ∧ i.name = ifname ∧
    ∃ g ∈ i.neighbors, g.node = node ∧ ∃ s, g.addr.get af = some (.str s) ∧ a = env.host s

/-- The address belongs to the subnet of interface `ifname` in the VRF. -/
def OnSubnet (env : SrEnv) (ifs : List SrIntf) (vrf : Option String) (af : Bool) (a ifname : String) : Prop :=
  ∃ i ∈ ifs, i.vrf = vrf ∧ i.name = ifname ∧ ∃ p, i.addr.get af = some (.str p) ∧ env.inSubnet a p = true

/-- The address (in the topology data) is a usable gateway address on the interface: the one configured on the interface,
the one configured on a neighbor, or the address of an adjacent router that is not a DHCP client. -/
inductive GatewayAddr (env : SrEnv) (i : SrIntf) (af : Bool) (a : SrAddr) : Prop
  | own (g : Dual SrAddr) : i.gateway = some g → g.get af = some a → GatewayAddr env i af a
  | neighbor (n : SrNgb) (g : Dual SrAddr) : i.gateway = none → n ∈ i.neighbors → n.gateway = some g →
      g.get af = some a → GatewayAddr env i af a
  | router (n : SrNgb) : i.gateway = none → (∀ m ∈ i.neighbors, m.gateway = none) → n ∈ i.neighbors →
      env.isHost n.node = false → n.dhcp.get af = none → n.addr.get af = some a → GatewayAddr env i af a

/-- The route is for prefix `p` of address family `af`, with next hop `a` reachable over interface `ifname`. -/
structure RouteVia (f : SrFinal) (af : Bool) (p a ifname : String) : Prop where
  dst : f.dst.get af = some p
  other : f.dst.get (!af) = none
  addr : f.addr.get af = some (.str a)
  intf : f.intf = some ifname

end Netlab.Spec
