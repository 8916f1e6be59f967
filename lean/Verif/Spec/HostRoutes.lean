import Verif.Model.HostRoutes
/-!
# Specification vocabulary: default routes of hosts
-/

namespace Netlab.Spec
open Netlab

/-- The interface gets its address in the address family from a DHCP server. -/
def UsesDhcp (i : HrIntf) (af : Bool) : Prop := i.relay = false ∧ (i.client.get af).isSome

/-- The host needs static routes in the address family: it uses the address family, does not listen to router
advertisements (IPv6), and does not get the default route from a DHCP server. -/
structure NeedsRoutes (dhcp : Bool) (n : HrNode) (af : Bool) : Prop where
  uses : af ∈ n.afs
  noRa : af = true → n.useRa = false
  noDhcp : dhcp = true → n.dhcpServer = false → ∀ i ∈ n.ifs, ¬ UsesDhcp i af

/-- A host without its own static routes that needs them in some address family. -/
def GetsRoutes (dhcp : Bool) (n : HrNode) : Prop := n.host = true ∧ n.static = [] ∧ ∃ af, NeedsRoutes dhcp n af

/-- `n'` is the node after the processing: a host that needs static routes has those in the list that belong to the address families
in which they are needed, and uses the routing module; nothing else changes. -/
structure HostRoutesOf (dhcp : Bool) (list : List SrRoute) (n n' : HrNode) : Prop where
  routes : GetsRoutes dhcp n → ∀ r, r ∈ n'.static ↔ r ∈ list ∧ ∃ af, NeedsRoutes dhcp n af ∧ (r.dst.get af).isSome
  modules : GetsRoutes dhcp n → ∀ x, x ∈ n'.modules ↔ x ∈ n.modules ∨ x = "routing"
  rest : n' = { n with static := n'.static, modules := n'.modules }
  other : ¬ GetsRoutes dhcp n → n' = n

/-- The gateway is configured on the interface: on the interface itself, or (if there's no information on the interface) on
the first neighbor with a gateway. -/
def GwConfigured (i : SrIntf) (g : Dual SrAddr) : Prop :=
  i.gateway = some g ∨ i.gateway = none ∧ ∃ l m r, i.neighbors = l ++ m :: r ∧ (∀ x ∈ l, x.gateway = none) ∧
    m.gateway = some g

/-- Nothing is known about the gateway on the interface. -/
def NoGateway (i : SrIntf) : Prop := i.gateway = none ∧ ∀ m ∈ i.neighbors, m.gateway = none

/-- A router with a static address in the address family is attached to the interface. -/
def RouterOn (env : SrEnv) (i : SrIntf) (af : Bool) : Prop :=
  ∃ m ∈ i.neighbors, env.isHost m.node = false ∧ m.dhcp.get af = none ∧ ∃ s, m.addr.get af = some (.str s)

/-- A gateway with an address in the address family is configured on a (non-VRF) interface. -/
def HasConfigured (ifs : List SrIntf) (af : Bool) : Prop :=
  ∃ i ∈ ifs, i.vrf = none ∧ ∃ g s, GwConfigured i g ∧ g.get af = some (.str s)

/-- The host can use a gateway in the address family: a configured one or (when no gateway is configured for any address
family) an adjacent router. -/
def HasGateway (env : SrEnv) (ifs : List SrIntf) (af : Bool) : Prop :=
  HasConfigured ifs af ∨
  ((∀ f, ¬ HasConfigured ifs f) ∧ af ∈ env.nodeAf ∧ ∃ i ∈ ifs, i.vrf = none ∧ NoGateway i ∧ RouterOn env i af)

end Netlab.Spec
