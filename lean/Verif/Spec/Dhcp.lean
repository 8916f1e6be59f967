import Verif.Model.Dhcp

namespace Netlab.Spec

open Netlab

/-- The pool a link belongs to: the pool of its access VLAN, or its own pool. -/
def PoolOfLink (t : DhcpTopo) (l : DhcpLink) (pid : String) : Prop :=
  (∃ v, l.access = some v ∧ pid = t.makeId ("vlan_" ++ v)) ∨ (l.access = none ∧ pid = t.makeId l.name)

/-- There are DHCP clients on the link. -/
def HasClients (l : DhcpLink) : Prop := l.subnet false = true ∨ l.subnet true = true

/-- The node interface behind a link interface. -/
def Behind (t : DhcpTopo) (i : DhcpLinkIntf) (n : DhcpIntf) : Prop :=
  ∃ l, t.nodes.lookup i.node = some l ∧ n ∈ l ∧ n.ifindex = i.ifindex

/-- The address belongs to a VLAN interface in the VLAN of the pool, or to an interface that is not a DHCP client,
on a link that belongs to the pool and has DHCP clients of the same address family. -/
def ReservedIn (t : DhcpTopo) (pid : String) (af : Bool) (a : String) : Prop :=
  (∃ n ∈ t.nodes, ∃ i ∈ n.2, ∃ v x, i.vlan = some v ∧ pid = t.makeId ("vlan_" ++ v) ∧ i.addr af = some x ∧ a = t.ip x) ∨
  (∃ l ∈ t.links, PoolOfLink t l pid ∧ l.subnet af = true ∧ ∃ i ∈ l.intfs, ∃ x, i.addr af = some x ∧ a = t.ip x ∧
    ∃ n, Behind t i n ∧ n.client af = false)

/-- The address is the gateway of the VLAN of the pool, or of a link that belongs to the pool and has DHCP clients, in the
given address family. -/
def GatewayOf (t : DhcpTopo) (pid : String) (af : Bool) (g : String) : Prop :=
  (∃ n v, (n, v) ∈ t.vlans ∧ v.routed = false ∧ pid = t.makeId ("vlan_" ++ n) ∧ v.gateway af = some g) ∨
  (∃ l ∈ t.links, PoolOfLink t l pid ∧ l.subnet af = true ∧ l.gateway af = some g)

end Netlab.Spec
