import Verif.Model.DhcpRelay
import Mathlib.Data.List.Forall2

namespace Netlab.Spec

open Netlab

/-! ### Links -/

/-- The user wants a DHCP client for this address family on this interface: the address is `dhcp`, the interface is a client, or all interfaces on the link
are clients, unless the interface is not to be a client or belongs to a VLAN. -/
def DhcpWanted (link : Bool → Option Bool) (i : DlIntf) (af : Bool) : Prop :=
  i.addr af = some (.text "dhcp") ∨ i.client af = some true ∨ (link af = some true ∧ i.client af ≠ some false ∧ i.bridged = false)

/-- The DHCP client is announced to the node and to the link. -/
def DhcpActive (link : Bool → Option Bool) (i : DlIntf) (af : Bool) : Prop :=
  DhcpWanted link i af ∧ ¬ (link af = some true ∧ i.bridged = true) ∧ ¬ (i.addr af = some (.text "dhcp") ∧ link af = some false)

/-! ### Nodes -/

/-- The topology has a DHCP server with this name. -/
def IsDhcpServer (nodes : List DxNode) (s : String) : Prop := ∃ n ∈ nodes, n.name = s ∧ n.server = true

/-- Addresses of the control plane of a node: loopback addresses of a router, addresses on the first interface of hosts and of nodes without a loopback -/
def DhcpEndpoint (n : DxNode) (e : Bool → Option DxAddr) : Prop :=
  (n.host = false ∧ n.loopback = some e) ∨ ((n.host = true ∨ n.loopback = none) ∧ ∃ i r, n.ifs = i :: r ∧ i.addr = e)

/-- `a` is the address `v` without the prefix length (Booleans are integers). -/
inductive AddrText (ip : String → String) : DxAddr → String → Prop where
  | text (s) : AddrText ip (.text s) (ip s)
  | yes : AddrText ip (.flag true) "0.0.0.1"
  | no : AddrText ip (.flag false) "0.0.0.0"

/-- `a` is the control-plane address of the server `s`. -/
def RelayTarget (ip : String → String) (nodes : List DxNode) (af : Bool) (s a : String) : Prop :=
  ∃ n ∈ nodes, n.name = s ∧ ∃ e v, DhcpEndpoint n e ∧ e af = some v ∧ AddrText ip v a

/-- The interface has a client attribute for this address family, and is not an interface of a DHCP server or a relay. -/
def HasDhcpClient (n : DxNode) (i : DxIntf) (af b : Bool) : Prop :=
  n.server = false ∧ i.server = [] ∧ ∃ c, i.client = some c ∧ c af = some b

/-- The interface relays requests of at least one DHCP client. -/
def DhcpRelays (i : DxIntf) (af : Bool) : Prop := i.server ≠ [] ∧ ∃ x ∈ i.nbrs, x.2 af = true

/-- The DHCP configuration of a node can be used. -/
structure DhcpUsable (ip : String → String) (nodes : List DxNode) (n : DxNode) : Prop where
  server : n.server = true → n.feat.server = true
  client : ∀ i ∈ n.ifs, ∀ af b, HasDhcpClient n i af b → n.feat.client af = true
  ebgp : ∀ i ∈ n.ifs, ∀ af, HasDhcpClient n i af true → i.bgp = false
  igp : ∀ i ∈ n.ifs, ∀ af, HasDhcpClient n i af true → i.ospf = true ∨ i.isis = true → n.feat.routing = true
  relay : ∀ i ∈ n.ifs, i.server ≠ [] → n.feat.relay ≠ .no
  relayAf : ∀ i ∈ n.ifs, i.server ≠ [] → ∀ g, n.feat.relay = .afs g → ∀ af, i.addr af ≠ none → g af = true
  servers : ∀ i ∈ n.ifs, ∀ s ∈ i.server, IsDhcpServer nodes s
  targets : ∀ i ∈ n.ifs, ∀ af, DhcpRelays i af → ∀ s ∈ i.server, ∃ a, RelayTarget ip nodes af s a
  vrf : ∀ i ∈ n.ifs, i.server ≠ [] → ∀ v, i.vrf = some v → n.feat.vrf = true ∧ (v = "global" ∨ v ∈ n.vrfs)

/-- Final state of an interface -/
structure DhcpIntfDone (ip : String → String) (nodes : List DxNode) (n : DxNode) (i i' : DxIntf) : Prop where
  /-- DHCP clients have no addresses -/
  popped : ∀ af, HasDhcpClient n i af true → i'.addr af = none
  kept : ∀ af, ¬ HasDhcpClient n i af true → i'.addr af = i.addr af
  /-- relays and servers are not clients -/
  dropped : n.server = true ∨ i.server ≠ [] → i'.client = none
  client : n.server = false → i.server = [] → i'.client = i.client
  /-- relay targets, in the order of servers -/
  relay : ∀ af, DhcpRelays i af → ∃ l, i'.relay af = some l ∧ List.Forall₂ (RelayTarget ip nodes af) i.server l
  norelay : ∀ af, ¬ DhcpRelays i af → i'.relay af = i.relay af
  server : i'.server = i.server
  vrf : i'.vrf = i.vrf
  bgp : i'.bgp = i.bgp
  ospf : i'.ospf = i.ospf
  isis : i'.isis = i.isis
  nbrs : i'.nbrs = i.nbrs

/-- Final state of a node -/
structure DhcpNodeDone (ip : String → String) (nodes : List DxNode) (n n' : DxNode) : Prop where
  name : n'.name = n.name
  feat : n'.feat = n.feat
  host : n'.host = n.host
  server : n'.server = n.server
  vrfs : n'.vrfs = n.vrfs
  loopback : n'.loopback = n.loopback
  ifs : List.Forall₂ (DhcpIntfDone ip nodes n) n.ifs n'.ifs
  relay : n'.relay = true ↔ n.relay = true ∨ ∃ i ∈ n.ifs, i.server ≠ []
  vrfSet : ∀ b, n.vrf = some b → n'.vrf = some b
  vrfOn : n.vrf = none → n'.vrf = some true ∨ n'.vrf = none
  vrfIff : n.vrf = none → (n'.vrf = some true ↔ ∃ i ∈ n.ifs, i.server ≠ [] ∧ i.vrf ≠ none)

end Netlab.Spec
