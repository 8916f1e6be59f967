import Verif.Model.Bgp
/-!
# Specification of IBGP and EBGP sessions

A small vocabulary that does not use the functions building the sessions.
-/

namespace Netlab.Spec

/-- `n` is a BGP route reflector in AS `a`. -/
def RouteReflector (n : BgpNode) (a : Int) : Prop := n.bgpAs = some a ∧ n.rr = some true

/-- `af` is the set of addresses other routers use to reach the router over IBGP: addresses of its
loopback interface; a daemon without a loopback uses its first interface. -/
inductive IbgpAddresses (n : BgpNode) : AfAddr → Prop
  | loopback (l : AfAddr) : n.loopback = some l → IbgpAddresses n l
  | daemon (i : BgpIntf) (r : List BgpIntf) : n.loopback = none → n.daemon = true →
      n.interfaces = i :: r → IbgpAddresses n ⟨i.ipv4, i.ipv6⟩

/-- Router `x` is willing to run sessions of type `t` over an address family with addresses `af`. -/
def Usable (s : Sessions) (t : SType) (af : AfAddr) : Prop :=
  (t ∈ s.ipv4 ∧ af.ipv4 ≠ none) ∨ (t ∈ s.ipv6 ∧ af.ipv6 ≠ none)

/-- `x` can reach `y` over IBGP. -/
def IbgpReachable (x y : BgpNode) : Prop :=
  ∃ af, IbgpAddresses y af ∧ Usable x.sessions .ibgp af

/-- The routers should have an IBGP session: same AS, different routers, and either there are no route reflectors in
the AS or one of them is a route reflector. -/
def IbgpWanted (topo : List BgpNode) (x y : BgpNode) (a : Int) : Prop :=
  x.bgpAs = some a ∧ y.bgpAs = some a ∧ x.name ≠ y.name ∧
  ((¬ ∃ r ∈ topo, RouteReflector r a) ∨ x.rr = some true ∨ y.rr = some true)

/-- `a` is the AS number a router uses on a link: the local AS of the interface, or the local AS of
the node, or the AS of the node (zero counts as missing). -/
inductive LinkAs (n : BgpNode) (b : IfBgp) : Int → Prop
  | intf (a : Int) : b = .attrs (some a) → a ≠ 0 → LinkAs n b a
  | node (a : Int) : (∀ i, b = .attrs (some i) → i = 0) → n.localAs = some a → a ≠ 0 → LinkAs n b a
  | real (a : Int) : (∀ i, b = .attrs (some i) → i = 0) → (∀ i, n.localAs = some i → i = 0) →
      n.bgpAs = some a → a ≠ 0 → LinkAs n b a

/-- Session type on a link between AS numbers `a` and `b`: EBGP if the AS numbers are different; with equal AS
numbers (which then have to be fake, see `EbgpWanted`) it is an IBGP session built with local AS. -/
def LinkType (a b : Int) (t : SType) : Prop := (a ≠ b ∧ t = .ebgp) ∨ (a = b ∧ t = .localasIbgp)

/-- Router `x` should have a session of type `t` with router `y` over interface `l`, where `q` describes the
interface of the neighbor: BGP is not disabled on the interface, both interfaces have an address,
both routers have an AS number (`ax`, `ay`) on that link, they are not two routers of the same AS using the same AS
number on the link, the session type is enabled for an address family of the neighbor and BGP is not disabled in
the VRF of the interface. -/
structure EbgpWanted (x : BgpNode) (l : BgpIntf) (y : BgpNode) (q : NgbIf) (t : SType) (ax ay : Int) : Prop where
  enabled : l.bgp ≠ .off
  addrX : l.ipv4 ≠ none ∨ l.ipv6 ≠ none
  addrY : q.ipv4 ≠ none ∨ q.ipv6 ≠ none
  asX : LinkAs x l.bgp ax
  asY : LinkAs y q.bgp ay
  differ : ¬ (x.bgpAs = y.bgpAs ∧ ax = ay)
  type : LinkType ax ay t
  usable : Usable x.sessions t ⟨q.ipv4, q.ipv6⟩
  vrf : ∀ v, l.vrf = some v → v ∉ x.vrfOff

/-- Data of the session of `x` with `y` over interface `l` (`t`: session type, `ay`: AS number of the neighbor).  The
local AS is that of the interface or of the node.  IPv4 prefixes with IPv6 next hops are used when the link has
unnumbered IPv4; an interface session (`localIf`) is used when both ends have link-local IPv6 addresses only, or
unnumbered IPv4 without numbered IPv6. -/
structure EbgpData (x : BgpNode) (l : BgpIntf) (y : BgpNode) (q : NgbIf) (t : SType) (ay : Int) (g : BgpNgb) : Prop where
  name : g.name = y.name
  asn : g.asn = ay
  type : g.type = t
  ifindex : g.ifindex = some l.ifindex
  vrf : g.vrf = l.vrf
  localAs : ∀ i, l.bgp = .attrs (some i) → i ≠ 0 → g.localAs = some i
  nodeLocalAs : (∀ i, l.bgp = .attrs (some i) → i = 0) → g.localAs = x.localAs
  rfc8950 : g.rfc8950 = true ↔ l.ipv4 = some (.flag true) ∧ q.ipv4 = some (.flag true)
  localIf : g.localIf = some l.ifname ↔
    (l.ipv6 = some (.flag true) ∧ q.ipv6 = some (.flag true)) ∨
    ((l.ipv4 = some (.flag true) ∧ q.ipv4 = some (.flag true)) ∧
      ¬ ((∃ ip n, l.ipv6 = some (.addr ip n)) ∧ (∃ ip n, q.ipv6 = some (.addr ip n))))
  ipv4 : g.ipv4 = (if t ∈ x.sessions.ipv4 then q.ipv4.map AddrV.peer else none)
  ipv6 : g.ipv6 = (if t ∈ x.sessions.ipv6 then q.ipv6.map AddrV.peer else none)

/-- `q` is the neighbor entry describing interface `m` of node `y`. -/
structure Describes (q : NgbIf) (y : BgpNode) (m : BgpIntf) : Prop where
  node : q.node = y.name
  ipv4 : q.ipv4 = m.ipv4
  ipv6 : q.ipv6 = m.ipv6
  bgp : q.bgp = m.bgp

end Netlab.Spec
