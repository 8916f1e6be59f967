import Verif.Model.BgpMirror
import Verif.Spec.BgpLab
import Verif.Spec.Bgp

namespace Netlab.Spec

open Netlab

/-- The AS number a node uses in a session: the local AS of the session, or the AS of the node -/
def SessionAs (n : BgpNode) (g : BgpNgb) (a : Int) : Prop := (g.localAs = some a ∧ a ≠ 0) ∨ ((∀ i, g.localAs = some i → i = 0) ∧ n.bgpAs = some a)

/-- Session `g` of node `x` goes from interface `i` of `x` to interface `j` of `y`: the interfaces are on the same link and the address of the neighbor is the address of `j`. -/
structure SessionOver (text : Nat → String) (x y : BgpNode) (g : BgpNgb) (i j : NodeIf) : Prop where
  local_node : i.node = x.name
  remote_node : j.node = y.name
  link : i.link = j.link
  name : g.name = y.name
  ifindex : g.ifindex = some i.ifindex
  ipv4 : ngbAddr "ipv4" g = (NodeIf.addrIn "ipv4" j).map text
  ipv6 : ngbAddr "ipv6" g = (NodeIf.addrIn "ipv6" j).map text

/-- Both ends of a session agree: session types are the same and both nodes expect the AS number the other node uses. -/
structure Agree (x y : BgpNode) (g g' : BgpNgb) : Prop where
  type : g.type = g'.type
  remote : SessionAs y g' g.asn
  «local» : SessionAs x g g'.asn

/-- All BGP nodes use the default list of sessions in both address families and BGP is not disabled on an interface or in a VRF. -/
structure DefaultBgp (topo : List BgpNode) : Prop where
  sessions : ∀ n ∈ topo, n.sessions = .default
  interfaces : ∀ n ∈ topo, ∀ l ∈ n.interfaces, l.bgp ≠ .off
  vrfs : ∀ n ∈ topo, n.vrfOff = []

/-- A node that uses an AS number on a link runs BGP and has an AS number. -/
def AsOnBgpNodes (topo : List BgpNode) : Prop := ∀ n ∈ topo, ∀ l ∈ n.interfaces, ∀ a, LinkAs n l.bgp a → ∃ b, n.bgpAs = some b ∧ b ≠ 0

/-- No errors are reported for EBGP sessions. -/
def NoBgpErrors (topo : List BgpNode) : Prop := ∀ n ∈ topo, ∀ a, n.bgpAs = some a → (buildBgpSessions topo n a).2 = 0

end Netlab.Spec
