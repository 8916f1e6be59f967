import Verif.Model.LagBridge
/-!
# Specification vocabulary: LAG links that use Linux bridges
-/

namespace Netlab.Spec
open Netlab

/-- A link between nodes of several virtualization providers: libvirt is the primary provider, and a node on the link selects
its provider. -/
def CrossProvider (e : LbEnv) (l : LbLink β) : Prop := e.libvirt = true ∧ ∃ n ∈ l.nodes, ∃ p, n.2.provider = some p

/-- A link that would be a point-to-point link: the user made it a point-to-point link, or it has two nodes, no hosts and no
DHCP subnet. -/
def PointToPoint (l : LbLink β) : Prop :=
  l.type = some "p2p" ∨
  (l.type = none ∧ l.nodes.length = 2 ∧ l.dhcp = false ∧ ∀ n ∈ l.nodes, n.2.lt.host = false)

/-- The user did not specify the type of the link, or it is one of the types of physical links. -/
def PlainType (l : LbLink β) : Prop := l.type = none ∨ l.type = some "p2p" ∨ l.type = some "lan"

end Netlab.Spec
