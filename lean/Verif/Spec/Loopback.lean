import Verif.Model.Loopback
import Verif.Spec.Pools
/-!
# Specification of loopback addresses
-/

namespace Netlab.Spec

/-- The address pool used for the loopback interface of a node -/
def LbNode.poolName (n : LbNode) : String := n.pool.getD "loopback"

/-- The node has its own loopback address. -/
def HasStatic (n : LbNode) (af : String) : Prop :=
  ∃ v, n.lb.lookup af = some v ∧ ∀ x, v = .other x → x.truthy = true

/-- The node got this loopback address from its address pool. -/
def LbFromPool (o : LbNode × LbState) (af : String) (a plen : Nat) : Prop :=
  o.1.host = false ∧ ¬ HasStatic o.1 af ∧ o.2.lb.lookup af = some (.addr a plen)

end Netlab.Spec
