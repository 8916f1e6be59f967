import Verif.Spec.Dhcp
import Verif.Model.DhcpServer
/-!
# Specification vocabulary: DHCP pools on DHCP servers
-/

namespace Netlab.Spec
open Netlab

/-- The node serves exactly the VLANs and links with DHCP clients. -/
def ServesAllClients (t : DhcpTopo) (n : DsNode) : Prop :=
  ∃ ps, n.pools = some ps ∧ ∀ k, (∃ p, (k, p) ∈ ps) ↔ ∃ l ∈ t.links, HasClients l ∧ PoolOfLink t l k

/-- Some pool with DHCP clients is in a VRF. -/
def SomeVrfPool (t : DhcpTopo) (poolVrf : String → Option String) : Prop :=
  ∃ k, (∃ l ∈ t.links, HasClients l ∧ PoolOfLink t l k) ∧ (poolVrf k).isSome = true

end Netlab.Spec
