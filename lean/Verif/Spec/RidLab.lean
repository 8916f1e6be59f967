import Verif.Model.RouterId
import Verif.Spec.LabAddr

namespace Netlab.Spec

open Netlab

/-- A node before router identifiers are assigned: the user did not specify router identifiers, and the node has the IPv4 loopback address (if any) assigned to its loopback interface. -/
structure RidStart (x : LbNode × LbState) (n : RidNode) : Prop where
  id : n.id = x.1.id
  lb : n.lb = lbAddrOf (x.2.lb.lookup "ipv4")
  rid : n.rid = none
  protos : n.protos = []

/-- Address pools used for router identifiers: the `router_id` pool and the pools used for loopback addresses -/
def RidPool (nodes : List LbNode) (p : String) : Prop := p = "router_id" ∨ ∃ n ∈ nodes, n.host = false ∧ LbNode.poolName n = p

/-- Prefixes were not allocated sequentially from the pool: not by the requests described by `log` and not while router identifiers are assigned. -/
def NotSequential (log : List (Nat × Option String × List (String × PfxEntry))) (ops : List RidOp) (p : String) : Prop :=
  (∀ e ∈ log, e.2.1 = some p → e.1 ≠ 0) ∧ ∀ pl, .other pl 0 ∈ ops → pl ≠ [] ∧ p ∉ pl

/-- Two pools can be used for router identifiers at the same time: it's the same pool, they have no common addresses, or they allocate addresses of the same IPv4 prefix
to nodes based on node identifiers (like the default `loopback` and `router_id` pools). -/
def RidCompatible (pools : Pools) (log : List (Nat × Option String × List (String × PfxEntry))) (ops : List RidOp) (p q : String) : Prop :=
  p = q ∨ (∀ m k n l, AllocatesFrom pools p "ipv4" m k → AllocatesFrom pools q "ipv4" n l → Disjoint m n) ∨
  ∃ net, net.w = 32 ∧ AllocatesFrom pools p "ipv4" net 32 ∧ AllocatesFrom pools q "ipv4" net 32 ∧ NotSequential log ops p ∧ NotSequential log ops q

end Netlab.Spec
