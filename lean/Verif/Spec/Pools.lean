import Verif.Model.Pools
import Verif.Spec.Net
/-!
# Specification vocabulary for address pools
-/

namespace Netlab.Spec

/-- Pool `p` allocates subnets of length `plen` of prefix `net` for address family `af`. -/
def AllocatesFrom (pools : Pools) (p af : String) (net : Net) (plen : Nat) : Prop :=
  ∃ pool g, pools.lookup p = some pool ∧ pool.lookup af = some (.gen g) ∧
    g.pool = net ∧ g.plen = plen

/-- The pools in their initial state: attribute names are unique within a pool, and every
generator was created from a valid network and a subnet prefix length that is not shorter
than the pool prefix (checked in `netsim/augment/addressing.py:175-203`). -/
def FreshPools (pools : Pools) : Prop :=
  ∀ p pool, pools.lookup p = some pool →
    (pool.map (·.1)).Nodup ∧
    ∀ af g, (af, PoolEntry.gen g) ∈ pool →
      g.pool.WF ∧ g.pool.plen ≤ g.plen ∧ g.plen ≤ g.pool.w ∧ g = Gen.create p g.pool g.plen

/-- Log entry `e` hands out prefix `s` for address family `af` from pool `p`. -/
def HandsOut (e : Nat × Option String × List (String × PfxEntry)) (p af : String) (s : Net) :
    Prop :=
  e.2.1 = some p ∧ (af, PfxEntry.net s) ∈ e.2.2

end Netlab.Spec
