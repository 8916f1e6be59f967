import Verif.Model.Val
import Verif.Model.Net
/-!
# Address pools (`netsim/augment/addressing.py`)
-/

namespace Netlab

/-- The state of a pool for one address family: the `subnets` generator created in
`netsim/augment/addressing.py:213-228` (`create_pool_generators`) is its position in the
sequence of subnets, and the list of subnets requested by index is `cache_<af>`
(`netsim/augment/addressing.py:256-259`). -/
structure Gen where
  pool : Net
  plen : Nat
  pos : Nat
  cache : List Net
  deriving Repr, DecidableEq

/-- `next(generator)`: `none` is the `StopIteration` exception
(`netsim/augment/addressing.py:243` and `netsim/augment/addressing.py:269`). -/
def Gen.next? (g : Gen) : Option (Net × Gen) :=
  if g.pos < g.pool.numSubnets g.plen then
    some (g.pool.subnet g.plen g.pos, { g with pos := g.pos + 1 })
  else none

/-- The loop of `netsim/augment/addressing.py:241-244` (`get_nth_subnet`): append `k`
elements to the cache, where `k` is the number of missing elements; the flag is `false`
when the generator ran out of subnets (the elements taken so far stay in the cache). -/
def Gen.fill : Nat → Gen → Gen × Bool
  | 0, g => (g, true)
  | k + 1, g =>
    match g.next? with
    | none => (g, false)
    | some (s, g') => Gen.fill k { g' with cache := g'.cache ++ [s] }

/-- One iteration of the loop in `netsim/augment/addressing.py:246-278`
(`get_pool_prefix`) for a generator attribute.  `n = 0` stands for a missing (or zero)
index: the next prefix is requested.  `none` is a reported error. -/
def Gen.request (n : Nat) (g : Gen) : Option Net × Gen :=
  if n = 0 then
    match g.next? with
    | none => (none, g)
    | some (s, g') => (some s, g')
  else
    match g.fill (n - g.cache.length) with
    | (g', false) => (none, g')
    | (g', true) => (g'.cache[n-1]?, g')

/-- `netsim/augment/addressing.py:213-228` (`create_pool_generators`) for one address
family of a pool: the first subnet is skipped for host prefixes and in the loopback
pool.  `pname` is the pool name. -/
def Gen.create (pname : String) (pool : Net) (plen : Nat) : Gen :=
  let skip := (pool.w = 32 && plen = 32) || (pool.w = 128 && plen ≥ 127) || pname = "loopback"
  { pool := pool, plen := plen, pos := if skip then 1 else 0, cache := [] }

/-- An attribute of a pool after `netsim/augment/addressing.py:213-228`
(`create_pool_generators`): a generator, or a copied attribute (`unnumbered`,
`allocation`, Boolean address family...). -/
inductive PoolEntry where
  | gen (g : Gen)
  | attr (v : Val)
  deriving Repr

/-- An attribute of the prefix returned by `netsim/augment/addressing.py:246-278`
(`get_pool_prefix`). -/
inductive PfxEntry where
  | net (n : Net)
  | attr (v : Val)
  deriving Repr

/-- A pool is a dictionary of attributes (`netsim/augment/addressing.py:217-227`). -/
abbrev Pool := List (String × PoolEntry)

/-- The dictionary of pools (`netsim/augment/addressing.py:216-217`). -/
abbrev Pools := List (String × Pool)

/-- `netsim/augment/addressing.py:246-278` (`get_pool_prefix`) for one pool: the resulting
prefix, the new pool state and the number of errors reported.  Caches are parts of the
generator state, so the `'cache' in af` test is not needed. -/
def poolPrefix (n : Nat) : Pool → List (String × PfxEntry) × Pool × Nat
  | [] => ([], [], 0)
  | (af, .attr v) :: r =>
    let (p, r', e) := poolPrefix n r
    ((af, .attr v) :: p, (af, .attr v) :: r', e)
  | (af, .gen g) :: r =>
    let (p, r', e) := poolPrefix n r
    match g.request n with
    | (none, g') => (p, (af, .gen g') :: r', e + 1)
    | (some s, g') => ((af, .net s) :: p, (af, .gen g') :: r', e)

/-- `netsim/augment/addressing.py:230-239` (`get_pool`) -/
def getPool (pools : Pools) : List String → Option String
  | [] => none
  | p :: ps => if pools.any (fun kv => kv.1 == p) then some p else getPool pools ps

/-- Dictionary update `pools[p] = x` for an existing key (`netsim/augment/addressing.py:246-278`
modifies the pool in place). -/
def setPool (p : String) (x : Pool) : Pools → Pools
  | [] => []
  | (k, y) :: r => if k == p then (k, x) :: r else (k, y) :: setPool p x r

/-- `netsim/augment/addressing.py:280-287` (`get`): selected pool (`none` = error), prefix,
new pools, number of errors. -/
def getPrefix (pools : Pools) (poolList : List String) (n : Nat) :
    Option String × List (String × PfxEntry) × Pools × Nat :=
  let pl := if poolList.isEmpty then ["lan"] else poolList
  match getPool pools pl with
  | none => (none, [], pools, 1)
  | some p =>
    let (pfx, pool', e) := poolPrefix n ((pools.lookup p).getD [])
    (some p, pfx, setPool p pool' pools, e)

/-- A history of prefix requests (pool list, index or 0), i.e. calls of
`netsim/augment/addressing.py:280-287` (`get`); the log lists for each request the index,
the selected pool and the prefix. -/
def runRequests (pools : Pools) : List (List String × Nat) →
    List (Nat × Option String × List (String × PfxEntry)) × Pools
  | [] => ([], pools)
  | (pl, n) :: rs =>
    let (p, pfx, pools', _) := getPrefix pools pl n
    let (log, pools'') := runRequests pools' rs
    ((n, p, pfx) :: log, pools'')

end Netlab
