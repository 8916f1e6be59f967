import Verif.Model.Pools
import Verif.Model.Box
import Verif.Model.Evpn
/-!
# Setup of address pools and named prefixes (`netsim/augment/addressing.py`)

Address prefixes are given as parsed networks.  Pool attributes `start` and `mac` are left out, and so is the order of attributes
of a pool.
-/

namespace Netlab

/-- Value of an address family in a pool (`netsim/augment/addressing.py:67-75`): a boolean, the text of a network, or a text that is not
a network -/
inductive PdAf where
  | flag (b : Bool)
  | net (n : Net)
  | bad
  deriving Repr, DecidableEq

/-- A pool given as a dictionary (`netsim/defaults/attributes.yml:111-119`) -/
structure PdPool where
  ipv4 : Option PdAf := none
  ipv6 : Option PdAf := none
  pfx : Option Int := none
  prefix6 : Option Int := none
  unnumbered : Option Bool := none
  allocation : Option String := none
  deriving Repr, DecidableEq

/-- The definition of a pool (`netsim/augment/addressing.py:77-82`): an empty value, a text (`none`: not a network), or a dictionary -/
inductive PdDef where
  | null
  | text (n : Option Net)
  | dict (p : PdPool)
  deriving Repr, DecidableEq

/-- The inner function in `netsim/augment/addressing.py:67-75` (`normalize_ip`): the new value and the number of errors -/
def pdNormIp : PdAf → PdAf × Nat
  | .bad => (.flag false, 1)
  | a => (a, 0)

/-- One address family in `netsim/augment/addressing.py:82-87` -/
def pdNormAf (unnumbered : Bool) : Option PdAf → Option PdAf × Nat
  | none => (none, 0)
  | some a => if a = .flag false || unnumbered then (none, 0) else (some (pdNormIp a).1, (pdNormIp a).2)

/-- `netsim/augment/addressing.py:64-88` (`normalize_prefix`).  The test is `'unnumbered' in pfx`: the value does not matter. -/
def pdNorm : PdDef → PdPool × Nat
  | .null => ({}, 0)
  | .text (some n) => ({ ipv4 := some (pdNormIp (.net n)).1 }, (pdNormIp (.net n)).2)
  | .text none => ({ ipv4 := some (pdNormIp .bad).1 }, (pdNormIp .bad).2)
  | .dict p =>
    ({ p with ipv4 := (pdNormAf p.unnumbered.isSome p.ipv4).1, ipv6 := (pdNormAf p.unnumbered.isSome p.ipv6).1 },
     (pdNormAf p.unnumbered.isSome p.ipv4).2 + (pdNormAf p.unnumbered.isSome p.ipv6).2)

/-- `legacy + addrs` for one pool (`netsim/augment/addressing.py:108`) -/
def pdMerge (old : Option PdDef) (new : PdDef) : PdDef :=
  match old, new with
  | some (.dict a), .dict b =>
    .dict { ipv4 := b.ipv4.or a.ipv4, ipv6 := b.ipv6.or a.ipv6, pfx := b.pfx.or a.pfx, prefix6 := b.prefix6.or a.prefix6,
            unnumbered := b.unnumbered.or a.unnumbered, allocation := b.allocation.or a.allocation }
  | _, b => b

/-- `'loopback' in pool` (`netsim/augment/addressing.py:114`) -/
def pdIsLoopback (n : String) : Bool := pySubstr "loopback".toList n.toList

/-- The loop body in `netsim/augment/addressing.py:111-115` -/
def pdClean (p : String × PdDef) : (String × PdPool) × Nat :=
  let a := pdNorm p.2
  ((p.1, if a.1.ipv4.isSome && a.1.pfx.isNone then { a.1 with pfx := some (if pdIsLoopback p.1 then 32 else 24) } else a.1), a.2)

/-- `netsim/augment/addressing.py:97-117` (`setup_pools`); `legacy` are the pools built from legacy settings
(`netsim/augment/addressing.py:102-106`). -/
def pdSetup (legacy : List (String × PdPool)) (addrs : List (String × PdDef)) : List (String × PdPool) × Nat :=
  let merged := addrs.foldl (fun d p => setKey d p.1 (pdMerge (d.lookup p.1) p.2)) (legacy.map (fun p => (p.1, PdDef.dict p.2)))
  let l := merged.map pdClean
  (l.map (·.1), (l.map (·.2)).sum)

/-- Type of a prefix of a pool (`netsim/augment/addressing.py:120-128`, `netsim/augment/addressing.py:151-163`) -/
def pdAfErr (w : Nat) : Option PdAf → Nat
  | some (.net n) => if n.w = w then 0 else 1
  | some .bad => 1
  | _ => 0

/-- Range of a prefix length (`netsim/augment/addressing.py:120-128`, `netsim/defaults/attributes.yml:111-119`) -/
def pdLenErr (w : Int) : Option Int → Nat
  | some x => if x < 1 || x > w then 1 else 0
  | none => 0

/-- Attribute validation (`netsim/augment/addressing.py:119-128`, `netsim/defaults/attributes.yml:111-119`): address families and the ranges of
prefix lengths -/
def pdAttrErrors (p : PdPool) : Nat := pdAfErr 32 p.ipv4 + pdAfErr 128 p.ipv6 + pdLenErr 32 p.pfx + pdLenErr 128 p.prefix6

/-- Length of IPv4 subnets (`netsim/augment/addressing.py:176-197`) -/
def pdSubnetErr (n : Net) : Option Int → Nat
  | none => 1
  | some x => (if x > 32 || x < 1 then 1 else 0) + (if x < n.plen then 1 else 0)

/-- IPv4 prefix of a pool (`netsim/augment/addressing.py:175-197`) -/
def pdV4Err (name : String) (len : Option Int) : Option PdAf → Nat
  | some (.net n) => if name = "mgmt" then 0 else pdSubnetErr n len
  | _ => 0

/-- IPv6 prefix of a pool (`netsim/augment/addressing.py:199-204`) -/
def pdV6Err (name : String) : Option PdAf → Nat
  | some (.net n) => if n.plen > 56 && name != "mgmt" then 1 else 0
  | _ => 0

/-- The loop body in `netsim/augment/addressing.py:143-203` -/
def pdPoolErrors (name : String) (p : PdPool) : Nat := pdV4Err name p.pfx p.ipv4 + pdV6Err name p.ipv6

/-- Default prefix length of the management pool (`netsim/augment/addressing.py:139-141`) -/
def pdMgmt (pools : List (String × PdPool)) : List (String × PdPool) :=
  let m := (pools.lookup "mgmt").getD {}
  setKey pools "mgmt" { m with pfx := some (m.pfx.getD 24) }

/-- `netsim/augment/addressing.py:119-209` (`validate_pools`): number of errors -/
def pdErrors (pools : List (String × PdPool)) : Nat :=
  (pools.map (fun p => pdAttrErrors p.2)).sum +
  (["lan", "loopback"].map (fun k => if (pools.lookup k).isSome then 0 else 1)).sum +
  ((pdMgmt pools).map (fun p => pdPoolErrors p.1 p.2)).sum +
  (match pools.lookup "loopback" with
   | some p => if p.ipv4.isNone && p.ipv6.isNone then 1 else 0
   | none => 1)

/-- The first subnet of the generator is skipped (`netsim/augment/addressing.py:224-225`). -/
def pdSkip (name : String) (n : Net) (plen : Nat) : Bool :=
  (n.w = 32 && plen = 32) || (n.w = 128 && plen ≥ 127) || name = "loopback"

/-- One address family of a pool (`netsim/augment/addressing.py:219-227`): `none` is the `ValueError` exception raised when the first
subnet is taken from a generator with an invalid prefix length. -/
def pdEntry (name : String) (plen : Nat) : PdAf → Option PoolEntry
  | .flag b => some (.attr (.bool b))
  | .bad => some (.attr .null)
  | .net n => if pdSkip name n plen && (plen < n.plen || plen > n.w) then none else some (.gen (Gen.create name n plen))

/-- An optional attribute (`netsim/augment/addressing.py:219-227`) -/
def pdOpt {α : Type} (k : String) (f : α → Option PoolEntry) : Option α → Option Pool
  | none => some []
  | some a => (f a).map (fun x => [(k, x)])

/-- The body of the loop in `netsim/augment/addressing.py:217-227` (`create_pool_generators`) -/
def pdGen (name : String) (p : PdPool) : Option Pool := do
  let a ← pdOpt "ipv4" (pdEntry name (p.pfx.getD 0).toNat) p.ipv4
  let b ← pdOpt "ipv6" (pdEntry name (p.prefix6.getD 64).toNat) p.ipv6
  let c ← pdOpt "prefix6" (fun x => some (.attr (.int x))) p.prefix6
  let d ← pdOpt "unnumbered" (fun x => some (.attr (.bool x))) p.unnumbered
  let e ← pdOpt "allocation" (fun x => some (.attr (.str x))) p.allocation
  some (a ++ b ++ c ++ d ++ e)

/-- `netsim/augment/addressing.py:213-228` (`create_pool_generators`) -/
def pdGens (pools : List (String × PdPool)) : Option Pools := pools.mapM (fun p => (pdGen p.1 p.2).map (fun x => (p.1, x)))

/-- `netsim/augment/addressing.py:289-305` (`setup`) without named prefixes: `error` means the topology was rejected, `ok none` that
the setup crashed. -/
def pdStart (legacy : List (String × PdPool)) (addrs : List (String × PdDef)) : Except Nat (Option Pools) :=
  let a := pdSetup legacy addrs
  if a.2 + pdErrors a.1 = 0 then .ok (pdGens (pdMgmt a.1)) else .error (a.2 + pdErrors a.1)

/-- A named prefix (`netsim/augment/addressing.py:316-339`): pool, `_name` attribute, other attributes -/
structure NamedPfx where
  pool : Option String := none
  name : Option String := none
  data : List (String × PfxEntry) := []
  deriving Repr

/-- `topology.prefix[pname] + pool_pfx` (`netsim/augment/addressing.py:336`) -/
def npMerge (d pfx : List (String × PfxEntry)) : List (String × PfxEntry) := pfx.foldl (fun d x => setKey d x.1 x.2) d

/-- The named prefixes, the pools, number of errors (`netsim/augment/addressing.py:316-339`) -/
structure NpState where
  pools : Pools
  pfxs : List (String × NamedPfx)
  errors : Nat := 0

/-- `netsim/augment/addressing.py:316-339` (`evaluate_named_prefix`) -/
def npEval (st : NpState) (n : String) : NpState :=
  match st.pfxs.lookup n with
  | none => st
  | some p =>
    match p.pool with
    | none => { st with pfxs := setKey st.pfxs n { p with name := some n } }
    | some q =>
      if st.pools.any (fun kv => kv.1 == q) then
        let r := poolPrefix 0 ((st.pools.lookup q).getD [])
        { pools := setPool q r.2.1 st.pools,
          pfxs := setKey st.pfxs n { pool := none, name := some n, data := npMerge p.data r.1 },
          errors := st.errors + r.2.2 }
      else { st with pfxs := setKey st.pfxs n { p with name := some n }, errors := st.errors + 1 }

/-- `netsim/augment/addressing.py:344-347` (`setup_prefixes`) -/
def npSetup (st : NpState) : NpState :=
  st.pfxs.foldl (fun st p => if p.2.pool.isSome then npEval st p.1 else st) st

end Netlab
