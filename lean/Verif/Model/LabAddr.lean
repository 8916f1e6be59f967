import Verif.Model.Ipam
import Verif.Model.Loopback
/-!
# Addresses of all links in the lab

Prefixes of links and addresses of interfaces (`netsim/augment/links.py:356-458`, `netsim/augment/links.py:665-737`, `netsim/augment/links.py:1217-1236`)

Links have passed the check of link types.  Texts are parsed (C113); a text that cannot be parsed is an error counted in the link data.
-/

namespace Netlab

/-- An interface attached to a link (`netsim/augment/links.py:556-592`): node and addresses -/
structure LaIntf where
  node : String
  v4 : IfAddr
  v6 : IfAddr
  deriving DecidableEq

/-- A link (`netsim/augment/links.py:407-458`): is it a P2P link, gateway ID, the parsed prefix (when there is one) and the number of errors found while
parsing it, `unnumbered`, `pool` and `role` attributes, pools used for this link type, and interfaces -/
structure LaLink where
  name : String
  p2p : Bool
  gwid : Option Int
  pfx : Option (List (String × PfxEntry) × Nat)
  unnumbered : Bool
  pool : Option String
  role : Option String
  dflt : List String
  ifs : List LaIntf

/-- Result of `netsim/augment/links.py:407-458`: the pool the prefix was taken from, the prefix, new pools and the number of errors -/
structure LaPrefix where
  src : Option String
  pfx : List (String × PfxEntry)
  pools : Pools
  err : Nat

/-- `netsim/augment/links.py:437-446`: candidate pools and the number of errors -/
def laCandidates (pools : Pools) (l : LaLink) : List String × Nat :=
  match l.pool, l.role with
  | some p, _ => (p :: l.dflt, if (pools.lookup p).isSome then 0 else 1)
  | none, some r => (r :: l.dflt, 0)
  | none, none => (l.dflt, 0)

/-- `netsim/augment/links.py:433-456`: unnumbered link, or a prefix from a pool; `extra` are other attributes of the link prefix -/
def laFromPool (pools : Pools) (l : LaLink) (extra : List (String × PfxEntry)) : LaPrefix :=
  if l.unnumbered then ⟨none, [("unnumbered", .attr (.bool true))], pools, 0⟩
  else
    let c := laCandidates pools l
    let r := getPrefix pools c.1 0
    ⟨r.1, extra.foldl (fun d x => setKey d x.1 x.2) r.2.1, r.2.2.1, c.2 + r.2.2.2⟩

/-- Does the prefix contain the attribute? (`netsim/augment/links.py:428`) -/
def laHas (k : String) (d : List (String × PfxEntry)) : Bool := (d.lookup k).isSome

/-- `netsim/augment/links.py:407-458` (`assign_link_prefix`) without the first-hop gateway -/
def laPrefix (pools : Pools) (l : LaLink) : LaPrefix :=
  match l.pfx with
  | none => laFromPool pools l []
  | some (d, e) =>
    if d.isEmpty || laHas "ipv4" d || laHas "ipv6" d then ⟨none, d, pools, e⟩
    else
      let r := laFromPool pools l d
      { r with err := r.err + e }

/-- `netsim/augment/links.py:371-385` for an address family: gateway address and the number of errors -/
def laGwAf (gwid : Option Int) (e : Option PfxEntry) : Option (Nat × Nat) × Nat :=
  match gwid, e with
  | some g, some (.net n) =>
    if g = 0 then (none, 0)
    else
      match n.nth? g with
      | some a => (some (a, n.plen), 0)
      | none => (none, 1)
  | _, _ => (none, 0)

/-- `netsim/augment/links.py:356-390` (`get_gateway_id`, `set_fhrp_gateway`): IPv4 and IPv6 gateway and the number of errors.  The IPv6 address is not set after
an error. -/
def laGateway (gwid : Option Int) (pfx : List (String × PfxEntry)) : Option (Nat × Nat) × Option (Nat × Nat) × Nat :=
  let r4 := laGwAf gwid (pfx.lookup "ipv4")
  if r4.2 ≠ 0 then (none, none, r4.2)
  else
    let r6 := laGwAf gwid (pfx.lookup "ipv6")
    (r4.1, r6.1, r6.2)

/-- The `allocation` attribute of the prefix (`netsim/augment/links.py:649-655`, `netsim/augment/links.py:701-702`): no value when there is none; the inner value is
missing when the policy is not known, which is an exception (`netsim/augment/links.py:730`). -/
def laAlloc (pfx : List (String × PfxEntry)) : Option (Option Policy) :=
  match pfx.lookup "allocation" with
  | none => none
  | some (.attr (.str s)) =>
    some (if s = "unnumbered" then some .unnumbered else if s = "p2p" then some .p2p else if s = "sequential" then some .sequential
      else if s = "id_based" then some .idBased else if s = "loopback" then some .loopback else none)
  | some _ => some none

/-- `netsim/augment/links.py:681-731` for an address family: interfaces and the "no error" flag; `none` is an exception.  `loop` says whether a node has a loopback
interface with an address in this address family. -/
def laAf (p2p : Bool) (gwid : Option Int) (alloc : Option (Option Policy)) (ids : String → Int) (loop : String → Option Bool) (v6 : Bool) (e : Option PfxEntry)
    (ifs : List LinkIntf) : Option (List LinkIntf × Bool) :=
  match e with
  | none => some (ifs, true)
  | some (.attr (.bool b)) => some (ipamUnnumbered (some b) loop v6 ifs)
  | some (.attr _) => some (ifs, false)
  | some (.net n) =>
    match alloc with
    | none => assignAf p2p gwid none ids loop v6 n ifs
    | some none => none
    | some (some p) => assignAf p2p gwid (some p) ids loop v6 n ifs

/-- An addressed link: the pool and the prefix, gateways, interfaces in IPv4 and IPv6, and the number of errors (`netsim/augment/links.py:1229-1236`) -/
structure LaOut where
  src : Option String
  pfx : List (String × PfxEntry)
  gw4 : Option (Nat × Nat)
  gw6 : Option (Nat × Nat)
  if4 : List LinkIntf
  if6 : List LinkIntf
  err : Nat

/-- Interfaces of a link in IPv4 and IPv6 and the number of errors: `netsim/augment/links.py:665-737` (`assign_interface_addresses`); `none` is an exception.
Addresses in address families that are not in the prefix are not checked here. -/
def laAssign (ids : String → Int) (loop4 loop6 : String → Option Bool) (l : LaLink) (pfx : List (String × PfxEntry)) : Option (List LinkIntf × List LinkIntf × Nat) :=
  let i4 := l.ifs.map (fun i => (⟨i.node, i.v4⟩ : LinkIntf))
  let i6 := l.ifs.map (fun i => (⟨i.node, i.v6⟩ : LinkIntf))
  if pfx.isEmpty then some (i4, i6, 0)
  else if laHas "unnumbered" pfx then
    let r4 := ipamUnnumbered none loop4 false i4
    let r6 := ipamUnnumbered none loop6 true i6
    some (r4.1, r6.1, (if r4.2 then 0 else 1) + (if r6.2 then 0 else 1))
  else
    match laAf l.p2p l.gwid (laAlloc pfx) ids loop4 false (pfx.lookup "ipv4") i4, laAf l.p2p l.gwid (laAlloc pfx) ids loop6 true (pfx.lookup "ipv6") i6 with
    | some r4, some r6 => some (r4.1, r6.1, (if r4.2 then 0 else 1) + (if r6.2 then 0 else 1))
    | _, _ => none

/-- One link in `netsim/augment/links.py:1229-1236` (`transform`); `dup` is `defaults.warnings.duplicate_address`. -/
def laLink (ids : String → Int) (loop4 loop6 : String → Option Bool) (dup : Bool) (pools : Pools) (l : LaLink) : Option (LaOut × Pools) :=
  let p := laPrefix pools l
  let g := laGateway l.gwid p.pfx
  match laAssign ids loop4 loop6 l p.pfx with
  | none => none
  | some r =>
    let d := if dup then dupCheck g.1 r.1 + dupCheck g.2.1 r.2.1 else 0
    some (⟨p.src, p.pfx, g.1, g.2.1, r.1, r.2.1, p.err + g.2.2 + r.2.2 + d⟩, p.pools)

/-- The loop over links in `netsim/augment/links.py:1221-1238` (`transform`) -/
def laLinks (ids : String → Int) (loop4 loop6 : String → Option Bool) (dup : Bool) : Pools → List LaLink → Option (List LaOut × Pools)
  | pools, [] => some ([], pools)
  | pools, l :: r =>
    match laLink ids loop4 loop6 dup pools l with
    | none => none
    | some x =>
      match laLinks ids loop4 loop6 dup x.2 r with
      | none => none
      | some y => some (x.1 :: y.1, y.2)

end Netlab
