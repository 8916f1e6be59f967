import Verif.Model.Box
import Verif.Model.Links
/-!
# VRFs on nodes

Processing of VRFs on a node after the topology transformation and VRF loopbacks
(`netsim/modules/vrf.py:275-370, 488-551`).

Simplifications:

* loopback addresses are in the format used in interface data; `given` are the addresses specified in a VRF (no address
  when they cannot be parsed), `pool` are the addresses allocated from the pool `vrf_loopback` (the first argument is the
  number of earlier allocations);
* an interface in an unknown VRF is an error, the VRF is not added to the node;
* OSPF areas of loopbacks, BGP router IDs and BGP import lists are not modelled.
-/

namespace Netlab

/-- IPv4 or IPv6 address of an interface, `netsim/modules/vrf.py:300-304, 501-504`; `unnumbered` is the value `True`. -/
inductive VnAddr where
  | addr (a : String)
  | unnumbered
deriving DecidableEq

/-- An interface, `netsim/modules/vrf.py:298-304, 328-332, 491-504`: name, index, is it a loopback, VRF, addresses, and
the name and the address of the parent interface of an unnumbered interface. -/
structure VnIf where
  name : String
  index : Nat
  loopback : Bool
  vrf : Option String
  ipv4 : Option VnAddr
  ipv6 : Option VnAddr
  parent : Option (String × String)
deriving DecidableEq

/-- The parameter `loopback` of a VRF, `netsim/modules/vrf.py:320-322, 336-339`: missing, false (or another false value),
true or the addresses. -/
inductive VnLb where
  | missing
  | off
  | on
  | given (v4 v6 : Option String)
deriving DecidableEq

/-- A VRF on a node, `netsim/modules/vrf.py:280-293, 320-368, 491-546`. -/
structure VnVrf where
  id : Option Int
  rd : Option String
  imp : List String
  exp : List String
  loopback : VnLb
  af4 : Bool
  af6 : Bool
  networks : List (Option String × Option String)
  address : Option (Option String × Option String)
  idx : Option Nat
deriving DecidableEq

/-- A node, `netsim/modules/vrf.py:488-551`: interfaces, VRFs, `vrf.loopback`, AS numbers, is the VRF module enabled, VPN
address families. -/
structure VnNode where
  ifs : List VnIf
  vrfs : List (String × VnVrf)
  lb : Bool
  bgpAs : Option Int
  vrfAs : Option Int
  active : Bool
  vpn4 : Bool
  vpn6 : Bool
deriving DecidableEq

/-- The device of the node and the pool: `netsim/modules/vrf.py:308, 337, 516`, `netsim/augment/links.py:269-295`. -/
structure VnEnv where
  hasLb : Bool
  start : Nat
  ifname : Nat → String
  pool : Nat → Option String × Option String
  keep : Bool

/-- A node, the number of allocations from the pool and the number of errors: `netsim/modules/vrf.py:307-370`. -/
structure VnState where
  node : VnNode
  alloc : Nat
  errs : Nat

/-- Set the address families of a VRF: `netsim/modules/vrf.py:501-504`. -/
def vnSetAf (v4 v6 : Bool) (v : VnVrf) : VnVrf := { v with af4 := v.af4 || v4, af6 := v.af6 || v6 }

/-- Address families of the VRF of one interface: `netsim/modules/vrf.py:491-504`. -/
def vnIfAf (st : VnNode × Nat) (i : VnIf) : VnNode × Nat :=
  match i.vrf with
  | none => st
  | some vn =>
    match st.1.vrfs.lookup vn with
    | none => (st.1, st.2 + 1)
    | some v =>
      if v.rd.isNone then (st.1, st.2 + 1)
      else ({ st.1 with vrfs := setKey st.1.vrfs vn (vnSetAf i.ipv4.isSome i.ipv6.isSome v),
                        vpn4 := st.1.vpn4 || i.ipv4.isSome, vpn6 := st.1.vpn6 || i.ipv6.isSome }, st.2)

/-- Number of reasons to keep the VRF module: `netsim/modules/vrf.py:489, 493, 506-509`. -/
def vnCount (n : VnNode) : Nat :=
  (n.ifs.filter (fun i => i.vrf.isSome)).length +
    (n.vrfs.filter (fun p => p.2.loopback != .missing || n.lb)).length

/-- Insert a VRF into the list of VRFs sorted by the identifier (a stable sort): `netsim/modules/vrf.py:539`. -/
def vnInsert (p : String × Int) : List (String × Int) → List (String × Int)
  | [] => [p]
  | q :: rest => if q.2 < p.2 then q :: vnInsert p rest else p :: q :: rest

/-- VRFs sorted by the identifier: `netsim/modules/vrf.py:539`. -/
def vnSort : List (String × Int) → List (String × Int)
  | [] => []
  | p :: rest => vnInsert p (vnSort rest)

/-- Indices of VRFs: `netsim/modules/vrf.py:527, 539-541`. -/
def vnIndex (vrfs : List (String × VnVrf)) : List (String × VnVrf) :=
  let order := (vnSort (vrfs.map (fun p => (p.1, p.2.id.getD 0)))).map Prod.fst
  vrfs.map (fun p => (p.1, { p.2 with idx := some (100 + order.idxOf p.1) }))

/-- Does the VRF use route leaking?  `netsim/modules/vrf.py:282-284` -/
def vnLeak (v : VnVrf) : Bool :=
  let simple := v.rd.toList
  (!v.imp.isEmpty && v.imp != simple) || (!v.exp.isEmpty && v.exp != simple)

/-- Is the AS number usable?  `netsim/modules/vrf.py:286-287`, zero is a false value -/
def vnAs (a : Option Int) : Bool := a.isSome && a != some 0

/-- `validate_vrf_route_leaking`, `netsim/modules/vrf.py:280-293`. -/
def vnLeaking (st : VnNode × Nat) (p : String × VnVrf) : VnNode × Nat :=
  if vnLeak p.2 && !vnAs st.1.bgpAs then
    if vnAs st.1.vrfAs then ({ st.1 with bgpAs := st.1.vrfAs }, st.2) else (st.1, st.2 + 1)
  else st

/-- First unused loopback index: `netsim/augment/links.py:204-219, 283`; a node does not have 1000 loopbacks. -/
def vnFree (used : List Nat) : Nat → Nat → Nat
  | 0, i => i
  | k + 1, i => if used.contains i then vnFree used k (i + 1) else i

/-- Set the parent of unnumbered interfaces in the VRF: `netsim/modules/vrf.py:297-305`. -/
def vnFix (vn name addr : String) (i : VnIf) : VnIf :=
  if i.vrf == some vn && i.ipv4 == some .unnumbered then { i with parent := some (name, addr) } else i

/-- Loopback addresses: `netsim/modules/vrf.py:320-322, 334-341`; `none`: no loopback is needed.  The second value is
the number of allocations from the pool. -/
def vnLbAddr (env : VnEnv) (lb : Bool) (alloc : Nat) (v : VnVrf) : Option (Option String × Option String) × Nat :=
  match v.loopback with
  | .given a b => (if a.isNone && b.isNone then none else some (a, b), alloc)
  | .on => (if env.pool alloc = (none, none) then none else some (env.pool alloc), alloc + 1)
  | _ =>
    if lb then (if env.pool alloc = (none, none) then none else some (env.pool alloc), alloc + 1) else (none, alloc)

/-- The loopback interface: `netsim/modules/vrf.py:327-334, 351-354`. -/
def vnLbIf (env : VnEnv) (ifs : List VnIf) (vn : String) (a : Option String × Option String) : VnIf :=
  let used := (ifs.filter (fun i => i.loopback)).map VnIf.index
  let x := vnFree used (used.length + 1) (env.start + 10000)
  ⟨env.ifname (x - 10000), x, true, some vn, a.1.map .addr, a.2.map .addr, none⟩

/-- Update the VRF: `netsim/modules/vrf.py:355-356, 361-368`. -/
def vnLbVrf (a : Option String × Option String) (v : VnVrf) : VnVrf :=
  { vnSetAf a.1.isSome a.2.isSome v with networks := v.networks ++ [a], address := some a }

/-- Interfaces of the node with the loopback: `netsim/modules/vrf.py:358-359, 365`. -/
def vnLbIfs (env : VnEnv) (ifs : List VnIf) (vn : String) (a : Option String × Option String) : List VnIf :=
  let l := vnLbIf env ifs vn a
  (match a.1 with
    | some x => ifs.map (vnFix vn l.name x)
    | none => ifs) ++ [l]

/-- One VRF in `vrf_loopbacks`, `netsim/modules/vrf.py:320-368`. -/
def vnLoopback (env : VnEnv) (st : VnNode × Nat) (vn : String) : VnNode × Nat :=
  match st.1.vrfs.lookup vn with
  | none => st
  | some v =>
    match vnLbAddr env st.1.lb st.2 v with
    | (none, k) => (st.1, k)
    | (some a, k) =>
      ({ st.1 with vrfs := setKey st.1.vrfs vn (vnLbVrf a v), ifs := vnLbIfs env st.1.ifs vn a }, k)

/-- `vrf_loopbacks`, `netsim/modules/vrf.py:307-370`. -/
def vnLoopbacks (env : VnEnv) (alloc : Nat) (n : VnNode) : VnNode × Nat :=
  if env.hasLb then (n.vrfs.map Prod.fst).foldl (vnLoopback env) (n, alloc) else (n, alloc)

/-- `node_post_transform`, `netsim/modules/vrf.py:488-546`; `none` is the exit caused by an invalid VRF. -/
def vnPost (env : VnEnv) (alloc : Nat) (n : VnNode) : Option VnState :=
  let a := n.ifs.foldl vnIfAf (n, 0)
  if vnCount a.1 = 0 then
    some ⟨if env.keep then a.1 else { a.1 with active := false, vrfs := [] }, alloc, a.2⟩
  else if a.1.vrfs.any (fun p => p.2.id.isNone) then none
  else
    let b : VnNode := { a.1 with vrfs := vnIndex a.1.vrfs }
    let c := b.vrfs.foldl vnLeaking (b, a.2)
    let d := vnLoopbacks env alloc c.1
    some ⟨d.1, d.2, c.2⟩

end Netlab
