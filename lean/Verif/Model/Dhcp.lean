import Verif.Model.Box

/-! DHCP pools: `netsim/modules/dhcp.py`. -/

namespace Netlab

/-- A DHCP pool being built by `netsim/modules/dhcp.py:143-247`.  Address families are Booleans (`true` for IPv6).
The VRF of the pool is not modelled. -/
structure DhcpPool where
  pfx : Bool → Option String
  gateway : Bool → Option String
  excluded : Bool → List String
  active : Bool
  name : Option String

/-- An empty pool, created by the first assignment: `netsim/modules/dhcp.py:144`. -/
def DhcpPool.empty : DhcpPool :=
  { pfx := fun _ => none
    gateway := fun _ => none
    excluded := fun _ => []
    active := false
    name := none }

/-- Global VLAN: `netsim/modules/dhcp.py:148-164`.  `gateway` is the result of `get_gateway_data`
(`netsim/modules/dhcp.py:120-126`), without the prefix length; `prefix` is `none` when it is not a string. -/
structure DhcpVlan where
  routed : Bool
  gateway : Bool → Option String
  prefix4 : Bool → Option String

/-- Node interface: VLAN name, index, DHCP client flag and address (`none` when it is not a string):
`netsim/modules/dhcp.py:169-184`, `netsim/modules/dhcp.py:230-234`. -/
structure DhcpIntf where
  vlan : Option String
  ifindex : Nat
  client : Bool → Bool
  addr : Bool → Option String

/-- Interface attached to a link: `netsim/modules/dhcp.py:222-237`. -/
structure DhcpLinkIntf where
  node : String
  ifindex : Nat
  addr : Bool → Option String

/-- Link: `netsim/modules/dhcp.py:186-220`.  `subnet` contains the address families of its DHCP clients. -/
structure DhcpLink where
  subnet : Bool → Bool
  access : Option String
  name : String
  gateway : Bool → Option String
  prefix4 : Bool → Option String
  intfs : List DhcpLinkIntf

/-- The part of the topology used by `netsim/modules/dhcp.py:143-247`.  `makeId` is `strings.make_id`, `ip` is
`get_intf_address`. -/
structure DhcpTopo where
  makeId : String → String
  ip : String → String
  vlans : List (String × DhcpVlan)
  nodes : List (String × List DhcpIntf)
  links : List DhcpLink

/-- Pools in the order in which they were created, `netsim/modules/dhcp.py:144`. -/
abbrev DhcpPools := List (String × DhcpPool)

/-- `pools[pid]` creates the pool when needed (default box): `netsim/modules/dhcp.py:158`. -/
def DhcpPools.change (ps : DhcpPools) (pid : String) (f : DhcpPool → DhcpPool) : DhcpPools :=
  setKey ps pid (f ((ps.lookup pid).getD DhcpPool.empty))

/-- Change the value of one address family, `netsim/modules/dhcp.py:155-161`. -/
def famSet {α : Type} (f : Bool → α) (af : Bool) (v : α) : Bool → α :=
  fun x => if x = af then v else f x

/-- `pools[pid][af] = pfx`, `netsim/modules/dhcp.py:158`. -/
def poolSetPfx (af : Bool) (v : String) (p : DhcpPool) : DhcpPool :=
  { p with pfx := famSet p.pfx af (some v) }

/-- `pools[pid].gateway[af] = ...`, `netsim/modules/dhcp.py:161`. -/
def poolSetGw (af : Bool) (v : String) (p : DhcpPool) : DhcpPool :=
  { p with gateway := famSet p.gateway af (some v) }

/-- `append_to_list(pools[pid].excluded,af,addr)`: `netsim/data/__init__.py:37-47`,
`netsim/modules/dhcp.py:184`. -/
def poolExclude (af : Bool) (a : String) (p : DhcpPool) : DhcpPool :=
  if (p.excluded af).contains a then p
  else { p with excluded := famSet p.excluded af (p.excluded af ++ [a]) }

/-- One address family of a VLAN: `netsim/modules/dhcp.py:155-161`. -/
def vlanPoolAf (pid : String) (v : DhcpVlan) (ps : DhcpPools) (af : Bool) : DhcpPools :=
  let ps := match v.prefix4 af with
    | some p => ps.change pid (poolSetPfx af p)
    | none => ps
  match v.gateway af with
  | some g => ps.change pid (poolSetGw af g)
  | none => ps

/-- Phase 1: `netsim/modules/dhcp.py:148-164`. -/
def vlanPools (t : DhcpTopo) : DhcpPools → List (String × DhcpVlan) → DhcpPools
  | ps, [] => ps
  | ps, (n, v) :: rest =>
    if v.routed then vlanPools t ps rest
    else vlanPools t ([false, true].foldl (vlanPoolAf (t.makeId ("vlan_" ++ n)) v) ps) rest

/-- One address family of a VLAN interface: `netsim/modules/dhcp.py:182-184`. -/
def sviAf (t : DhcpTopo) (pid : String) (i : DhcpIntf) (ps : DhcpPools) (af : Bool) : DhcpPools :=
  match i.addr af with
  | some a => ps.change pid (poolExclude af (t.ip a))
  | none => ps

/-- Interfaces of a node: `netsim/modules/dhcp.py:169-184`. -/
def sviIntfs (t : DhcpTopo) : DhcpPools → List DhcpIntf → DhcpPools
  | ps, [] => ps
  | ps, i :: rest =>
    match i.vlan with
    | none => sviIntfs t ps rest
    | some v =>
      match ps.lookup (t.makeId ("vlan_" ++ v)) with
      | none => sviIntfs t ps rest
      | some _ => sviIntfs t ([false, true].foldl (sviAf t (t.makeId ("vlan_" ++ v)) i) ps) rest

/-- Phase 2: `netsim/modules/dhcp.py:168-184`. -/
def sviNodes (t : DhcpTopo) : DhcpPools → List (String × List DhcpIntf) → DhcpPools
  | ps, [] => ps
  | ps, n :: rest => sviNodes t (sviIntfs t ps n.2) rest

/-- The pool of a link: `netsim/modules/dhcp.py:190-198`. -/
def linkPoolId (t : DhcpTopo) (l : DhcpLink) : String :=
  match l.access with
  | some v => t.makeId ("vlan_" ++ v)
  | none => t.makeId l.name

/-- Is the address of a link interface reserved?  `netsim/modules/dhcp.py:230-234`. -/
def staticIntf (t : DhcpTopo) (af : Bool) (i : DhcpLinkIntf) : Bool :=
  match ((t.nodes.lookup i.node).getD []).find? (fun n => n.ifindex == i.ifindex) with
  | none => false
  | some n => !n.client af

/-- Interfaces attached to the link: `netsim/modules/dhcp.py:222-237`. -/
def linkExclude (t : DhcpTopo) (pid : String) (af : Bool) : DhcpPools → List DhcpLinkIntf → DhcpPools
  | ps, [] => ps
  | ps, i :: rest =>
    match i.addr af with
    | none => linkExclude t pid af ps rest
    | some a =>
      if staticIntf t af i then linkExclude t pid af (ps.change pid (poolExclude af (t.ip a))) rest
      else linkExclude t pid af ps rest

/-- The prefix of the pool and the number of mismatch errors: `netsim/modules/dhcp.py:210-217`. -/
def linkPfx (pid : String) (af : Bool) (pfx : String) (ps : DhcpPools) : DhcpPools × Nat :=
  match (ps.lookup pid).bind (fun p => p.pfx af) with
  | some old => (ps, if old != pfx then 1 else 0)
  | none => (ps.change pid (poolSetPfx af pfx), 0)

/-- `pools[pid].gateway[af] = ...` for a link: `netsim/modules/dhcp.py:219-220`. -/
def linkGw (pid : String) (af : Bool) (l : DhcpLink) (ps : DhcpPools) : DhcpPools :=
  match l.gateway af with
  | some g => ps.change pid (poolSetGw af g)
  | none => ps

/-- One address family of a link: `netsim/modules/dhcp.py:202-237`. -/
def linkAf (t : DhcpTopo) (pid : String) (l : DhcpLink) (s : DhcpPools × Nat) (af : Bool) : DhcpPools × Nat :=
  if !l.subnet af then s
  else
    match l.prefix4 af with
    | none => s
    | some pfx =>
      (linkExclude t pid af (linkGw pid af l (linkPfx pid af pfx s.1).1) l.intfs, s.2 + (linkPfx pid af pfx s.1).2)

/-- `pools[pid].name = lname` (links without an access VLAN only) and `pools[pid].active = True`:
`netsim/modules/dhcp.py:192-200`. -/
def activate (l : DhcpLink) (p : DhcpPool) : DhcpPool :=
  { p with
    active := true
    name := if l.access.isSome then p.name else some l.name }

/-- Phase 3: `netsim/modules/dhcp.py:186-237`. -/
def linkPools (t : DhcpTopo) : DhcpPools × Nat → List DhcpLink → DhcpPools × Nat
  | s, [] => s
  | s, l :: rest =>
    if !(l.subnet false || l.subnet true) then linkPools t s rest
    else
      linkPools t
        ([false, true].foldl (linkAf t (linkPoolId t l) l) (s.1.change (linkPoolId t l) (activate l), s.2)) rest

/-- All pools, and the number of errors: `netsim/modules/dhcp.py:143-237`. -/
def allPools (t : DhcpTopo) : DhcpPools × Nat :=
  linkPools t (sviNodes t (vlanPools t [] t.vlans) t.nodes, 0) t.links

/-- `build_topology_dhcp_pools`, `netsim/modules/dhcp.py:143-247`: active pools with their clean names. -/
def dhcpPools (t : DhcpTopo) : DhcpPools :=
  (allPools t).1.filter (fun p => p.2.active)

end Netlab
