import Verif.Model.LabAddr
import Verif.Spec.Loopback
import Verif.Spec.Ipam

namespace Netlab.Spec

open Netlab

/-- The link has its own IPv4 or IPv6 prefix. -/
def OwnPrefix (l : LaLink) : Prop := ∃ d e, l.pfx = some (d, e) ∧ (d.lookup "ipv4" ≠ none ∨ d.lookup "ipv6" ≠ none)

/-- The user specified the address of the interface (and not just a host index). -/
def StaticAddr (x : IfAddr) : Prop := (∃ a l, x = .text a l) ∨ ∃ a l, x = .addr a l

/-- The address family of the interface, by name -/
def LaIntf.ip (af : String) (i : LaIntf) : IfAddr := if af = "ipv6" then i.v6 else i.v4

/-- Addressed interfaces of the link in the address family -/
def LaOut.ifs (af : String) (o : LaOut) : List LinkIntf := if af = "ipv6" then o.if6 else o.if4

/-- The gateway address of the link in the address family -/
def LaOut.gateway (af : String) (o : LaOut) : Option (Nat × Nat) := if af = "ipv6" then o.gw6 else o.gw4

/-- IPv4 or IPv6 -/
def AfName (af : String) : Prop := af = "ipv4" ∨ af = "ipv6"

/-- The address of an interface that has one -/
def addrOf (x : IfAddr) : Option Nat := match x with | .addr a _ => some a | _ => none

/-- The loopback address -/
def lbAddrOf (x : Option LbVal) : Option Nat := match x with | some (.addr a _) => some a | _ => none

open Classical in
/-- Addresses netlab assigned from address pools to interfaces of a link: the link has no prefix of its own and the address of the interface was not specified. -/
noncomputable def assignedOnLink (af : String) (x : LaLink × LaOut) : List Nat :=
  if OwnPrefix x.1 then []
  else (x.1.ifs.zip (LaOut.ifs af x.2)).filterMap (fun y =>
    if StaticAddr (LaIntf.ip af y.1) then none else addrOf y.2.ip)

open Classical in
/-- Loopback addresses netlab assigned from address pools. -/
noncomputable def assignedLoopbacks (af : String) (nodes : List (LbNode × LbState)) : List Nat :=
  nodes.filterMap (fun o => if o.1.host = true ∨ HasStatic o.1 af then none else lbAddrOf (o.2.lb.lookup af))

/-- The pool is used for a loopback or for a link. -/
def UsedPool (nodes : List LbNode) (outs : List LaOut) (p : String) : Prop :=
  (∃ n ∈ nodes, n.host = false ∧ LbNode.poolName n = p) ∨ ∃ o ∈ outs, o.src = some p

/-- Different pools that are used don't have common addresses. -/
def PoolsApart (pools : Pools) (used : String → Prop) : Prop :=
  ∀ p q af m k n l, used p → used q → p ≠ q → AllocatesFrom pools p af m k → AllocatesFrom pools q af n l → Disjoint m n

/-- Pools that could be used for a link: the pool specified with the link, or its role, and then the pools for the link type -/
def wantedPools (l : LaLink) : List String :=
  (match l.pool with | some p => [p] | none => l.role.toList) ++ l.dflt

end Netlab.Spec
