import Verif.Model.BgpLab
import Verif.Spec.LabAddr

namespace Netlab.Spec

open Netlab

/-- The address of an interface (an address netlab assigned, or an address specified by the user) -/
def ifAddrOf : IfAddr → Option Nat
  | .addr a _ => some a
  | .text (some a) _ => some a
  | _ => none

/-- The address of an interface in an address family -/
def NodeIf.addrIn (af : String) (i : NodeIf) : Option Nat := ifAddrOf (if af = "ipv6" then i.ip6 else i.ip4)

/-- All addresses of loopbacks and node interfaces in the lab, with the node they are configured on -/
def labOwners (af : String) (out : PlanOut) : List (String × Nat) :=
  out.loopbacks.filterMap (fun x => (lbAddrOf (x.2.lb.lookup af)).map (fun a => (x.1.name, a))) ++
    out.ifs.filterMap (fun i => (NodeIf.addrIn af i).map (fun a => (i.node, a)))

/-- No two interfaces in the lab have the same address. -/
def LabUnique (af : String) (out : PlanOut) : Prop := ((labOwners af out).map (·.2)).Nodup

/-- The address of a BGP neighbor -/
def ngbAddr (af : String) (g : BgpNgb) : Option String :=
  match (if af = "ipv6" then g.ipv6 else g.ipv4) with
  | some (.ip s) => some s
  | _ => none

/-- No node is connected to a link with two interfaces. -/
def OncePerLink (links : List PlanLink) : Prop := ∀ l ∈ links, (l.la.ifs.map (·.node)).Nodup

/-- IBGP sessions use loopback interfaces. -/
def IbgpOverLoopbacks (topo : List BgpNode) : Prop := ∀ n ∈ topo, n.loopback = none → n.daemon = false

/-- No addresses were specified by the user: loopbacks and interfaces get all addresses in the address family from address pools. -/
structure AllFromPools (af : String) (nodes : List PlanNode) (links : List PlanLink) (out : PlanOut) : Prop where
  loopbacks : ∀ n ∈ nodes, n.lb.lookup af = none
  prefixes : ∀ l ∈ links, ¬ OwnPrefix l.la
  interfaces : ∀ l ∈ links, ∀ i ∈ l.la.ifs, ¬ StaticAddr (LaIntf.ip af i)
  results : ∀ i ∈ out.ifs, ∀ a l, (if af = "ipv6" then i.ip6 else i.ip4) ≠ .text a l

end Netlab.Spec
