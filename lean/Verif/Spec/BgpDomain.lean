import Verif.Model.BgpDomain

namespace Netlab.Spec

open Netlab

variable {α : Type}

/-- The BGP domain of a node is `d`; a node without a domain is in the domain `default`. -/
def BgpDomainOf (n : BdNode α) (d : String) : Prop := n.domain = some d ∨ (n.domain = none ∧ d = "default")

/-- Two nodes are in the same domain. -/
def SameBgpDomain (n m : BdNode α) : Prop := ∃ d, BgpDomainOf n d ∧ BgpDomainOf m d

/-- All IBGP neighbors of BGP routers are nodes in the topology. -/
def SessionsKnown (nodes : List (BdNode α)) : Prop :=
  ∀ n ∈ nodes, n.bgp = true → ∀ x ∈ n.nbrs, x.type = "ibgp" → ∃ m ∈ nodes, m.name = x.name

/-- A BGP router with an IBGP session with a route reflector in another domain -/
def CrossReflector (nodes : List (BdNode α)) (n : BdNode α) : Prop :=
  n.bgp = true ∧ ∃ x ∈ n.nbrs, x.type = "ibgp" ∧ x.rr = true ∧ ∃ m ∈ nodes, m.name = x.name ∧ ¬ SameBgpDomain n m

/-- ... and no route reflector in the same domain and the same AS -/
def OrphanInstance (nodes : List (BdNode α)) (n : BdNode α) : Prop :=
  CrossReflector nodes n ∧ ∀ m ∈ nodes, m.bgp = true → m.rr = true → SameBgpDomain n m → m.asn ≠ n.asn

/-- A BGP router `a` has an IBGP session with `b`. -/
def IbgpTo (nodes : List (BdNode α)) (a b : String) : Prop :=
  ∃ n ∈ nodes, n.name = a ∧ n.bgp = true ∧ ∃ x ∈ n.nbrs, x.name = b ∧ x.type = "ibgp"

end Netlab.Spec
