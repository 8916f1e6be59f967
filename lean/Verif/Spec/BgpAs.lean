import Verif.Model.BgpAs
/-!
# Specification vocabulary for BGP autonomous systems
-/

namespace Netlab.Spec

/-- The AS list makes the node a member of the AS. -/
def InAs (l : List AsEntry) (n : String) (a : Int) : Prop := ∃ e ∈ l, e.asn = a ∧ n ∈ e.members

/-- The AS list makes the node a route reflector. -/
def AsListRr (l : List AsEntry) (n : String) : Prop := ∃ e ∈ l, n ∈ e.rr

/-- A usable AS list: no node is in two autonomous systems (or twice in the same one), and the route reflectors of an AS
are among its members. -/
def GoodAsList (l : List AsEntry) : Prop :=
  (l.flatMap (·.members)).Nodup ∧ ∀ e ∈ l, ∀ r ∈ e.rr, r ∈ e.members

/-- Two of the nodes have different AS numbers. -/
def CrossesAs (asOf : String → Option Int) (nodes : List String) : Prop :=
  ∃ x ∈ nodes, ∃ y ∈ nodes, ∃ a b, asOf x = some a ∧ asOf y = some b ∧ a ≠ 0 ∧ b ≠ 0 ∧ a ≠ b

end Netlab.Spec
