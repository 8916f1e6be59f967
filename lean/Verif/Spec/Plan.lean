import Verif.Model.Plan

namespace Netlab.Spec

open Netlab

/-- The user specified this identifier (a number, or a text that Python converts to this number). -/
def SpecifiedId (pyInt : String → Option Int) (id : Option Val) (i : Int) : Prop :=
  id = some (.int i) ∨ ∃ s, id = some (.str s) ∧ pyInt s = some i

/-- The address pool of a loopback interface of a node that is not a host -/
def LoopbackPool (nodes : List PlanNode) (p : String) : Prop := ∃ n ∈ nodes, n.host = false ∧ p = n.pool.getD "loopback"

/-- The pool supplied a link prefix or another prefix. -/
def PrefixPool (o : PlanOut) (p : String) : Prop := (∃ l ∈ o.links, l.src = some p) ∨ ∃ x ∈ o.prefixes, x.2.1 = some p

end Netlab.Spec
