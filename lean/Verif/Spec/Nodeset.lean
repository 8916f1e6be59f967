import Verif.Model.Nodeset
import Verif.Spec.Groups
/-!
# Meaning of a node set
-/

namespace Netlab.Spec

/-- The elements separated by commas -/
def joinComma (els : List String) : String :=
  String.ofList (List.intercalate [','] (els.map String.toList))

/-- A pattern has at least one of the characters `*`, `?` and `[` -/
def IsPattern (e : String) : Prop := '*' ∈ e.toList ∨ '?' ∈ e.toList ∨ '[' ∈ e.toList

/-- Nodes selected by an element of a node set: the nodes matching a pattern, the members of a group, or the
named node -/
def Selects (fn : String → String → Bool) (gs : Groups) (nodes : List String) (e n : String) : Prop :=
  n ∈ nodes ∧
  (IsPattern e ∧ fn n e = true ∨
   ¬ IsPattern e ∧ gs.lookup e ≠ none ∧ InGroup gs "node" e n ∨
   ¬ IsPattern e ∧ gs.lookup e = none ∧ n = e)

/-- The element is correct: a pattern matches at least one node, other elements are names of groups or
nodes -/
def Correct (fn : String → String → Bool) (gs : Groups) (nodes : List String) (e : String) : Prop :=
  (IsPattern e → ∃ n ∈ nodes, fn n e = true) ∧ (¬ IsPattern e → gs.lookup e ≠ none ∨ e ∈ nodes)

end Netlab.Spec
