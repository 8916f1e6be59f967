import Mathlib.Logic.Relation
/-!
# Specification vocabulary for dependency sorting
-/

namespace Netlab.Spec

/-- The listed objects contain a dependency loop: some listed object depends on itself through
a chain of one or more dependencies between listed objects. -/
def HasLoop (mods : List String) (dep : String → List String) : Prop :=
  ∃ m ∈ mods, Relation.TransGen (fun a b => b ∈ dep a ∧ b ∈ mods) m m

/-- `out` is in dependency order: no object depends on itself or on an object listed after it. -/
def InDependencyOrder (dep : String → List String) (out : List String) : Prop :=
  (∀ m ∈ out, m ∉ dep m) ∧ out.Pairwise (fun a b => b ∉ dep a)

end Netlab.Spec
