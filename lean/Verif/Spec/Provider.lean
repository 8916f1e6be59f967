import Verif.Model.Provider
/-!
# Effective providers
-/

namespace Netlab.Spec

/-- The provider a node uses before the primary provider is selected -/
def EffProvider (t : ProvTopo) (n : String × Option String) : String := n.2.getD t.provider

/-- Some node of the topology uses the provider -/
def Used (t : ProvTopo) (p : String) : Prop := ∃ n ∈ t.nodes, EffProvider t n = p

/-- `p` is the first element of the list used by a node -/
def FirstUsed (t : ProvTopo) (multi : List String) (p : String) : Prop :=
  ∃ pre post, multi = pre ++ p :: post ∧ Used t p ∧ ∀ q ∈ pre, ¬ Used t q

end Netlab.Spec
