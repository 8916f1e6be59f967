import Verif.Model.IdSet
/-!
# Specification vocabulary for identifier allocation
-/

namespace Netlab.Spec

/-- `x` was registered as a static identifier by some request in the history. -/
def Registered (history : List IdOp) (x : IdVal) : Prop :=
  ∃ add, IdOp.extend add ∈ history ∧ x ∈ add

/-- The history does not change the counter settings. -/
def NoCounterChange (history : List IdOp) : Prop :=
  ∀ a b, IdOp.setCounter a b ∉ history

end Netlab.Spec
