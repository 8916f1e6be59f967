import Verif.Model.Val
/-!
# Specification vocabulary for nested settings

Nested settings are seen as a partial function from paths (lists of keys) to values.
-/

namespace Netlab.Spec

/-- The value stored at a path. -/
def Val.at : Val → List String → Option Val
  | v, [] => some v
  | .dict d, k :: p => match d.lookup k with
    | some w => Val.at w p
    | none => none
  | _, _ :: _ => none

/-- The value at a path is a scalar or a list, i.e. not a dictionary. -/
def Val.leafAt (v : Val) (p : List String) (w : Val) : Prop :=
  Val.at v p = some w ∧ w.isDict = false

/-- Keys are unique in every dictionary, as they are in Python. -/
def Val.UniqueKeys (v : Val) : Prop :=
  ∀ p d, Val.at v p = some (.dict d) → (d.map (·.1)).Nodup

/-- Does the right operand leave the path to its left operand?  No proper prefix of the path is
a scalar or a list in the right operand, and there's nothing at the path itself. -/
def Untouched (b : Val) (p : List String) : Prop :=
  ∀ q v, q <+: p → Val.at b q = some v → v.isDict = true ∧ q ≠ p

/-- Settings from several scopes, the most specific scope first: the value at a path comes from
the most specific scope that says anything about the path. -/
def Decides (layers : List (List (String × Val))) (p : List String) (w : Val) : Prop :=
  ∃ before l after, layers = before ++ l :: after ∧ Val.leafAt (.dict l) p w ∧
    ∀ b ∈ before, Untouched (.dict b) p

end Netlab.Spec
