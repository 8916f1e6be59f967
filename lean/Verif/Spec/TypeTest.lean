import Verif.Model.TypeTest
/-!
# Specification vocabulary for data type tests
-/

namespace Netlab.Spec

/-- The value that replaces a Boolean value (`none`: the setting is removed) -/
def boolReplacement (a : TtArgs) (v : Val) : Option Val :=
  match v, a.trueValue with
  | .bool true, some t => some t
  | .bool false, some _ => a.falseValue
  | v, _ => some v

/-- The value to be tested: the empty value when there is no value and the empty value should be used, otherwise the setting with Boolean values replaced by other values
(`none`: there's nothing to test) -/
def valueToTest (a : TtArgs) (setting : Option Val) : Option Val :=
  match setting, a.emptyValue with
  | none, some e => if a.createEmpty = some false then none else boolReplacement a e
  | some .null, some e => if a.createEmpty = some false then some .null else boolReplacement a e
  | none, none => none
  | some .null, none => some .null
  | some v, _ => boolReplacement a v

/-- The value after the transformation requested by a validator -/
def transformed (s : TtStatus) (v : Val) : Val :=
  match s.transform with
  | some f => f v
  | none => v

/-- Every value (or every element of a list) is one of the expected values -/
def Expected (expected : List Val) (v : Val) : Prop :=
  expected = [] ∨ (∃ l, v = .list l ∧ ∀ x ∈ l, expected.contains x = true) ∨ ((∀ l, v ≠ .list l) ∧ expected.contains v = true)

/-- The value is accepted -/
def Accepted (test : Val → TtStatus) (a : TtArgs) (v : Val) : Prop :=
  (test v).valid = true ∧ Expected a.validValues (transformed (test v) v)

/-- There's no value, and the caller asked for an exception instead of an empty value -/
def EmptyAbort (a : TtArgs) (setting : Option Val) : Prop :=
  (setting = none ∨ setting = some .null) ∧ a.emptyValue ≠ none ∧ a.createEmpty = some false ∧ a.abort = true

end Netlab.Spec
