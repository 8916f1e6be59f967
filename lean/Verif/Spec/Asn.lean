import Verif.Model.Val
/-!
# What an AS number is
-/

namespace Netlab.Spec

/-- A valid 4-octet AS number -/
def IsAsn (n : Int) : Prop := 1 ≤ n ∧ n ≤ 4294967295

/-- The AS number denoted by `x.y` -/
def asdotValue (x y : Nat) : Int := x * 65536 + y

/-- The asdot notation `x.y` in canonical form (decimal numbers without leading zeros,
signs or spaces) -/
def asdotString (x y : Nat) : String := x.repr ++ "." ++ y.repr

/-- The value is an integer inside the declared (optional) bounds -/
def InRange (mn mx : Option Int) (v : Val) : Prop :=
  ∃ i : Int, v = .int i ∧ (∀ a, mn = some a → a ≤ i) ∧ (∀ b, mx = some b → i ≤ b)

end Netlab.Spec
