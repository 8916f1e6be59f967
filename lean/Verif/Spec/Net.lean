import Verif.Model.Net
/-!
# Specification vocabulary for prefixes: sets of addresses
-/

namespace Netlab.Spec

/-- Address `a` is one of the addresses covered by the prefix. -/
def Covers (n : Net) (a : Nat) : Prop := n.base ≤ a ∧ a < n.base + 2 ^ (n.w - n.plen)

/-- Every address of `s` is an address of `n`. -/
def Inside (s n : Net) : Prop := ∀ a, Covers s a → Covers n a

/-- The two prefixes have no common address. -/
def Disjoint (s t : Net) : Prop := ∀ a, ¬ (Covers s a ∧ Covers t a)

end Netlab.Spec
