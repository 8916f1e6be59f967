import Verif.Spec.Net
/-!
# Specification vocabulary for interface addresses
-/

namespace Netlab.Spec

/-- `a` can be used as an interface address: it is covered by the prefix and, unless the
prefix has just one or two addresses, it is neither the first (subnet) nor the last
(broadcast) address of the prefix. -/
def UsableHost (pfx : Net) (a : Nat) : Prop :=
  Covers pfx a ∧
    (2 < 2 ^ (pfx.w - pfx.plen) → a ≠ pfx.base ∧ a ≠ pfx.base + 2 ^ (pfx.w - pfx.plen) - 1)

/-- Host number of the `k`-th interface with sequential addressing: count from `start` and
step over the gateway. -/
def seqHost (start : Int) (gw : Option Int) (k : Nat) : Int :=
  match gw with
  | none => start + k
  | some g => if start ≤ g ∧ g ≤ start + k then start + k + 1 else start + k

end Netlab.Spec
