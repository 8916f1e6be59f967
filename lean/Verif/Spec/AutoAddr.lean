import Verif.Spec.Ipam
/-!
# Specification vocabulary for automatic addressing of a link in a lab
-/

namespace Netlab.Spec

/-- A prefix has enough addresses for `n` hosts and the first-hop gateway (if there is one): the
first and the last address are not used, a gateway counted from the start of the prefix needs one
more address, and with a gateway counted from the end of the prefix at least two addresses and
as many addresses as there are hosts are between the first address and the gateway. -/
def RoomFor (pfx : Net) (gw : Option Int) (n : Nat) : Prop :=
  2 < 2 ^ (pfx.w - pfx.plen) ∧ n + 2 ≤ 2 ^ (pfx.w - pfx.plen) ∧
  ∀ g, gw = some g →
    (0 < g → n + 3 ≤ 2 ^ (pfx.w - pfx.plen)) ∧
    (g < 0 → (max n 2 : Int) + 1 ≤ 2 ^ (pfx.w - pfx.plen) + g)

end Netlab.Spec
