import Verif.Spec.Svi
/-!
# Specification vocabulary: addresses of nodes in a VLAN
-/

namespace Netlab.Spec
open Netlab

/-- The IPv4 or IPv6 (`af` is true) address of an interface. -/
def ifAddress (af : Bool) (s : SvIf) (a : String) : Prop := (af = false ∧ s.ip4 = some a) ∨ (af = true ∧ s.ip6 = some a)

/-- The IPv4 or IPv6 address of a neighbor on a link. -/
def ngbAddress (af : Bool) (g : SvNgb) (a : String) : Prop := (af = false ∧ g.ip4 = some a) ∨ (af = true ∧ g.ip6 = some a)

/-- Address `a` is the address of node `n` in VLAN `v`: the address of its VLAN interface or, when it has no VLAN
interface, the address of all its interfaces connected to links of the VLAN (there is at least one). -/
def VlanAddress (before after : List SvNode) (v : String) (af : Bool) (n a : String) : Prop :=
  (∃ s, sviOn after n v s ∧ ifAddress af s a) ∨
  ((∀ s, ¬ sviOn after n v s) ∧ (∃ m g, onMemberLink before m v g ∧ g.node = n) ∧
    ∀ m g, onMemberLink before m v g → g.node = n → ngbAddress af g a)

/-- Node `n` uses address `a` on some interface in VLAN `v`. -/
def UsesAddress (before after : List SvNode) (v : String) (af : Bool) (n a : String) : Prop :=
  (∃ s, sviOn after n v s ∧ ifAddress af s a) ∨ ∃ m g, onMemberLink before m v g ∧ g.node = n ∧ ngbAddress af g a

end Netlab.Spec
