import Verif.Model.LagLinks
/-!
# Specification vocabulary: member links of LAGs and MLAG peer links
-/

namespace Netlab.Spec
open Netlab

/-- The member link connects nodes `e.1` and `e.2`, which are different nodes, and it has no LAG attributes (apart from
the number of the LAG interface on members of a regular LAG). -/
def MemberIs (peer : Bool) (m : RawMember) (e : String × String) : Prop :=
  m.nodes = [e.1, e.2] ∧ e.1 ≠ e.2 ∧ ∀ ix other, m.lag = some (ix, other) → peer = false ∧ other = 0

/-- The links that were created for the LAG (or peer) link with the given index. -/
def kidsOf (k : Nat) (links : List LagOut) : List LagOut :=
  links.filter (fun l => match l with
    | .member p _ => p == k
    | .peerMore p _ => p == k
    | _ => false)

/-- The MLAG group of a peer link. -/
def groupOf : LagOut → Option Int
  | .peer g _ => some g
  | .peerEmpty g => some g
  | _ => none

/-- The nodes at the ends of peer links. -/
def peerEnds (links : List LagOut) : List (String × String) :=
  links.filterMap (fun l => match l with
    | .peer _ e => some e
    | _ => none)

/-- A link written by the user. -/
def UserLink : LagOut → Prop
  | .plain _ => True
  | .raw _ => True
  | _ => False

/-- Member links connect the nodes on one side with the nodes on the other side. -/
def Connects (A B : List String) (ms : List LagMember) : Prop :=
  ∀ m ∈ ms, (m.a ∈ A ∧ m.b ∈ B) ∨ (m.a ∈ B ∧ m.b ∈ A)

/-- A side of a LAG: a single node or two MLAG peers. -/
def LagSideOk (pairs : List (String × String)) (A : List String) : Prop :=
  (∃ x, A = [x]) ∨ ∃ x y, A = [x, y] ∧ pairs.lookup x = some y ∧ pairs.lookup y = some x

end Netlab.Spec
