import Verif.Model.Groups
import Mathlib.Logic.Relation
/-!
# Specification vocabulary for groups
-/

namespace Netlab.Spec

/-- `b` is a group and a direct member of the group `a`. -/
def SubGroup (gs : Groups) (a b : String) : Prop :=
  ∃ d e, gs.lookup a = some d ∧ b ∈ d.members ∧ gs.lookup b = some e

/-- Some group contains itself, directly or through other groups. -/
def Recursive (gs : Groups) : Prop := ∃ g, Relation.TransGen (SubGroup gs) g g

/-- The object is a member of the group: it is listed in the group or in a (nested) member group,
going only through groups of the given type. -/
inductive InGroup (gs : Groups) (gtype : String) : String → String → Prop
  | direct {g d n} : gs.lookup g = some d → d.gtype = gtype → n ∈ d.members → InGroup gs gtype g n
  | nested {g d h n} : gs.lookup g = some d → d.gtype = gtype → h ∈ d.members →
      InGroup gs gtype h n → InGroup gs gtype g n

/-- The group has (at least) `n` levels of groups below it, going only through groups of the given type. -/
inductive Levels (gs : Groups) (gtype : String) : Nat → String → Prop
  | zero {g d} : gs.lookup g = some d → Levels gs gtype 0 g
  | succ {n g d m} : gs.lookup g = some d → d.gtype = gtype → m ∈ d.members →
      Levels gs gtype n m → Levels gs gtype (n + 1) g

/-- A way in which an object is a member of a group: the position in the list of members of the group, of the
member group, and so on, down to the position of the object. -/
inductive Way (gs : Groups) (gtype : String) : String → String → List Nat → Prop
  | direct {g d n i} : gs.lookup g = some d → d.gtype = gtype → d.members[i]? = some n →
      Way gs gtype g n [i]
  | nested {g d h n i p} : gs.lookup g = some d → d.gtype = gtype → d.members[i]? = some h →
      Way gs gtype h n p → Way gs gtype g n (i :: p)

/-- The group reaches some object in two ways. -/
def TwoWays (gs : Groups) (gtype : String) (objs : List String) (g : String) : Prop :=
  ∃ n ∈ objs, ∃ p q, p ≠ q ∧ Way gs gtype g n p ∧ Way gs gtype g n q

end Netlab.Spec
