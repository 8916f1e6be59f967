import Verif.Model.Lag
/-!
# Specification vocabulary: link aggregation groups
-/

namespace Netlab.Spec
open Netlab

/-- The numbers of LAG interfaces of a node, in the order in which they were created. -/
def lagNumbers (ifs : List LagIf) (n : String) : List Int := (ifs.filter (fun i => i.node == n)).map (·.ifindex)

/-- The node is at one end of a member link of the LAG. -/
def OnLag (l : LagLink) (n : String) : Prop := ∃ m ∈ l.members, n = m.a ∨ n = m.b

/-- The user did not number LAG interfaces on member links. -/
def NoMemberNumbers (l : LagLink) : Prop := ∀ m ∈ l.members, m.ixA = none ∧ m.ixB = none

/-- Numbers are not negative. -/
structure LagState.Sane (st : LagState) : Prop where
  next : ∀ n v, st.next n = some v → 0 < v
  ids : ∀ s, st.ids.next = some s → 0 ≤ s

/-- Two nodes are MLAG peers on a LAG side or are not part of it. -/
def TogetherOrAbsent (x y : String) (side : List String) : Prop :=
  (side = [x, y] ∨ side = [y, x]) ∨ (x ∉ side ∧ y ∉ side)

end Netlab.Spec
