import Verif.Model.Clone
import Mathlib.Data.List.Forall2

namespace Netlab.Spec

open Netlab

variable {α : Type}

/-- The link is attached to the node. -/
def usesNode (n : String) (l : KLink α) : Bool := l.ifs.any (fun i => i.node == n)

/-- The link (or a link in the group) is attached to the node. -/
def itemUses (n : String) : KItem α → Bool
  | .link l => usesNode n l
  | .lag _ _ members => members.any (usesNode n)

/-- The interface in the link of a clone: the node is replaced with the clone, other nodes use the next interfaces. -/
structure CloneIfOf (n clone : String) (c : Nat) (i i' : KIf α) : Prop where
  data : i'.data = i.data
  own : i.node = n → i'.node = clone ∧ i'.ifindex = i.ifindex
  peer : i.node ≠ n → i'.node = i.node ∧ i'.ifindex = i.ifindex.map (· + c)

/-- The link of a clone. -/
def CloneLinkOf (n clone : String) (c : Nat) (l l' : KLink α) : Prop :=
  l'.data = l.data ∧ List.Forall₂ (CloneIfOf n clone c) l.ifs l'.ifs

/-- The member link of a clone.  Interface indices of the clone are increased by the number of the clone, and those of other nodes
by twice the number of the clone. -/
def CloneEndsOf (n clone : String) (c : Nat) (l l' : KLink α) : Prop :=
  l'.data = l.data ∧ List.Forall₂ (fun i i' => i'.data = i.data ∧
    (i.node = n → i'.node = clone ∧ i'.ifindex = i.ifindex.map (· + c)) ∧
    (i.node ≠ n → i'.node = i.node ∧ i'.ifindex = i.ifindex.map (· + 2 * c))) l.ifs l'.ifs

/-- The link or the group of a clone.  The group has the links of the original group attached to the node; its number, when it is
not zero, is increased by the number of the clone. -/
inductive CloneItemOf (n clone : String) (c : Nat) : KItem α → KItem α → Prop
  | link (l l' : KLink α) (h : CloneLinkOf n clone c l l') : CloneItemOf n clone c (.link l) (.link l')
  | lag (ix ix' : Option Nat) (data : α) (ms ms' : List (KLink α))
      (hix : ∀ k, ix' = some k ↔ (k = 0 ∧ ix = some 0) ∨ ∃ j, ix = some j ∧ j ≠ 0 ∧ k = j + c)
      (h : List.Forall₂ (CloneEndsOf n clone c) (ms.filter (usesNode n)) ms') :
      CloneItemOf n clone c (.lag ix data ms) (.lag ix' data ms')

end Netlab.Spec
