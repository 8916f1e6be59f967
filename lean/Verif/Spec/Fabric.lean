import Verif.Model.Fabric
import Verif.Spec.Box

namespace Netlab.Spec

open Netlab

/-- Names of nodes attached to the link. -/
def linkEnds (l : NLink) : List String :=
  l.ifs.filterMap (fun i =>
    match i.lookup "node" with
    | some (.str n) => some n
    | _ => none)

/-- Nodes `1` to `n` have different names. -/
def DistinctNames (name : Nat → String) (n : Int) : Prop :=
  ∀ i j : Nat, 1 ≤ i → (i : Int) ≤ n → 1 ≤ j → (j : Int) ≤ n → name i = name j → i = j

/-- No leaf has the name of a spine. -/
def DisjointNames (leaf spine : FabRole) : Prop :=
  ∀ i j : Nat, 1 ≤ i → (i : Int) ≤ leaf.count → 1 ≤ j → (j : Int) ≤ spine.count → leaf.name i ≠ spine.name j

/-- A string with a formatting expression. -/
def Formatted (v : Val) : Prop := ∃ s, v = .str s ∧ '{' ∈ s.toList

end Netlab.Spec
