import Verif.Model.YamlKeys
/-!
# Specification vocabulary: mappings in YAML documents
-/

namespace Netlab.Spec
open Netlab

/-- The YAML node contains another node at any depth. -/
inductive YContains : YNode → YNode → Prop
  | self (n : YNode) : YContains n n
  | seq (l : List YNode) (n m : YNode) : n ∈ l → YContains n m → YContains (.seq l) m
  | map (l : List (String × YNode)) (k : String) (n m : YNode) : (k, n) ∈ l → YContains n m → YContains (.map l) m

/-- The key is used at least twice in the list of keys. -/
def UsedTwice (k : String) (l : List String) : Prop := ∃ a b c, l = a ++ k :: b ++ k :: c

end Netlab.Spec
