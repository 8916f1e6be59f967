/-!
# Duplicate keys in YAML files

`UniqueKeyLoader` (`netsim/utils/read.py:85-94`).

Simplifications: keys are texts; anchors and merge keys are not modelled.  The YAML library constructs nested mappings after the
mapping that contains them; the order of other mappings (and thus the choice of the key that is reported) is a simplification.
-/

namespace Netlab

/-- A parsed YAML node: `netsim/utils/read.py:86-88` -/
inductive YNode
  | scalar (s : String)
  | seq (l : List YNode)
  | map (l : List (String × YNode))

/-- The first key that is already in the list of keys, `netsim/utils/read.py:87-93` -/
def yDupKey : List String → List String → Option String
  | _, [] => none
  | mapping, k :: r => if mapping.contains k then some k else yDupKey (mapping ++ [k]) r

mutual
/-- Construct a node, `netsim/utils/read.py:86-94`: the duplicate key that raised the exception -/
def yDup : YNode → Option String
  | .scalar _ => none
  | .seq l => yDupSeq l
  | .map l =>
    match yDupKey [] (l.map Prod.fst) with
    | some k => some k
    | none => yDupMap l
/-- Construct elements of a sequence, `netsim/utils/read.py:86-94` -/
def yDupSeq : List YNode → Option String
  | [] => none
  | n :: r => match yDup n with
    | some k => some k
    | none => yDupSeq r
/-- Construct values in a mapping (`super().construct_mapping`), `netsim/utils/read.py:94` -/
def yDupMap : List (String × YNode) → Option String
  | [] => none
  | (_, n) :: r => match yDup n with
    | some k => some k
    | none => yDupMap r
end

/-- Set a key in a Python dictionary, `netsim/utils/read.py:94` -/
def yPut (d : List (String × YNode)) (k : String) (v : YNode) : List (String × YNode) :=
  if d.any (fun x => x.1 == k) then d.map (fun x => if x.1 == k then (k, v) else x) else d ++ [(k, v)]

/-- The dictionary created from a mapping by the YAML library, `netsim/utils/read.py:94` -/
def yDict (l : List (String × YNode)) : List (String × YNode) := l.foldl (fun d x => yPut d x.1 x.2) []

end Netlab
