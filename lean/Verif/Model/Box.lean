import Verif.Model.Val
/-!
# Merging of `Box` objects

netlab merges nested settings with the `+` operator of `Box` (package python-box).  The package is
not a part of netlab, its `__add__` and `merge_update` methods are modelled as documented by the
package: keys of the right operand are added or replace keys of the left operand; two
dictionaries under the same key are merged.  Lists are replaced (netlab does not use
`box_merge_lists`).  Keys with dots (expanded by the package) are not modelled.
-/

namespace Netlab

/-- `d[k] = v` for a Python dictionary: the position of an existing key does not change
(for example `netsim/augment/groups.py:415`). -/
def setKey {β : Type} (d : List (String × β)) (k : String) (v : β) : List (String × β) :=
  match d with
  | [] => [(k, v)]
  | (a, b) :: r => if a == k then (a, v) :: r else (a, b) :: setKey r k v

/-- `d.pop(k,None)` (for example `netsim/modules/__init__.py:234`) -/
def popKey {β : Type} (d : List (String × β)) (k : String) : List (String × β) :=
  d.filter (fun p => p.1 != k)

mutual
  /-- Value stored under a key when both operands of `+` have it
  (`netsim/augment/plugin.py:38`, `netsim/modules/__init__.py:208`, ...) -/
  def mergeVal (a : Val) : Val → Val
    | .dict y => match a with
      | .dict x => .dict (mergeDict x y)
      | _ => .dict y
    | .null => .null
    | .bool b => .bool b
    | .int i => .int i
    | .str s => .str s
    | .list l => .list l
  /-- `a + b` for two `Box` objects (`netsim/augment/plugin.py:38`,
  `netsim/modules/__init__.py:208`, ...) -/
  def mergeDict (a : List (String × Val)) : List (String × Val) → List (String × Val)
    | [] => a
    | p :: r => mergeDict (mergePair a p) r
  /-- One step of the merge (`netsim/augment/plugin.py:38`) -/
  def mergePair (a : List (String × Val)) : String × Val → List (String × Val)
    | (k, v) => setKey a k (match a.lookup k with
      | some u => mergeVal u v
      | none => v)
end

end Netlab
