import Verif.Model.Box
import Verif.Model.Nodeset
import Verif.Model.NodeClean
/-!
# File mappings of containers (`netsim/data/filemaps.py:18-108`, `netsim/providers/__init__.py:116-144`, `netsim/providers/clab.py:103-107`)
-/

namespace Netlab

/-- The `while` loop in `netsim/data/filemaps.py:22-24`: names of nested dictionaries with a single element are joined with dots. -/
def fmChain (k : String) : Val → String × Val
  | .dict [(a, v)] => fmChain (k ++ "." ++ a) v
  | v => (k, v)

/-- `netsim/data/filemaps.py:18-27` (`box_to_dict`) -/
def fmBoxToDict (b : List (String × Val)) : List (String × Val) := b.foldl (fun c p => setKey c (fmChain p.1 p.2).1 (fmChain p.1 p.2).2) []

/-- `f"{k}:{v}"` (`netsim/data/filemaps.py:33`) -/
def fmLine (p : String × String) : String := p.1 ++ ":" ++ p.2

/-- `netsim/data/filemaps.py:32-33` (`dict_to_mapping`) for a dictionary of strings -/
def fmMapping (d : List (String × String)) : List String := d.map fmLine

/-- `l.split(':',1)` assigned to two variables (`netsim/data/filemaps.py:39`): `none` is an exception. -/
def fmSplit (s : String) : Option (String × String) :=
  if s.toList.contains ':' then
    some (String.ofList (s.toList.takeWhile (· ≠ ':')), String.ofList ((s.toList.dropWhile (· ≠ ':')).drop 1))
  else none

/-- `netsim/data/filemaps.py:38-39` (`mapping_to_dict`) -/
def fmDict (m : List String) : Option (List (String × String)) :=
  (m.mapM fmSplit).map (fun l => l.foldl (fun d p => setKey d p.1 p.2) [])

/-- An element of the list in `netsim/data/filemaps.py:46-61`: number of errors -/
def fmListErr (v : Val) : Nat :=
  match v with
  | .str s => if (splitOnChar ':' s.toList).length ≠ 2 then 1 else 0
  | _ => 1

/-- An element of the dictionary in `netsim/data/filemaps.py:70-76`: number of errors -/
def fmDictErr (p : String × Val) : Nat := if p.2.isStr then 0 else 1

/-- A string value (`netsim/data/filemaps.py:33`); all values are strings when the function is used. -/
def fmStr (v : Val) : String :=
  match v with
  | .str s => s
  | _ => ""

/-- `netsim/data/filemaps.py:86-108` (`normalize_file_mapping`) for an existing value: new value and number of errors; `check_mapping_list`
(`netsim/data/filemaps.py:44-63`) and `check_mapping_dict` (`netsim/data/filemaps.py:68-78`) -/
def fmNormalize (v : Val) : Val × Nat :=
  match v with
  | .null => (.list [], 0)
  | .dict b =>
    if ((fmBoxToDict b).map fmDictErr).sum ≠ 0 then (.list [], ((fmBoxToDict b).map fmDictErr).sum)
    else (.list ((fmMapping ((fmBoxToDict b).map (fun p => (p.1, fmStr p.2)))).map .str), 0)
  | .list l => if (l.map fmListErr).sum ≠ 0 then (.list [], (l.map fmListErr).sum) else (.list l, 0)
  | x => (x, 1)

/-- The loop in `netsim/providers/__init__.py:130-142`: dictionary of mappings and number of errors; `found` tells whether the template exists
(`find_extra_template`), `folder` is `clab_files/node`. -/
def fmExtraLoop (found : String → Bool) (folder : String) : List (String × String) → List (String × String) → List (String × String) × Nat
  | [], d => (d, 0)
  | p :: r, d =>
    if (d.lookup (ncDot p.1)).isSome then fmExtraLoop found folder r d
    else if !found (ncDot p.1) then ((fmExtraLoop found folder r d).1, (fmExtraLoop found folder r d).2 + 1)
    else fmExtraLoop found folder r (setKey d (folder ++ "/" ++ ncDot p.1) p.2)

/-- `netsim/providers/__init__.py:116-144` (`create_extra_files_mappings`): list of mappings and number of errors; `none` is an exception. -/
def fmExtra (found : String → Bool) (folder : String) (templates binds : List String) : Option (List String × Nat) :=
  if templates.isEmpty then some (binds, 0)
  else
    match fmDict templates, fmDict binds with
    | some t, some b => some (fmMapping (fmExtraLoop found folder t b).1, (fmExtraLoop found folder t b).2)
    | _, _ => none

end Netlab
