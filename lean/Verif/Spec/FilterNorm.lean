import Verif.Model.Val
/-!
# Specification of normalized routing filters
-/

namespace Netlab.Spec

/-- The entries a user specified in a filter: a list of entries, or a single entry -/
def filterEntries : Val → List Val
  | .list l => l
  | v => [v]

/-- Attributes of an entry of an AS path or community filter; anything that isn't a dictionary is the path. -/
def entryAttr (v : Val) (k : String) : Option Val :=
  match v with
  | .dict d => d.lookup k
  | _ => if k = "path" then some v else none

/-- The text of a path: elements of a list are separated with spaces. -/
def pathText (str : Val → String) : Val → Val
  | .list l => .str (" ".intercalate (l.map str))
  | v => v

/-- The path an entry matches: any path when it has neither a path nor a list of paths. -/
def filterPath (str : Val → String) (v : Val) : Option Val :=
  match entryAttr v "path", entryAttr v "list" with
  | some p, _ => some (pathText str p)
  | none, some _ => none
  | none, none => some (.str ".*")

/-- Number of objects without a value in a part of routing data -/
def emptyObjects (routing : List (String × Val)) (part : String) : Nat :=
  match routing.lookup part with
  | some (.dict d) => (d.filter (fun p => p.2 = .null)).length
  | _ => 0

end Netlab.Spec
