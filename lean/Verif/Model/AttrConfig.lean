import Verif.Model.Box
/-!
# Propagation of attribute definitions and adjustments of search paths (`netsim/augment/config.py`)
-/

namespace Netlab

/-- One attribute in `netsim/augment/config.py:26-34` -/
def cdAttr (p : List (String × Val)) (copy skip : List String) (a : String × Val) : String × Val :=
  if (!copy.isEmpty && !copy.contains a.1) || (!skip.isEmpty && skip.contains a.1) then a
  else
    match a.2, p.lookup a.1 with
    | .null, some t => (a.1, t)
    | _, _ => a

/-- `netsim/augment/config.py:17-34` (`copy_datatypes`): attributes of the child after copying -/
def cdTypes (parent child : Option Val) (copy skip : List String) : Option Val :=
  match child, parent with
  | some (.dict c), some (.dict p) => some (.dict (c.map (cdAttr p copy skip)))
  | c, _ => c

/-- `netsim/augment/config.py:36-54` (`adjust_attributes`): node and interface attributes after the propagation of data types -/
def adjAttrs (glob node link intf : Option Val) (gno lno ncopy : List String) : Option Val × Option Val :=
  let n := cdTypes glob node [] gno
  let i := cdTypes link intf [] lno
  (n, if ncopy.isEmpty then i else cdTypes n i ncopy [])

/-- Request to copy or merge an attribute definition (`netsim/augment/config.py:69-73`): no request, incorrect request, or the source namespace and the kind of the request -/
inductive CmReq where
  | none
  | bad
  | src (ns : String) (copy : Bool)
  deriving DecidableEq

/-- `netsim/augment/config.py:69-73, 85-87`: the request in an attribute definition; namespaces that are not strings are incorrect. -/
def cmReq (v : Val) : CmReq :=
  match v with
  | .dict d =>
    match ((d.lookup "copy").filter (fun v => v.truthy)).or ((d.lookup "merge").filter (fun v => v.truthy)) with
    | some (.str s) => .src s (d.lookup "copy").isSome
    | some _ => .bad
    | none => .none
  | _ => .none

/-- Definition of an attribute in a namespace (`netsim/augment/config.py:65-69`) -/
def attrAt (attr : List (String × Val)) (ns name : String) : Option Val :=
  match attr.lookup ns with
  | some (.dict a) => a.lookup name
  | _ => Option.none

/-- The value of a copied or merged definition (`netsim/augment/config.py:85-89`): `w` is the source definition, `none` is an exception. -/
def cmValue (copy : Bool) (w v : Val) : Option Val :=
  if copy then some w
  else
    match w, v with
    | .dict x, .dict d => some (.dict (popKey (mergeDict x d) "merge"))
    | _, _ => Option.none

/-- Setting an attribute definition (`netsim/augment/config.py:86-89`) -/
def attrSet (attr : List (String × Val)) (ns name : String) (v : Val) : List (String × Val) :=
  match attr.lookup ns with
  | some (.dict a) => setKey attr ns (.dict (setKey a name v))
  | _ => attr

/-- One attribute in `netsim/augment/config.py:68-89`: definitions and the number of errors, `none` is an exception.  A missing definition in the source namespace is an
empty dictionary (the data is a `default_box`). -/
def cmStep (attr : List (String × Val)) (ns name : String) : Option (List (String × Val) × Nat) :=
  match (attrAt attr ns name).map cmReq with
  | Option.none => some (attr, 0)
  | some .none => some (attr, 0)
  | some .bad => some (attr, 1)
  | some (.src s copy) =>
    match attr.lookup s with
    | some (.dict b) => (cmValue copy ((b.lookup name).getD (.dict [])) ((attrAt attr ns name).getD .null)).map (fun v => (attrSet attr ns name v, 0))
    | _ => some (attr, 1)

/-- Pairs of namespaces and attribute names (`netsim/augment/config.py:65-68`) -/
def cmPairs (attr : List (String × Val)) : List (String × String) :=
  attr.flatMap (fun p => match p.2 with | .dict a => a.map (fun q => (p.1, q.1)) | _ => [])

/-- The loops in `netsim/augment/config.py:65-89` -/
def cmLoop : List (String × String) → List (String × Val) → Option (List (String × Val) × Nat)
  | [], attr => some (attr, 0)
  | p :: r, attr =>
    match cmStep attr p.1 p.2 with
    | Option.none => Option.none
    | some (a, e) =>
      match cmLoop r a with
      | Option.none => Option.none
      | some (b, f) => some (b, e + f)

/-- `netsim/augment/config.py:64-89` (`copy_merge_attributes`) -/
def cmAll (attr : List (String × Val)) : Option (List (String × Val) × Nat) := cmLoop (cmPairs attr) attr

/-- A list in `netsim/augment/config.py:166-171` -/
def apList (app : Bool) (l : List Val) (old : Option Val) : Val :=
  match old with
  | Option.none => .list l
  | some (.list o) => .list (if app then o ++ l else l ++ o)
  | some v => v

/-- `netsim/augment/config.py:164-173` (`adjust_path_list`); the first argument is true when paths are appended. -/
def adjPath (app : Bool) : List (String × Val) → List (String × Val) → List (String × Val)
  | [], p => p
  | (k, .list l) :: r, p => adjPath app r (setKey p k (apList app l (p.lookup k)))
  | (k, .dict d) :: r, p =>
    adjPath app r (match p.lookup k with
      | some (.dict q) => setKey p k (.dict (adjPath app d q))
      | Option.none => setKey p k (.dict (adjPath app d []))
      | some _ => p)
  | (_, .null) :: r, p => adjPath app r p
  | (_, .bool _) :: r, p => adjPath app r p
  | (_, .int _) :: r, p => adjPath app r p
  | (_, .str _) :: r, p => adjPath app r p

/-- One adjustment in `netsim/augment/config.py:156-162` -/
def apPass (app : Bool) (key : String) (paths : List (String × Val)) : List (String × Val) :=
  match paths.lookup key with
  | some (.dict d) => popKey (adjPath app d paths) key
  | _ => paths

/-- `netsim/augment/config.py:155-162` (`adjust_paths`) -/
def adjPaths (paths : List (String × Val)) : List (String × Val) :=
  apPass true "append" (apPass false "prepend" paths)

end Netlab
