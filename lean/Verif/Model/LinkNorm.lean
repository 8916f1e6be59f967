import Verif.Model.Box
import Verif.Model.Nodeset
/-!
# Link normalization

Transformation of the `links` element of a lab topology into a list of links with interfaces
(`netsim/augment/links.py:20-159`).

Simplifications:

* the name of the link (`_linkname`) is kept apart from link attributes, a link does not have an attribute called
  `_linkname`;
* the value of `node` in an interface is a name of a node only when it is a string;
* the separator `[` in the format of link names does not appear in names of link groups.
-/

namespace Netlab

/-- A normalized link: name, attributes and interfaces, `netsim/augment/links.py:71-118`. -/
structure NLink where
  name : String
  attrs : List (String × Val)
  ifs : List (List (String × Val))

/-- Result of the normalization with the number of reported errors: `netsim/augment/links.py:20-159`. -/
structure NRes (β : Type) where
  val : β
  errs : Nat

/-- Interface data of a node: `netsim/augment/links.py:32` -/
def nodeIf (n : String) : List (String × Val) := [("node", .str n)]

/-- One interface: `netsim/augment/links.py:24-52`; `none` is an error. -/
def adjustIf (nodes : List String) : Val → Option (List (String × Val))
  | .str n => if nodes.contains n then some (nodeIf n) else none
  | .dict d =>
    match d.lookup "node" with
    | some (.str n) => if nodes.contains n then some d else none
    | _ => none
  | _ => none

/-- `adjust_interface_list`, `netsim/augment/links.py:20-54`. -/
def adjustIfs (nodes : List String) : List Val → NRes (List (List (String × Val)))
  | [] => ⟨[], 0⟩
  | v :: rest =>
    let r := adjustIfs nodes rest
    match adjustIf nodes v with
    | some i => ⟨i :: r.val, r.errs⟩
    | none => ⟨r.val, r.errs + 1⟩

/-- The value of `interfaces` after `must_be_list`, and the number of errors: `netsim/augment/links.py:72`,
`netsim/data/types.py:438-453`.  An invalid dictionary is used as the list of its keys. -/
def ifaceList : Val → NRes (List Val)
  | .list l => ⟨l, 0⟩
  | .null => ⟨[], 0⟩
  | .dict d => ⟨d.map (fun p => .str p.1), 1⟩
  | v => ⟨[v], 0⟩

/-- The interface of a node in the dictionary (`must_be_dict`): `netsim/augment/links.py:82-85`; `none` is an error. -/
def keyIf (k : String) : Val → Option (List (String × Val))
  | .dict d => some (setKey d "node" (.str k))
  | .null => some (nodeIf k)
  | _ => none

/-- Split the link dictionary into interfaces and link attributes: `netsim/augment/links.py:80-88`. -/
def splitLink (nodes : List String) : List (String × Val) → NRes (List (String × Val) × List (List (String × Val)))
  | [] => ⟨([], []), 0⟩
  | (k, v) :: rest =>
    let r := splitLink nodes rest
    if nodes.contains k then
      match keyIf k v with
      | some i => ⟨(r.val.1, i :: r.val.2), r.errs⟩
      | none => ⟨r.val, r.errs + 1⟩
    else ⟨((k, v) :: r.val.1, r.val.2), r.errs⟩

/-- `str.strip()` (ASCII white space): `netsim/augment/links.py:99`. -/
def pyStrip (s : List Char) : List Char := ((s.dropWhile Char.isWhitespace).reverse.dropWhile Char.isWhitespace).reverse

/-- Is this a valid node in a link string?  `netsim/augment/links.py:100-102` -/
def linkNodeOk (nodes : List String) (n : List Char) : Bool :=
  nodes.contains (String.ofList n) || nodes.any (fun x => x.toList.isPrefixOf n)

/-- Interfaces in a link string: `netsim/augment/links.py:97-111`. -/
def stringIfs (nodes : List String) : List (List Char) → NRes (List (List (String × Val)))
  | [] => ⟨[], 0⟩
  | n :: rest =>
    let r := stringIfs nodes rest
    if linkNodeOk nodes (pyStrip n) then ⟨nodeIf (String.ofList (pyStrip n)) :: r.val, r.errs⟩
    else ⟨r.val, r.errs + 1⟩

/-- `adjust_link_object`, `netsim/augment/links.py:66-121`. -/
def adjustLink (nodes : List String) (name : String) : Val → NRes (Option NLink)
  | .dict d =>
    match d.lookup "interfaces" with
    | some v =>
      let l := ifaceList v
      let r := adjustIfs nodes l.val
      ⟨some ⟨name, popKey d "interfaces", r.val⟩, l.errs + r.errs⟩
    | none =>
      let r := splitLink nodes d
      ⟨some ⟨name, r.val.1, r.val.2⟩, r.errs⟩
  | .list l =>
    let r := adjustIfs nodes l
    ⟨some ⟨name, [], r.val⟩, r.errs⟩
  | .str s =>
    let r := stringIfs nodes (splitOnChar '-' s.toList)
    ⟨some ⟨name, [], r.val⟩, r.errs⟩
  | _ => ⟨none, 1⟩

/-- The link is disabled: `netsim/augment/links.py:144` -/
def NLink.disabled (l : NLink) : Bool :=
  match l.attrs.lookup "disable" with
  | some (.bool true) => true
  | _ => false

/-- The name of the link: `netsim/augment/links.py:141`. -/
def linkName (path : String) (n : Nat) : String := path ++ "[" ++ toString n ++ "]"

/-- Elements of a list of links: `netsim/augment/links.py:139-146`. -/
def adjustElems (nodes : List String) (path : String) : Nat → List Val → NRes (List NLink)
  | _, [] => ⟨[], 0⟩
  | n, v :: rest =>
    let r := adjustElems nodes path (n + 1) rest
    let a := adjustLink nodes (linkName path n) v
    match a.val with
    | some l => if l.disabled then ⟨r.val, a.errs + r.errs⟩ else ⟨l :: r.val, a.errs + r.errs⟩
    | none => ⟨r.val, a.errs + r.errs⟩

mutual
  /-- `adjust_link_list`, `netsim/augment/links.py:123-159`; `path` is the part of the format in front of `[`. -/
  def adjustLinks (nodes : List String) (path : String) : Val → NRes (List NLink)
    | .dict d => adjustGroups nodes path d
    | .list l => adjustElems nodes path 1 l
    | .str s =>
      if s = "" then ⟨[], 0⟩
      else
        let a := adjustLink nodes path (.str s)
        ⟨a.val.toList, a.errs⟩
    | .null => ⟨[], 0⟩
    | .bool b => ⟨[], if b then 1 else 0⟩
    | .int i => ⟨[], if i = 0 then 0 else 1⟩
  /-- Link groups in a dictionary: `netsim/augment/links.py:134-138`. -/
  def adjustGroups (nodes : List String) (path : String) : List (String × Val) → NRes (List NLink)
    | [] => ⟨[], 0⟩
    | p :: rest =>
      let a := adjustGroup nodes path p
      let r := adjustGroups nodes path rest
      ⟨a.val ++ r.val, a.errs + r.errs⟩
  /-- One link group: `netsim/augment/links.py:135-138`. -/
  def adjustGroup (nodes : List String) (path : String) : String × Val → NRes (List NLink)
    | (k, v) => adjustLinks nodes (path ++ "." ++ k) v
end

end Netlab
