import Verif.Model.LinkNorm
import Mathlib.Data.List.Forall2

namespace Netlab.Spec

open Netlab

/-- The interface belongs to the node. -/
def IfNode (i : List (String × Val)) (n : String) : Prop := i.lookup "node" = some (.str n)

/-- The element of the list of interfaces (a name of a node or a dictionary with `node`) is turned into the interface;
all attributes are kept. -/
inductive IfOf (nodes : List String) : Val → List (String × Val) → Prop
  | name (n : String) (h : n ∈ nodes) : IfOf nodes (.str n) [("node", .str n)]
  | dict (i : List (String × Val)) (n : String) (hn : IfNode i n) (h : n ∈ nodes) : IfOf nodes (.dict i) i

/-- The key of the link dictionary is the name of a node: the value has the attributes of the interface. -/
inductive KeyIfOf : String × Val → List (String × Val) → Prop
  | empty (k : String) : KeyIfOf (k, .null) [("node", .str k)]
  | dict (k : String) (d i : List (String × Val)) (hn : IfNode i k)
      (h : ∀ a, a ≠ "node" → i.lookup a = d.lookup a) : KeyIfOf (k, .dict d) i

/-- The link in the topology is normalized into the link. -/
inductive NormOf (nodes : List String) : Val → NLink → Prop
  /-- a dictionary with `interfaces` -/
  | interfaces (d : List (String × Val)) (v : Val) (vs : List Val) (l : NLink) (hv : d.lookup "interfaces" = some v)
      (hvs : v = .list vs ∨ (v = .null ∧ vs = []) ∨ (vs = [v] ∧ v.isDict = false))
      (hi : List.Forall₂ (IfOf nodes) vs l.ifs) (ha : l.attrs = d.filter (fun p => p.1 != "interfaces")) :
      NormOf nodes (.dict d) l
  /-- a dictionary with nodes and link attributes -/
  | keys (d : List (String × Val)) (l : NLink) (hv : d.lookup "interfaces" = none)
      (hi : List.Forall₂ KeyIfOf (d.filter (fun p => nodes.contains p.1)) l.ifs)
      (ha : l.attrs = d.filter (fun p => !nodes.contains p.1)) : NormOf nodes (.dict d) l
  /-- a list of interfaces -/
  | list (vs : List Val) (l : NLink) (hi : List.Forall₂ (IfOf nodes) vs l.ifs) (ha : l.attrs = []) :
      NormOf nodes (.list vs) l
  /-- a string with names of nodes; every name starts with the name of a node -/
  | string (s : String) (l : NLink) (ns : List String)
      (hs : ns = (splitOnChar '-' s.toList).map (fun n => String.ofList (pyStrip n)))
      (hn : ∀ n ∈ ns, ∃ x ∈ nodes, x.toList <+: n.toList) (hi : l.ifs = ns.map (fun n => [("node", .str n)]))
      (ha : l.attrs = []) : NormOf nodes (.str s) l

/-- The link has `disable: True`. -/
def Disabled (l : NLink) : Prop := l.attrs.lookup "disable" = some (.bool true)

/-- The links are the links in the list, in the same order, without disabled links. -/
inductive Normalized (nodes : List String) : List Val → List NLink → Prop
  | nil : Normalized nodes [] []
  | keep (v : Val) (l : NLink) (vs : List Val) (ls : List NLink) (hn : NormOf nodes v l) (hd : ¬ Disabled l)
      (h : Normalized nodes vs ls) : Normalized nodes (v :: vs) (l :: ls)
  | drop (v : Val) (l : NLink) (vs : List Val) (ls : List NLink) (hn : NormOf nodes v l) (hd : Disabled l)
      (h : Normalized nodes vs ls) : Normalized nodes (v :: vs) ls

mutual
  /-- All links in the `links` element: the elements of the list, or of all lists in link groups. -/
  def linkVals : Val → List Val
    | .dict d => groupVals d
    | .list l => l
    | .str s => if s = "" then [] else [.str s]
    | .null => []
    | .bool _ => []
    | .int _ => []
  /-- Links in link groups. -/
  def groupVals : List (String × Val) → List Val
    | [] => []
    | p :: rest => pairVals p ++ groupVals rest
  /-- Links in a link group. -/
  def pairVals : String × Val → List Val
    | (_, v) => linkVals v
end

/-- Names of link groups are unique and do not contain characters with a special meaning. -/
inductive PlainGroups : Val → Prop
  | leaf (v : Val) (h : v.isDict = false) : PlainGroups v
  | groups (d : List (String × Val)) (hn : (d.map Prod.fst).Nodup)
      (hc : ∀ k v, (k, v) ∈ d → '.' ∉ k.toList ∧ '[' ∉ k.toList)
      (h : ∀ k v, (k, v) ∈ d → PlainGroups v) : PlainGroups (.dict d)

end Netlab.Spec
