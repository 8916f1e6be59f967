import Verif.Model.LinkType
import Verif.Spec.LinkNorm
import Verif.Spec.Box

namespace Netlab.Spec

open Netlab

/-- The device of the node is configured to use loopbacks instead of stub links. -/
def WantsLoopback (dflt : Bool) (n : LtNode) : Prop :=
  n.hasLoopback = true ∧ (n.stubLoopback = some true ∨ (n.stubLoopback = none ∧ dflt = true))

/-- A single node that should use loopbacks is attached to the link. -/
def LoopbackLink (dflt : Bool) (l : LtLink) : Prop := ∃ n, l.nodes = [n] ∧ WantsLoopback dflt n

/-- There are hosts on the link: a node with the role of a host, or a DHCP subnet. -/
def HasHosts (l : LtLink) : Prop := l.dhcp = true ∨ ∃ n ∈ l.nodes, n.host = true

/-- The node forwards packets: it is not a host, or it is a routing daemon. -/
def Forwards (n : LtNode) : Prop := n.host = false ∨ n.daemon = true

/-- At least two positions on the link have nodes that forward packets. -/
def TwoRouters (l : LtLink) : Prop :=
  ∃ (i j : Nat) (a b : LtNode), i < j ∧ l.nodes[i]? = some a ∧ l.nodes[j]? = some b ∧ Forwards a ∧ Forwards b

/-- A link of this type can have this number of nodes. -/
structure FitsType (t : String) (n : Nat) : Prop where
  named : t ≠ ""
  some_node : 0 < n
  stub : t = "stub" → n = 1
  p2p : t = "p2p" → n = 2
  loopback : t = "loopback" → n = 1

/-- An identifier: a letter or an underscore followed by at most fifteen letters, digits, underscores and dashes. -/
def Identifier (s : String) : Prop :=
  ∃ c r, s.toList = c :: r ∧ (c.isAlpha = true ∨ c = '_') ∧ r.length ≤ 15 ∧
    ∀ x ∈ r, x.isAlpha = true ∨ x.isDigit = true ∨ x = '_' ∨ x = '-'

/-- The members of the group link: a non-empty list, or a value that is turned into a list. -/
inductive LinkMembers (l : NLink) : List Val → Prop
  | list (vs : List Val) (h : l.attrs.lookup "members" = some (.list vs)) (hne : vs ≠ []) : LinkMembers l vs
  | scalar (v : Val) (h : l.attrs.lookup "members" = some v) (h1 : v ≠ .null) (h2 : v.isDict = false)
      (h3 : ∀ vs, v ≠ .list vs) : LinkMembers l [v]

/-- Attributes of the group link apart from `group` and `members`. -/
def sharedAttrs (g : NLink) : List (String × Val) := g.attrs.filter (fun p => p.1 != "group" && p.1 != "members")

/-- The link is the member of the group link: it has the interfaces of the member, attributes of the member, and
attributes of the group link the member does not have. -/
def LinkMember (nodes : List String) (g : NLink) (v : Val) (m : NLink) : Prop :=
  ∃ raw, NormOf nodes v raw ∧ m.ifs = raw.ifs ∧
    (∀ k, (∃ u, (k, u) ∈ m.attrs) ↔ (∃ u, (k, u) ∈ raw.attrs) ∨ ∃ u, (k, u) ∈ sharedAttrs g) ∧
    ∀ p w, Val.leafAt (.dict m.attrs) p w ↔ Val.leafAt (.dict raw.attrs) p w ∨
      (Val.leafAt (.dict (sharedAttrs g)) p w ∧ Untouched (.dict raw.attrs) p)

/-- Links created from the links: members of group links in the original order. -/
inductive LinkExpansion (nodes : List String) : List NLink → List NLink → Prop
  | nil : LinkExpansion nodes [] []
  | plain (l : NLink) (ls out : List NLink) (h1 : l.attrs.lookup "group" = none) (h2 : l.attrs.lookup "members" = none)
      (h : LinkExpansion nodes ls out) : LinkExpansion nodes (l :: ls) out
  | group (l : NLink) (ls ms out : List NLink) (g : String) (vs : List Val) (hg : l.attrs.lookup "group" = some (.str g))
      (hi : Identifier g) (hv : LinkMembers l vs) (hm : List.Forall₂ (LinkMember nodes l) vs ms)
      (h : LinkExpansion nodes ls out) : LinkExpansion nodes (l :: ls) (ms ++ out)

end Netlab.Spec
