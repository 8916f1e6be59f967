import Verif.Model.LinkNorm
/-!
# Link types, link roles and group links

Selection of link types and roles and the check of link types (`netsim/augment/links.py:884-1025, 1218-1224`), and
expansion of group links (`netsim/augment/links.py:1120-1125, 1165-1209`).

Simplifications:

* every interface has the facts about its node: every node on a link exists;
* a link has only attributes that influence its type and role; the check of the link MTU (it does not influence the
  acceptance of the link) is not modelled;
* an empty link type (a fatal error) is an error like any other;
* names of group links with an invalid group identifier (such a link is dropped) are not modelled.
-/

namespace Netlab

/-! ### Types and roles -/

/-- A node on the link, `netsim/augment/links.py:890-905, 920-927`: is it a host, is it a daemon, does its device have
the name of loopback interfaces, and the device feature `stub_loopback` (a dictionary is `true`). -/
structure LtNode where
  host : Bool
  daemon : Bool
  hasLoopback : Bool
  stubLoopback : Option Bool
deriving DecidableEq

/-- A link, `netsim/augment/links.py:949-969`: type, role, is it a VLAN link, does it have a DHCP subnet, and its nodes. -/
structure LtLink where
  type : Option String
  role : Option String
  vlan : Bool
  dhcp : Bool
  nodes : List LtNode
deriving DecidableEq

/-- Number of hosts on the link: `netsim/augment/links.py:918-923, 929-930`. -/
def ltHosts : List LtNode → Nat
  | [] => 0
  | n :: rest => (if n.host then 1 else 0) + ltHosts rest

/-- Number of routers on the link, a host that is a daemon is a router as well: `netsim/augment/links.py:919-927, 932-933`. -/
def ltRouters : List LtNode → Nat
  | [] => 0
  | n :: rest => (if n.host then (if n.daemon then 1 else 0) else 1) + ltRouters rest

/-- Change the link into a loopback?  `netsim/augment/links.py:890-907`; `dflt` is `defaults.links.stub_loopback`. -/
def ltLoopback (dflt : Bool) (n : LtNode) : Bool := n.hasLoopback && n.stubLoopback.getD dflt

/-- The link type after `set_link_loopback_type`: `netsim/augment/links.py:950-953`. -/
def ltType1 (dflt : Bool) (l : LtLink) : Option String :=
  match l.nodes with
  | [n] => if ltLoopback dflt n then some "loopback" else l.type
  | _ => l.type

/-- The role of the link: `netsim/augment/links.py:955-961`. -/
def ltRole (dflt : Bool) (l : LtLink) : Option String :=
  if l.role.isNone && decide (ltRouters l.nodes ≤ 1) && ltType1 dflt l != some "loopback" && !l.vlan then some "stub"
  else l.role

/-- Number of hosts after the adjustment for DHCP subnets: `netsim/augment/links.py:965-966`. -/
def ltHostCount (l : LtLink) : Nat := if l.dhcp then ltHosts l.nodes + 1 else ltHosts l.nodes

/-- `get_default_link_type`, `netsim/augment/links.py:938-945`. -/
def ltDefault (nodes hosts : Nat) : String :=
  if 2 < nodes then "lan"
  else if hosts ≠ 0 then "lan"
  else if nodes = 2 then "p2p" else "stub"

/-- `set_link_type_role`, the final type: `netsim/augment/links.py:968-969`. -/
def ltType (dflt : Bool) (l : LtLink) : String :=
  match ltType1 dflt l with
  | some t => t
  | none => ltDefault l.nodes.length (ltHostCount l)

/-- `check_link_type`, `netsim/augment/links.py:982-1025`. -/
def ltCheck (t : String) (n : Nat) : Bool :=
  if t = "" then false
  else if n = 0 then false
  else if t = "stub" ∧ 1 < n then false
  else if t = "p2p" ∧ n ≠ 2 then false
  else if t = "loopback" ∧ n ≠ 1 then false
  else true

/-- Types and roles of all links that are processed further, and the number of errors:
`netsim/augment/links.py:1221-1224`. -/
def ltTransform (dflt : Bool) : List LtLink → NRes (List LtLink)
  | [] => ⟨[], 0⟩
  | l :: rest =>
    let r := ltTransform dflt rest
    if ltCheck (ltType dflt l) l.nodes.length then
      ⟨{ l with type := some (ltType dflt l), role := ltRole dflt l } :: r.val, r.errs⟩
    else ⟨r.val, r.errs + 1⟩

/-! ### Group links -/

/-- First character of an identifier: `netsim/data/types.py:474`. -/
def idFirst (c : Char) : Bool := c.isAlpha || c == '_'

/-- Other characters of an identifier: `netsim/data/types.py:474`. -/
def idNext (c : Char) : Bool := c.isAlpha || c.isDigit || c == '_' || c == '-'

/-- `must_be_id` with the default length: `netsim/data/types.py:468-483`. -/
def isId : Val → Bool
  | .str s =>
    match s.toList with
    | [] => false
    | c :: r => idFirst c && r.all idNext && decide (r.length ≤ 15)
  | _ => false

/-- Does the link have the attribute?  `netsim/augment/links.py:1174-1175, 1209` -/
def NLink.has (l : NLink) (k : String) : Bool := (l.attrs.lookup k).isSome

/-- The name of the link after `set_linknames`: `netsim/augment/links.py:1120-1125`. -/
def geName (l : NLink) : String :=
  match l.attrs.lookup "group" with
  | some (.str g) => if g = "" then l.name else "links[" ++ g ++ "]"
  | _ => l.name

/-- Members of a group link after `must_be_list`, and the number of errors: `netsim/augment/links.py:1192-1197`,
`netsim/data/types.py:438-453`. -/
def geMembers (l : NLink) : NRes (List Val) :=
  match l.attrs.lookup "members" with
  | none => ⟨[], 1⟩
  | some .null => ⟨[], 2⟩
  | some (.dict _) => ⟨[], 2⟩
  | some (.list []) => ⟨[], 1⟩
  | some (.list vs) => ⟨vs, 0⟩
  | some v => ⟨[v], 0⟩

/-- Attributes copied into member links: `netsim/augment/links.py:1199-1201`. -/
def geData (l : NLink) : List (String × Val) := popKey (popKey l.attrs "group") "members"

/-- One member of the group link: `netsim/augment/links.py:1203-1206`; `none` is a crash (the member is not a link). -/
def geMember (nodes : List String) (g : NLink) (idx : Nat) (v : Val) : Option (NRes NLink) :=
  match adjustLink nodes (linkName (geName g) idx) v with
  | ⟨some m, e⟩ => some ⟨⟨m.name, mergeDict (geData g) m.attrs, m.ifs⟩, e⟩
  | ⟨none, _⟩ => none

/-- Members of the group link from the index on: `netsim/augment/links.py:1203-1206`. -/
def geMemberLinks (nodes : List String) (g : NLink) : Nat → List Val → Option (NRes (List NLink))
  | _, [] => some ⟨[], 0⟩
  | idx, v :: rest =>
    match geMember nodes g idx v, geMemberLinks nodes g (idx + 1) rest with
    | some m, some r => some ⟨m.val :: r.val, m.errs + r.errs⟩
    | _, _ => none

/-- Links created from one link: `netsim/augment/links.py:1173-1206`. -/
def geLink (nodes : List String) (l : NLink) : Option (NRes (List NLink)) :=
  match l.attrs.lookup "group" with
  | none => some ⟨[], if l.has "members" then 1 else 0⟩
  | some g =>
    if isId g then
      match geMemberLinks nodes l 1 (geMembers l).val with
      | some r => some ⟨r.val, (geMembers l).errs + r.errs⟩
      | none => none
    else some ⟨[], 1⟩

/-- Links created from all links: `netsim/augment/links.py:1173-1206`. -/
def geNew (nodes : List String) : List NLink → Option (NRes (List NLink))
  | [] => some ⟨[], 0⟩
  | l :: rest =>
    match geLink nodes l, geNew nodes rest with
    | some a, some b => some ⟨a.val ++ b.val, a.errs + b.errs⟩
    | _, _ => none

/-- `expand_groups`, `netsim/augment/links.py:1172-1209`. -/
def expandGroups (nodes : List String) (links : List NLink) : Option (NRes (List NLink)) :=
  match geNew nodes links with
  | some r => some ⟨(links ++ r.val).filter (fun l => !l.has "group"), r.errs⟩
  | none => none

end Netlab
