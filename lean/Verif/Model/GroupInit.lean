import Verif.Model.Box
/-!
# Creation of groups (`netsim/augment/groups.py`)

Basic checks of groups, objects created from group members, default groups, groups listed in nodes, and BGP AS groups.
-/

namespace Netlab

/-- Group members before `must_be_list` (`netsim/augment/groups.py:102-104`): a missing attribute, a list, a scalar changed into a
list, and a value that is an error -/
inductive GiMembers where
  | absent
  | list (l : List String)
  | one (s : String)
  | bad
  deriving Repr, DecidableEq

/-- A group that is a dictionary (`netsim/augment/groups.py:235-270`); other attributes are not modelled. -/
structure GiDict where
  members : GiMembers := .absent
  gtype : Option String := none
  autoCreate : Bool := false
  deriving Repr, DecidableEq

/-- Value of a group (`netsim/augment/groups.py:82-104`); scalar values are not modelled. -/
inductive GiVal where
  | null
  | list (l : List String)
  | dict (d : GiDict)
  deriving Repr, DecidableEq

/-- A group after `check_group_data_sanity` (`netsim/augment/groups.py:67-106`) -/
structure GiGroup where
  members : Option (List String) := none
  gtype : Option String := none
  autoCreate : Bool := false
  deriving Repr, DecidableEq

/-- Names starting with an underscore are settings (`netsim/augment/groups.py:83,126,248`). -/
def giSetting (n : String) : Bool := ("_".toList).isPrefixOf n.toList

/-- Group type (`netsim/augment/groups.py:134,262`) -/
def GiGroup.kind (g : GiGroup) : String := g.gtype.getD "node"

/-- `must_be_list` for group members (`netsim/augment/groups.py:102-104`) -/
def giMembers : GiMembers → Option (Option (List String))
  | .absent => some none
  | .list l => some (some l)
  | .one s => some (some [s])
  | .bad => none

/-- Loop body of `check_group_data_sanity` (`netsim/augment/groups.py:82-104`); `none` is an error that ends the checks. -/
def giSane (nodes : List String) (x : String × GiVal) : Option (String × GiGroup) :=
  match x.2 with
  | .null => none
  | .list l => if nodes.contains x.1 then none else some (x.1, { members := some l })
  | .dict d =>
    if nodes.contains x.1 then none
    else (giMembers d.members).map (fun m => (x.1, { members := m, gtype := d.gtype, autoCreate := d.autoCreate }))

/-- `netsim/augment/groups.py:67-106` (`check_group_data_sanity`); settings are skipped. -/
def giSanity (nodes : List String) (gs : List (String × GiVal)) : Option (List (String × GiGroup)) :=
  (gs.filter (fun x => !giSetting x.1)).mapM (giSane nodes)

/-- Names of objects of every type: nodes, VLANs and VRFs (`netsim/augment/groups.py:262-270`) -/
abbrev GiObjs := List (String × List String)

/-- `topology[f'{g_type}s']` (`netsim/augment/groups.py:135,264`) -/
def GiObjs.of (o : GiObjs) (t : String) : List String := (o.lookup t).getD []

/-- Loop over group members (`netsim/augment/groups.py:256-270`) -/
def giCreate (groups : List String) (t : String) (o : GiObjs) (n : String) : GiObjs :=
  if groups.contains n || (o.of t).contains n then o else setKey o t (o.of t ++ [n])

/-- `netsim/augment/groups.py:235-270` (`auto_create_members`) -/
def giAutoCreate (groups : List String) (dflt : Bool) (gs : List (String × GiGroup)) (o : GiObjs) : GiObjs :=
  gs.foldl (fun o x => if x.2.autoCreate || dflt then (x.2.members.getD []).foldl (giCreate groups x.2.kind) o else o) o

/-- Input data (`netsim/augment/groups.py:527-549`): topology and default groups, and the global setting of `_auto_create` -/
structure GiInput where
  topo : List (String × GiVal)
  dflt : List (String × GiVal)
  autoCreate : Bool
  objs : GiObjs
  deriving Repr

/-- Names of all groups and group settings (`netsim/augment/groups.py:259`) -/
def GiInput.names (i : GiInput) : List String := i.topo.map (·.1) ++ i.dflt.map (·.1)

/-- `netsim/augment/groups.py:527-549` (`precheck_groups`); `none` means errors. The default groups are checked after the objects from
topology groups are created. -/
def giPrecheck (i : GiInput) : Option (List (String × GiGroup) × List (String × GiGroup) × GiObjs) := do
  let t ← giSanity (i.objs.of "node") i.topo
  let o := giAutoCreate i.names i.autoCreate t i.objs
  let d ← giSanity (o.of "node") i.dflt
  return (t, d, giAutoCreate i.names false d o)

/-- A group after `check_group_data_structure` (`netsim/augment/groups.py:108-225`): it always has a list of members. -/
structure GiFull where
  members : List String := []
  gtype : Option String := none
  isDefault : Bool := false
  deriving Repr, DecidableEq

/-- Group type (`netsim/augment/groups.py:284`) -/
def GiFull.kind (g : GiFull) : String := g.gtype.getD "node"

/-- Number of errors for one group (`netsim/augment/groups.py:134-140,170-174,219-225`); attribute validation is not modelled. `known`
are the names of groups and settings. -/
def giErrors (o : GiObjs) (known : List String) (prune : Bool) (x : String × GiGroup) : Nat :=
  (if ["node", "vlan", "vrf"].contains x.2.kind then 0 else 1) +
  (if x.1 == "all" && !(x.2.members.getD []).isEmpty then 1 else 0) +
  if prune then 0 else ((x.2.members.getD []).filter (fun n => !((o.of x.2.kind).contains n || known.contains n))).length

/-- `netsim/augment/groups.py:108-225` (`check_group_data_structure`): groups with members -/
def giFull (o : GiObjs) (known : List String) (prune : Bool) (x : String × GiGroup) : String × GiFull :=
  (x.1, { members := (x.2.members.getD []).filter (fun n => !prune || (o.of x.2.kind).contains n || known.contains n), gtype := x.2.gtype })

/-- Default groups are added to topology groups (`netsim/augment/groups.py:556-564`): attributes of topology groups are more specific.
They include the list of members that is created when it is missing. -/
def giMergeDefault (gs : List (String × GiFull)) (x : String × GiFull) : List (String × GiFull) :=
  match gs.lookup x.1 with
  | none => setKey gs x.1 { x.2 with isDefault := true }
  | some g => setKey gs x.1 { g with gtype := g.gtype.or x.2.gtype }

/-- Groups and number of errors (`netsim/augment/groups.py:276-294`) -/
structure GiState where
  groups : List (String × GiFull)
  errors : Nat := 0
  deriving Repr, DecidableEq

/-- A node added to a group (`netsim/augment/groups.py:283-294`, `netsim/data/__init__.py:37-47`) -/
def giAddNode (name : String) (st : GiState) (g : String) : GiState :=
  let d := (st.groups.lookup g).getD {}
  if d.kind != "node" then { st with errors := st.errors + 1 }
  else { st with groups := setKey st.groups g { d with members := if d.members.contains name then d.members else d.members ++ [name] } }

/-- `netsim/augment/groups.py:276-294` (`add_node_level_groups`): `nodes` are node names with values of the `group` attribute. -/
def giNodeGroups (nodes : List (String × List String)) (st : GiState) : GiState :=
  nodes.foldl (fun st n => n.2.foldl (giAddNode n.1) st) st

/-- `netsim/augment/groups.py:551-570` (`init_groups`) up to the check of recursive groups; the
program skips some of these steps after an error. -/
def giInit (i : GiInput) (t d : List (String × GiGroup)) (o : GiObjs) (nodes : List (String × List String)) : GiState :=
  let tn := i.topo.map (·.1)
  let dn := i.dflt.map (·.1)
  giNodeGroups nodes
    { groups := (d.map (giFull o dn true)).foldl giMergeDefault (t.map (giFull o tn false))
      errors := (t.map (giErrors o tn false)).sum + (d.map (giErrors o dn true)).sum }

/-- Names of AS groups: `as\d+$` (`netsim/augment/groups.py:475`); only ASCII digits, no newline at the end -/
def giAsGroup (n : String) : Bool :=
  match n.toList with
  | 'a' :: 's' :: d => !d.isEmpty && d.all Char.isDigit
  | _ => false

/-- A node in `create_bgp_autogroups` (`netsim/augment/groups.py:482-499`): `asn` is the AS number of a node using BGP, zero or `none`
when it has no AS number or does not use BGP. -/
structure GiBgpNode where
  name : String
  asn : Option Nat
  deriving Repr, DecidableEq

/-- Name of the group (`netsim/augment/groups.py:500`) -/
def giAsName (n : Nat) : String := "as" ++ toString n

/-- Loop body (`netsim/augment/groups.py:482-514`); `errs` are names of AS groups that are also nodes (`err_list`). -/
def giAsStep (names : List String) (st : List (String × GiFull) × List String) (n : GiBgpNode) : List (String × GiFull) × List String :=
  match n.asn with
  | none => st
  | some 0 => st
  | some a =>
    let g := giAsName a
    let d := (st.1.lookup g).getD {}
    (setKey st.1 g { d with members := d.members ++ [n.name] }, if names.contains g then st.2 ++ [g] else st.2)

/-- `netsim/augment/groups.py:467-517` (`create_bgp_autogroups`): groups and number of errors; the errors for node names are reported
once. -/
def giAsGroups (gs : List (String × GiFull)) (nodes : List GiBgpNode) : List (String × GiFull) × Nat :=
  let r := nodes.foldl (giAsStep (nodes.map (·.name))) (gs, [])
  (r.1, (gs.filter (fun x => giAsGroup x.1 && !x.2.members.isEmpty)).length + r.2.eraseDups.length)

end Netlab
