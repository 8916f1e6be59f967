import Verif.Model.Box
/-!
# Groups (`netsim/augment/groups.py`)

Settings in the `groups` dictionary (names starting with an underscore) are not a part of the
model.
-/

namespace Netlab

/-- A group after `check_group_data_structure` (`netsim/augment/groups.py:108-225`): members, type,
device, modules, data copied into members and custom configuration templates. -/
structure Group where
  members : List String
  gtype : String := "node"
  device : Option String := none
  module : Option (List String) := none
  nodeData : Option (List (String × Val)) := none
  config : Option (List String) := none

/-- The `groups` dictionary (`netsim/augment/groups.py:127`) -/
abbrev Groups := List (String × Group)

/-- Members of a group; an unknown group has none (`netsim/augment/groups.py:306`) -/
def Groups.members (gs : Groups) (g : String) : List String :=
  match gs.lookup g with
  | some d => d.members
  | none => []

/-- `m in topology.groups` (`netsim/augment/groups.py:48`) -/
def Groups.has (gs : Groups) (g : String) : Bool := (gs.lookup g).isSome

/-- Loop over group members in `netsim/augment/groups.py:44-50`; `f` is the recursive call. -/
def memberLoop (gs : Groups) (objs : List String) (f : String → Option (List String)) :
    List String → Option (List String)
  | [] => some []
  | m :: ms =>
    match (if gs.has m then f m else some []) with
    | none => none
    | some sub =>
      match memberLoop gs objs f ms with
      | none => none
      | some rest => some ((if objs.contains m then [m] else []) ++ sub ++ rest)

/-- `netsim/augment/groups.py:25-51` (`group_members`).  The first argument is `100 - count`; `none`
is the fatal error raised when the counter gets over 99.  `objs` are the names of objects of
the group type. -/
def groupMembers (gs : Groups) (objs : List String) (gtype : String) :
    Nat → String → Option (List String)
  | fuel, g =>
    match gs.lookup g with
    | none => some []
    | some d =>
      match fuel with
      | 0 => none
      | fuel + 1 =>
        if d.gtype != gtype then some []
        else memberLoop gs objs (groupMembers gs objs gtype fuel) d.members

/-- Loop over group members in `netsim/augment/groups.py:306-312`; `f` is the recursive call. -/
def chainLoop (gs : Groups) (chain : List String) (f : String → Bool) : List String → Bool
  | [] => false
  | m :: ms =>
    if chain.contains m then true
    else if gs.has m && f m then true
    else chainLoop gs chain f ms

/-- `netsim/augment/groups.py:299-315` (`check_recursive_chain`): `true` = a recursive chain was
found.  The first argument bounds the depth of recursion. -/
def checkChain (gs : Groups) : Nat → List String → String → Bool
  | 0, _, _ => false
  | fuel + 1, chain, g =>
    chainLoop gs (chain ++ [g]) (checkChain gs fuel (chain ++ [g])) (gs.members g)

/-- `netsim/augment/groups.py:317-322` (`check_recursive_groups`); the number of groups is a
sufficient bound for the recursion depth (theorem `C14_rejected_iff_recursive`). -/
def checkRecursive (gs : Groups) : Bool :=
  gs.any (fun p => checkChain gs (gs.length + 1) [] p.1)

/-- One pass over the remaining groups in `netsim/augment/groups.py:333-340`: a group is removed
from the dictionary as soon as it is added to the list.  First list: groups to visit,
second: remaining groups, third: sorted list. -/
def topRound (members : String → List String) :
    List String → List String → List String → List String × List String
  | [], rem, out => (rem, out)
  | g :: gs, rem, out =>
    if (members g).any (fun m => rem.contains m) then topRound members gs rem out
    else topRound members gs (rem.filter (· != g)) (out ++ [g])

/-- The `while` loop of `netsim/augment/groups.py:332-340`; `none` = still not done after that many
passes.  (Python code has no limit.) -/
def topLoop (members : String → List String) : Nat → List String → List String → Option (List String)
  | fuel, rem, out =>
    if rem.isEmpty then some out
    else match fuel with
      | 0 => none
      | fuel + 1 =>
        let (rem', out') := topRound members (rem.mergeSort (fun a b => decide (a ≤ b))) rem out
        topLoop members fuel rem' out'

/-- `netsim/augment/groups.py:324-342` (`reverse_topsort`) with a limit on the number of passes -/
def reverseTopsort (gs : Groups) (fuel : Nat) : Option (List String) :=
  topLoop gs.members fuel (gs.map (·.1)) []

/-! ### Group data on a single node

The loops over groups and over group members change one node at a time, so they are modelled as
loops over groups for one node.  The list `order` is the result of `reverse_topsort`, `isMember g`
says whether the node is in the expanded list of members of the group. -/

/-- Node attributes affected by groups (`netsim/augment/groups.py:347-380`): device, modules, and
all other node data. -/
structure GNode where
  device : Option String
  module : Option (List String)
  data : List (String × Val)

/-- Module loop in `netsim/augment/groups.py:375-377` -/
def addModules : List String → List String → List String
  | ms, [] => ms
  | ms, m :: r => addModules (if ms.contains m then ms else ms ++ [m]) r

/-- `netsim/augment/groups.py:347-380` (`copy_group_device_module`) for one node, one group.
`ndata.module or []`: an empty list and a missing list are both replaced with an empty list. -/
def copyDeviceModule1 (d : Group) (n : GNode) : GNode :=
  { n with
    device := match n.device with
      | some x => some x
      | none => d.device
    module := match d.module with
      | none => n.module
      | some ms => some (addModules (n.module.getD []) ms) }

/-- `netsim/augment/groups.py:347-380` (`copy_group_device_module`) for one node -/
def copyDeviceModule (gs : Groups) (isMember : String → Bool) : List String → GNode → GNode
  | [], n => n
  | g :: r, n =>
    match gs.lookup g with
    | some d => copyDeviceModule gs isMember r (if isMember g then copyDeviceModule1 d n else n)
    | none => copyDeviceModule gs isMember r n

/-- Data of unused modules is removed from group data before the merge
(`netsim/augment/groups.py:406-410`). -/
def dropUnused (topoModules : List String) (nodeModules : Option (List String))
    (d : List (String × Val)) : List (String × Val) :=
  match nodeModules with
  | none => d
  | some ms => (topoModules.filter (fun m => !ms.contains m)).foldl popKey d

/-- `netsim/augment/groups.py:385-415` (`copy_group_node_data`) for one node (without debugging
printouts; groups of VLANs and VRFs are not modelled). -/
def copyNodeData (gs : Groups) (pfx : String) (topoModules : List String)
    (isMember : String → Bool) : List String → GNode → GNode
  | [], n => n
  | g :: r, n =>
    match gs.lookup g with
    | none => copyNodeData gs pfx topoModules isMember r n
    | some d =>
      match d.nodeData with
      | none => copyNodeData gs pfx topoModules isMember r n
      | some nd =>
        if pfx.toList.isPrefixOf g.toList && isMember g then
          copyNodeData gs pfx topoModules isMember r
            { n with data := mergeDict (dropUnused topoModules n.module nd) n.data }
        else copyNodeData gs pfx topoModules isMember r n

/-! ### Custom configuration templates -/

/-- First phase of `netsim/augment/groups.py:598-614` (`node_config_templates`) for one node. -/
def collectConfig (gs : Groups) (isMember : String → Bool) : List String → List String → List String
  | [], cfg => cfg
  | g :: r, cfg =>
    match gs.lookup g with
    | none => collectConfig gs isMember r cfg
    | some d =>
      match d.config with
      | none => collectConfig gs isMember r cfg
      | some c => collectConfig gs isMember r (if isMember g || g == "all" then c ++ cfg else cfg)

/-- Loop over configuration templates in `netsim/augment/groups.py:633-640`; `none` = the
exception raised by `c[0]` for an empty string. -/
def cleanConfig : List String → List String → Option (List String)
  | acc, [] => some acc
  | acc, c :: r =>
    if c = "-" then cleanConfig [] r
    else match c.toList with
      | [] => none
      | x :: t => if x = '-' then cleanConfig (acc.filter (fun u => u != String.ofList t)) r
        else cleanConfig (acc ++ [c]) r

/-- `netsim/augment/groups.py:584-645` (`node_config_templates`) for one node -/
def nodeConfigTemplates (gs : Groups) (isMember : String → Bool) (order cfg : List String) :
    Option (List String) :=
  cleanConfig [] (collectConfig gs isMember order cfg)

end Netlab
