import Verif.Model.StaticRoutes
/-!
# Default routes of hosts

`add_host_static_routes` (`netsim/augment/nodes.py:473-507`): the hosts that get default routes and the address families
of those routes.  The resolution of the routes is in `Verif.Model.StaticRoutes`.

Simplifications: nodes contain only the data used by the function; values of attributes are replaced with their truth
values.
-/

namespace Netlab

/-- An interface of a host: `netsim/augment/nodes.py:493-496`. -/
structure HrIntf where
  /-- `dhcp.server` (DHCP relaying) -/
  relay : Bool
  /-- `dhcp.client.ipv4` and `dhcp.client.ipv6` -/
  client : Dual Unit
deriving DecidableEq, Repr

/-- A node: `netsim/augment/nodes.py:475-510`. -/
structure HrNode where
  name : String
  host : Bool
  /-- `routing.static` -/
  static : List SrRoute
  /-- address families of the node (`false` is IPv4) -/
  afs : List Bool
  /-- the device feature `initial.ipv6_use_ra` -/
  useRa : Bool
  /-- `dhcp.server` -/
  dhcpServer : Bool
  ifs : List HrIntf
  modules : List String
deriving DecidableEq, Repr

/-- `host_af_list`: `netsim/augment/nodes.py:488`. -/
def hrAfs (n : HrNode) : List Bool := n.afs.filter (fun af => !af || !n.useRa)

/-- `host_af_list.remove(af)`, `netsim/augment/nodes.py:497`; `none` is the exception. -/
def hrRemove (l : List Bool) (af : Bool) : Option (List Bool) := if l.contains af then some (l.erase af) else none

/-- The loop over interfaces: `netsim/augment/nodes.py:493-497`. -/
def hrScanIntf (af : Bool) : List HrIntf → List Bool → Option (List Bool)
  | [], l => some l
  | i :: rest, l =>
    if i.relay then hrScanIntf af rest l
    else if (i.client.get af).isSome then (hrRemove l af).bind (hrScanIntf af rest)
    else hrScanIntf af rest l

/-- The loop over address families: `netsim/augment/nodes.py:490-497`. -/
def hrScanAf (n : HrNode) : List Bool → List Bool → Option (List Bool)
  | [], l => some l
  | af :: rest, l =>
    if n.dhcpServer then hrScanAf n rest l
    else (hrScanIntf af n.ifs l).bind (hrScanAf n rest)

/-- `data.append_to_list`: `netsim/data/__init__.py:37-47`. -/
def hrAppend (l : List String) (x : String) : List String := if l.contains x then l else l ++ [x]

/-- One node, `netsim/augment/nodes.py:477-508`: the node and the information whether it got the routes. -/
def hrNode (dhcp : Bool) (sr : List SrRoute) (n : HrNode) : Option (HrNode × Bool) :=
  if !n.host then some (n, false)
  else if !n.static.isEmpty then some (n, false)
  else
    match (if dhcp then hrScanAf n (hrAfs n) (hrAfs n) else some (hrAfs n)) with
    | none => none
    | some l =>
      if l.isEmpty then some (n, false)
      else some ({ n with static := hostRoutes l sr, modules := hrAppend n.modules "routing" }, true)

/-- The loop over nodes with the list of topology modules, `netsim/augment/nodes.py:475-510`.  The DHCP module cannot be
added to the list by the function. -/
def hrNodes (sr : List SrRoute) : List String → List HrNode → Option (List HrNode × List String)
  | mods, [] => some ([], mods)
  | mods, n :: rest =>
    match hrNode (mods.contains "dhcp") sr n with
    | none => none
    | some (n', added) =>
      match hrNodes sr (if added then hrAppend mods "routing" else mods) rest with
      | none => none
      | some (l, m) => some (n' :: l, m)

/-- `add_host_static_routes`, `netsim/augment/nodes.py:473-510`: the list of static routes for hosts (`routing.static.host`)
replaces the default list. -/
def addHostRoutes (user : Option (List SrRoute)) (pools : List (String × Dual String)) (mods : List String)
    (nodes : List HrNode) : Option (List HrNode × List String) :=
  hrNodes (user.getD (defaultRoutes pools)) mods nodes

end Netlab
