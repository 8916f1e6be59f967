import Verif.Model.LinkIntf
import Verif.Model.ModHooks
import Verif.Model.Igp
/-!
# Routing protocol data on the ends of a link

The path of routing protocol attributes from a link to interfaces of nodes attached to it: link attributes are copied into interfaces
(`netsim/augment/links.py`), attributes of the node are added (`netsim/modules/__init__.py`), and the routing protocol decides whether the interface
is used, whether it is passive, and what its network type is (`netsim/modules/_routing.py`).

Simplifications: interfaces are not in VRFs and there are no DHCP clients.
-/

namespace Netlab

/-- The node data used here (`netsim/augment/links.py:846`, `netsim/modules/__init__.py:395-403`): modules and module data of the node -/
structure AdjNode where
  modules : List String := []
  igp : List (String × Val) := []
  deriving Repr, DecidableEq

/-- An interface attached to a link (`netsim/augment/links.py:838-847`): name of the node and other attributes -/
structure AdjEnd where
  node : String
  data : List (String × Val) := []
  deriving Repr, DecidableEq

/-- Attribute lists in system defaults (`netsim/augment/links.py:197-199, 846`, `netsim/modules/__init__.py:403`), name of the routing protocol, network types
(`netsim/modules/ospf.py:109`, `netsim/modules/isis.py:59`), and nodes -/
structure AdjEnv where
  linkAttrs : List String
  internal : List String := []
  noProp : List String := []
  noMod : List String := []
  nodeCopy : List String := []
  proto : String
  allowed : List String := ["point-to-point"]
  nodes : String → AdjNode

/-- Interface data (`netsim/augment/links.py:844-847`) -/
def adjData (e : AdjEnv) (link : List (String × Val)) (x : AdjEnd) : List (String × Val) :=
  intfData link (propAttrs e.linkAttrs e.internal e.noProp (e.nodes x.node).modules e.noMod) x.data

/-- Routing protocol data of the interface after `copy_node_data_into_interfaces` (`netsim/modules/__init__.py:394-417`) -/
def adjProto (e : AdjEnv) (link : List (String × Val)) (x : AdjEnd) : Option Val :=
  if e.nodeCopy.isEmpty then (adjData e link x).lookup e.proto
  else (cnIntf (cnPick e.nodeCopy (e.nodes x.node).igp) [] [] none ((adjData e link x).lookup e.proto)).getD none

/-- Routing protocol attributes used by `passive` and `network_type` (`netsim/modules/_routing.py:75-170`); `none` is an exception. -/
def adjAttr (v : Option Val) : Option IgpAttr :=
  match v with
  | none => some .missing
  | some (.bool false) => some .off
  | some (.dict d) => some (.data {
      passive := (d.lookup "passive").map Val.truthy
      ntype := (d.lookup "network_type").map fun t => match t with
        | .str s => if s = "" then none else some s
        | _ => none })
  | some _ => none

/-- A string attribute (`netsim/modules/_routing.py:94, 151-152`) -/
def adjStr (d : List (String × Val)) (k : String) : String :=
  match d.lookup k with
  | some (.str s) => s
  | _ => ""

/-- The interface as seen by the routing protocol module; neighbors are nodes of other interfaces on the link (`netsim/augment/links.py:860-884`). -/
def adjIntf (e : AdjEnv) (link : List (String × Val)) (ends : List AdjEnd) (k : Nat) (x : AdjEnd) : Option IgpIntf :=
  (adjAttr (adjProto e link x)).map fun a => {
    name := x.node
    role := adjStr (adjData e link x) "role"
    type := adjStr (adjData e link x) "type"
    af := ["ipv4", "ipv6"].filter fun f => ((adjData e link x).lookup f).isSome
    ngb := (ends.eraseIdx k).map (·.node)
    igp := a }

/-- Does the node run the routing protocol?  (`netsim/modules/_routing.py:117`) -/
def adjRuns (e : AdjEnv) (n : String) : Bool := (e.nodes n).modules.contains e.proto

/-- What the routing protocol module does with the interface (`netsim/modules/ospf.py:106-111`, `netsim/modules/_routing.py:301-306`) -/
def adjResult (e : AdjEnv) (link : List (String × Val)) (ends : List AdjEnd) (k : Nat) : Option IgpIntf :=
  match ends[k]? with
  | none => none
  | some x => (adjIntf e link ends k x).map fun i => removeUnaddressed (igpIntf (adjRuns e) e.allowed i).1

end Netlab
