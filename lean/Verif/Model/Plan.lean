import Verif.Model.NodeId
import Verif.Model.LabAddr
import Verif.Model.Links
/-!
# Identifiers, addresses and interfaces of the whole lab

The part of the transformation (`netsim/augment/main.py:60-80`) that assigns node identifiers, loopback addresses, link prefixes, interface addresses, interface
indices and interface names, in the order in which netlab executes its steps.
-/

namespace Netlab

/-- A node of the lab topology (`netsim/augment/nodes.py:416-444`): name, the `id` attribute, is it a host, loopback pool and loopback attributes -/
structure PlanNode where
  name : String
  id : Option Val
  host : Bool
  pool : Option String
  lb : List (String × LbVal)

/-- A link of the lab topology (`netsim/augment/links.py:1217-1240`): link index, data used to assign addresses, and attributes of interfaces (addresses are
ignored; they are set by the address assignment) -/
structure PlanLink where
  index : Int
  la : LaLink
  reqs : List IfReq

/-- Everything else that influences the results: Python `int()`, reserved identifiers (`netsim/augment/nodes.py:28-33`), address pools (after VLANs got their prefixes), prefixes allocated between
the node and link transformation, device data and `defaults.warnings.duplicate_address` -/
structure PlanEnv where
  pyInt : String → Option Int
  reserved : IdVar
  pools : Pools
  mid : List (List String × Nat)
  dev : String → NodeDev
  dup : Bool

/-- Results: nodes with identifiers, loopback addresses, other prefixes, links with prefixes and addresses, and node interfaces
(`netsim/augment/main.py:66-80`) -/
structure PlanOut where
  ids : List NodeRec
  loopbacks : List (LbNode × LbState)
  prefixes : List (Nat × Option String × List (String × PfxEntry))
  links : List LaOut
  ifs : List NodeIf

/-- The identifier of a node (`netsim/augment/nodes.py:429-430`) -/
def recId (r : NodeRec) : Int := match r.id with | some (.int i) => i | _ => 0

/-- The node as seen by `loopback_interface` (`netsim/augment/nodes.py:373-406`) -/
def planLb (n : PlanNode) (r : NodeRec) : LbNode := ⟨n.name, (recId r).toNat, n.host, n.pool, n.lb⟩

/-- `ndict[intf.node].id` (`netsim/augment/links.py:638`) -/
def planId (recs : List NodeRec) (n : String) : Int :=
  match recs.find? (·.name == n) with
  | none => 0
  | some r => recId r

/-- `netsim/augment/links.py:602-605`: does the node have a loopback, and does the loopback have an address in the address family?  Hosts don't have a loopback
unless the user specified its attributes. -/
def planLoop (af : String) (lbs : List (LbNode × LbState)) (n : String) : Option Bool :=
  match lbs.find? (fun x => x.1.name == n) with
  | none => none
  | some x => if x.1.host && x.1.lb.isEmpty then none else some (lbTruthy (x.2.lb.lookup af))

/-- Interfaces of the link passed to `create_node_interfaces` (`netsim/augment/links.py:830-848`) -/
def planReq (l : PlanLink) (o : LaOut) : LinkReq :=
  ⟨l.index, (l.reqs.zip (o.if4.zip o.if6)).map (fun x => (x.2.1.node, { x.1 with ip4 := x.2.1.ip, ip6 := x.2.2.ip }))⟩

/-- `netsim/augment/main.py:66-80`: node identifiers, loopbacks, other prefixes, addresses of links and node interfaces.  `none`: the transformation stops
with a fatal error or an exception.  Node names are checked and links are normalized before these steps. -/
def plan (e : PlanEnv) (nodes : List PlanNode) (links : List PlanLink) : Option PlanOut :=
  match nodeIdPipeline e.pyInt e.reserved (nodes.map (fun n => ⟨n.name, n.id⟩)) with
  | .error _ => none
  | .ok recs =>
    let lbs := lbNodes e.pools (List.zipWith planLb nodes recs)
    let mid := runRequests lbs.2.2 e.mid
    match laLinks (planId recs) (planLoop "ipv4" lbs.1) (planLoop "ipv6" lbs.1) e.dup mid.2 (links.map (·.la)) with
    | none => none
    | some r => some ⟨recs, lbs.1, mid.1, r.1, (createInterfaces e.dev [] (List.zipWith planReq links r.1)).1⟩

end Netlab
