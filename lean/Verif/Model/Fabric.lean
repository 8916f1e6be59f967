import Verif.Model.LinkNorm
/-!
# Leaf-and-spine fabrics

The `fabric` plugin (`netsim/extra/fabric/plugin.py`).

Simplifications:

* formatting of strings (`strings.eval_format`, Python `eval` of an f-string) is a parameter of the model; formatted node
  names do not contain dots;
* conversion of formatted strings into integers (`int(value)`) is a part of the formatting parameter;
* lists inside parameters are not formatted (as in the code), parameters are dictionaries.
-/

namespace Netlab

/-- A role in the fabric (leaf or spine): number of nodes, node names, group name and other parameters,
`netsim/extra/fabric/plugin.py:112-120`, `139-148`. -/
structure FabRole where
  count : Int
  name : Nat → String
  group : String
  params : List (String × Val)

/-- A node in the list of fabric nodes: name and all attributes, `netsim/extra/fabric/plugin.py:14-19`. -/
structure FabNode where
  name : String
  attrs : List (String × Val)

/-- `create_node`, `netsim/extra/fabric/plugin.py:14-19`. -/
def fabNode (name : Nat → String) (k : Nat) : FabNode :=
  ⟨name k, [("name", .str (name k)), ("interfaces", .list []), ("_fabric_count", .int k)]⟩

/-- The nodes of one role: `netsim/extra/fabric/plugin.py:122-128`. -/
def fabNodes (r : FabRole) : List FabNode := (List.range r.count.toNat).map (fun k => fabNode r.name (k + 1))

/-- `'{' in s`: `netsim/extra/fabric/plugin.py:45`. -/
def isFormat (s : String) : Bool := s.toList.contains '{'

mutual
  /-- One parameter: `netsim/extra/fabric/plugin.py:41-48`; `none` removes the parameter. -/
  def extractVal (fmt : Bool) : Val → Option Val
    | .dict d =>
      match extractParams fmt d with
      | [] => if fmt then none else some (.dict [])
      | e => some (.dict e)
    | .str s => if isFormat s != fmt then none else some (.str s)
    | .null => if fmt then none else some .null
    | .bool b => if fmt then none else some (.bool b)
    | .int i => if fmt then none else some (.int i)
    | .list l => if fmt then none else some (.list l)
  /-- `extract_params`, `netsim/extra/fabric/plugin.py:39-50`. -/
  def extractParams (fmt : Bool) : List (String × Val) → List (String × Val)
    | [] => []
    | p :: rest => extractPair fmt p ++ extractParams fmt rest
  /-- One parameter with its key: `netsim/extra/fabric/plugin.py:40-48`. -/
  def extractPair (fmt : Bool) : String × Val → List (String × Val)
    | (k, v) =>
      match extractVal fmt v with
      | none => []
      | some w => [(k, w)]
end

mutual
  /-- Format one parameter: `netsim/extra/fabric/plugin.py:61-74`. -/
  def formatVal (ev : String → Val) : Val → Val
    | .dict d => .dict (formatParams ev d)
    | .str s => ev s
    | .null => .null
    | .bool b => .bool b
    | .int i => .int i
    | .list l => .list l
  /-- `format_node_params`, `netsim/extra/fabric/plugin.py:59-76`. -/
  def formatParams (ev : String → Val) : List (String × Val) → List (String × Val)
    | [] => []
    | p :: rest => formatPair ev p :: formatParams ev rest
  /-- One parameter with its key: `netsim/extra/fabric/plugin.py:60-74`. -/
  def formatPair (ev : String → Val) : String × Val → String × Val
    | (k, v) => (k, formatVal ev v)
end

/-- Parameters without fabric-specific ones: `netsim/extra/fabric/plugin.py:88-90`. -/
def roleParams (r : FabRole) : List (String × Val) := r.params.filter (fun p => p.1 != "name" && p.1 != "group")

/-- Node parameters: `netsim/extra/fabric/plugin.py:95`, `101-107`.  `ev` evaluates a format with the attributes of a
node. -/
def fabNodeParams (ev : FabNode → String → Val) (r : FabRole) (n : FabNode) : FabNode :=
  match extractParams true (roleParams r) with
  | [] => n
  | p => { n with attrs := mergeDict n.attrs (formatParams (ev n) p) }

/-- The fabric group with its members and attributes: `netsim/extra/fabric/plugin.py:25-26`, `96-99`. -/
structure FabGroup where
  members : List String
  attrs : List (String × Val)

/-- Set the members of a group: `netsim/extra/fabric/plugin.py:25-26`.  The group may exist when leafs and spines use the
same group. -/
def addGroup (groups : List (String × FabGroup)) (g : String) (members : List String) : List (String × FabGroup) :=
  setKey groups g ⟨members, ((groups.lookup g).map FabGroup.attrs).getD []⟩

/-- Add group parameters: `netsim/extra/fabric/plugin.py:96-99`.  Fabric parameters do not include `members`. -/
def addGroupParams (groups : List (String × FabGroup)) (g : String) (p : List (String × Val)) :
    List (String × FabGroup) :=
  match groups.lookup g with
  | none => groups
  | some x => setKey groups g { x with attrs := mergeDict x.attrs p }

/-- The group of one role: `netsim/extra/fabric/plugin.py:139-148`. -/
def fabGroup (groups : List (String × FabGroup)) (r : FabRole) : List (String × FabGroup) :=
  addGroupParams (addGroup groups r.group ((fabNodes r).map FabNode.name)) r.group (extractParams false (roleParams r))

/-- The node dictionary: `netsim/extra/fabric/plugin.py:150-152`. -/
def nodeDict (l : List FabNode) : List (String × FabNode) :=
  l.foldl (fun d n => setKey d n.name n) []

/-- One fabric link: `netsim/extra/fabric/plugin.py:133-136`. -/
def fabLink (l s : FabNode) : Val := .dict (setKey [(l.name, .dict [])] s.name (.dict []))

/-- Fabric links: `netsim/extra/fabric/plugin.py:130-136`. -/
def fabLinks (leafs spines : List FabNode) : List Val := leafs.flatMap (fun l => spines.map (fun s => fabLink l s))

/-- The generated fabric: `netsim/extra/fabric/plugin.py:158`. -/
structure Fabric where
  groups : List (String × FabGroup)
  nodes : List (String × FabNode)
  links : NRes (List NLink)

/-- `generate_fabric`, `netsim/extra/fabric/plugin.py:113-158`. -/
def generateFabric (ev : FabNode → String → Val) (leaf spine : FabRole) : Fabric :=
  let nodes := nodeDict ((fabNodes leaf).map (fabNodeParams ev leaf) ++ (fabNodes spine).map (fabNodeParams ev spine))
  ⟨fabGroup (fabGroup [] leaf) spine, nodes,
    adjustLinks (nodes.map Prod.fst) "fabric" (.list (fabLinks (fabNodes leaf) (fabNodes spine)))⟩

/-- The part of the topology changed by the plugin: `netsim/extra/fabric/plugin.py:200-207`. -/
structure FabTopo where
  groups : List (String × FabGroup)
  nodes : List (String × FabNode)
  links : List NLink

/-- `grp + topology.groups` and the list of members: `netsim/extra/fabric/plugin.py:200-203`.  The topology group
replaces the members of the fabric group before the lists are combined; `sortSet` is `sorted(list(set(...)))`. -/
def mergeGroup (sortSet : List String → List String) (topo : List (String × FabGroup)) (p : String × FabGroup) :
    String × FabGroup :=
  match topo.lookup p.1 with
  | none => (p.1, { p.2 with members := sortSet (p.2.members ++ p.2.members) })
  | some g => (p.1, ⟨sortSet (g.members ++ p.2.members), mergeDict p.2.attrs g.attrs⟩)

/-- `nodes + topology.nodes`: `netsim/extra/fabric/plugin.py:205`. -/
def mergeNode (topo : List (String × FabNode)) (p : String × FabNode) : String × FabNode :=
  match topo.lookup p.1 with
  | none => p
  | some n => (p.1, { p.2 with attrs := mergeDict p.2.attrs n.attrs })

/-- `topology_expand`, `netsim/extra/fabric/plugin.py:184-207`. -/
def fabricExpand (sortSet : List String → List String) (f : Fabric) (t : FabTopo) : FabTopo :=
  ⟨f.groups.map (mergeGroup sortSet t.groups) ++ t.groups.filter (fun g => (f.groups.lookup g.1).isNone),
   f.nodes.map (mergeNode t.nodes) ++ t.nodes.filter (fun n => (f.nodes.lookup n.1).isNone),
   f.links.val ++ t.links⟩

end Netlab
