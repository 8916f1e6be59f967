import Verif.Model.Box
/-!
# Topology and BGP graphs (`netsim/outputs/graph.py`, `netsim/outputs/d2.py`)

Output files are lists of drawn objects; colors, fonts and address labels are not modelled.
-/

namespace Netlab

/-- A drawn object (`netsim/outputs/graph.py:15-102`, `netsim/outputs/d2.py:51-120`): a cluster (with optional name) and nodes in it, a node, a network, a connection, a BGP session with its direction -/
inductive GvItem
  | cluster (id : String) (label : Option String) (nodes : List String)
  | node (name : String)
  | net (name : String)
  | edge (a b : String)
  | session (a b dir : String)
  deriving DecidableEq, Repr

/-- A link: is it a point-to-point link, the name of the network, and attached nodes (`netsim/outputs/graph.py:143-153`) -/
structure GvLink where
  p2p : Bool
  bridge : String
  nodes : List String
  deriving DecidableEq, Repr

/-- A BGP neighbor: name, is it an IBGP session, does the neighbor have the `rr` attribute (`netsim/outputs/graph.py:159-167`) -/
structure GvNeighbor where
  name : String
  ibgp : Bool
  rr : Bool := false
  deriving DecidableEq, Repr

/-- A node: AS number (if any), the `bgp.rr` attribute and BGP neighbors (`netsim/outputs/graph.py:86-91` and 191-195) -/
structure GvNode where
  name : String
  asn : Option String := none
  rr : Option Bool := none
  neighbors : List GvNeighbor := []
  deriving DecidableEq, Repr

/-- Add a node to a cluster (`netsim/outputs/graph.py:91` and 119, `netsim/outputs/d2.py:143` and 170) -/
def gvAdd (maps : List (String × List String)) (c n : String) : List (String × List String) :=
  match maps.lookup c with
  | some l => setKey maps c (if l.contains n then l else l ++ [n])
  | none => maps ++ [(c, [n])]

/-- AS clusters (`netsim/outputs/graph.py:86-91`, `netsim/outputs/d2.py:138-143`) -/
def gvAs (nodes : List GvNode) : List (String × List String) :=
  nodes.foldl (fun m n => match n.asn with
    | some a => gvAdd m ("AS_" ++ a) n.name
    | none => m) []

/-- AS names (`netsim/outputs/graph.py:93-96`, `netsim/outputs/d2.py:145-148`): keys of the AS list are usually integers. -/
def gvAsName (asList : List (Val × Option String)) (c : String) : Option String :=
  match asList.reverse.find? (fun a => a.2.isSome && decide (a.1 = .str c)) with
  | some a => a.2
  | none => none

/-- The loop over group members (`netsim/outputs/graph.py:111-120`, `netsim/outputs/d2.py:162-171`): clusters, placed nodes, number of errors -/
def gvMembers (g : String) : List String → List (String × List String) × List String × Nat → List (String × List String) × List String × Nat
  | [], s => s
  | n :: r, (m, placed, e) => if placed.contains n then gvMembers g r (m, placed, e + 1) else gvMembers g r (gvAdd m g n, placed ++ [n], e)

/-- `netsim/outputs/graph.py:104-120` and `netsim/outputs/d2.py:155-171` (`add_groups`): group clusters and number of errors -/
def gvGroups (groups : List (String × List String)) (selected : List String) : List (String × List String) × List String × Nat :=
  groups.foldl (fun s g => if selected.contains g.1 then gvMembers g.1 g.2 s else s) ([], [], 0)

/-- `netsim/outputs/graph.py:74-79` (`graph_clusters`) -/
def gvClusters (label : String → Option String) (m : List (String × List String)) : List GvItem := m.map (fun c => .cluster c.1 (label c.1) c.2)

/-- Connections of a link (`netsim/outputs/graph.py:143-153`, `netsim/outputs/d2.py:192-203`); `name` is the drawn name of a node.  `none` is a crash (a point-to-point link with less than two nodes). -/
def gvLink (nodes : List String) (name : String → String) (l : GvLink) : Option (List GvItem) :=
  if l.p2p then
    match l.nodes with
    | a :: b :: _ => some [.edge (name a) (name b)]
    | _ => none
  else some (.net l.bridge :: (l.nodes.filter (fun n => nodes.contains n)).map (fun n => .edge (name n) l.bridge))

/-- Clusters of selected groups (`netsim/outputs/graph.py:128-136`) -/
def gvGroupItems (groups : List (String × List String)) (selected : Option (List String)) : List GvItem :=
  match selected with
  | some s => gvClusters (fun _ => none) (gvGroups groups s).1
  | none => []

/-- AS clusters or nodes (`netsim/outputs/graph.py:137-141`).  Simplified: the check for AS clusters (`'bgp' in maps`) is assumed to fail when no node has an AS number. -/
def gvNodeItems (nodes : List GvNode) (bgp : Bool) (asList : List (Val × Option String)) (asClusters : Bool) : List GvItem :=
  let maps := if bgp then gvAs nodes else []
  if !maps.isEmpty && asClusters then gvClusters (gvAsName asList) maps else nodes.map (fun n => .node n.name)

/-- `netsim/outputs/graph.py:122-157` (`graph_topology`): drawn objects.  `groups` is the list of selected groups, `bgp` tells whether the topology uses BGP. -/
def gvTopology (nodes : List GvNode) (bgp : Bool) (asList : List (Val × Option String)) (groups : List (String × List String)) (selected : Option (List String)) (asClusters : Bool)
    (links : List GvLink) : Option (List GvItem) :=
  (links.mapM (gvLink (nodes.map (·.name)) id)).map (fun l => gvGroupItems groups selected ++ gvNodeItems nodes bgp asList asClusters ++ l.flatten)

/-- The name of a node in a D2 graph (`netsim/outputs/d2.py:130` and 195): the last cluster in which the node was drawn wins -/
def d2Name (maps : List (String × List String)) (n : String) : String :=
  match maps.reverse.find? (fun c => c.2.contains n) with
  | some c => c.1 ++ "." ++ n
  | none => n

/-- `netsim/outputs/d2.py:173-206` (`graph_topology`); the network name is computed by the caller (`netsim/outputs/d2.py:199`).  Nodes on links have to exist. -/
def d2Topology (nodes : List GvNode) (bgp : Bool) (asList : List (Val × Option String)) (groups : List (String × List String)) (selected : Option (List String)) (asClusters : Bool)
    (links : List GvLink) : Option (List GvItem) :=
  let maps := if bgp then gvAs nodes else []
  match selected with
  | some s => (links.mapM (gvLink (nodes.map (·.name)) (d2Name (gvGroups groups s).1))).map (fun l => gvClusters (fun _ => none) (gvGroups groups s).1 ++ l.flatten)
  | none =>
    if !maps.isEmpty && asClusters then (links.mapM (gvLink (nodes.map (·.name)) (d2Name maps))).map (fun l => gvClusters (gvAsName asList) maps ++ l.flatten)
    else (links.mapM (gvLink (nodes.map (·.name)) id)).map (fun l => nodes.map (fun n => .node n.name) ++ l.flatten)

/-- The direction of a BGP session (`netsim/outputs/graph.py:160-167`) -/
def gvDir (rrSession : Bool) (rr : Option Bool) (s : GvNeighbor) : String :=
  if rrSession then
    if s.ibgp then
      if rr.isNone && s.rr then "back"
      else if rr == some true && !s.rr then "forward"
      else "none"
    else "none"
  else "both"

/-- `netsim/outputs/graph.py:178-199` (`graph_bgp`) -/
def gvBgp (nodes : List GvNode) (asList : List (Val × Option String)) (rrSession : Bool) : List GvItem :=
  gvClusters (gvAsName asList) (gvAs nodes) ++
    nodes.flatMap (fun n => (n.neighbors.filter (fun s => decide (n.name < s.name))).map (fun s => .session n.name s.name (gvDir rrSession n.rr s)))

/-- The direction of a BGP session in a D2 graph (`netsim/outputs/d2.py:218-224`) -/
def d2Dir (rrSession : Bool) (rr : Option Bool) (s : GvNeighbor) : String :=
  if rrSession && s.ibgp then
    if rr.isNone && s.rr then "<-"
    else if rr == some true && !s.rr then "->"
    else "<->"
  else "<->"

/-- Are directions of route reflector sessions drawn (`netsim/outputs/d2.py:237-239`)?  The output format wins over the setting. -/
def d2RrSession (setting : Bool) (format : Option (List String)) : Bool :=
  match format with
  | some (_ :: x :: _) => x == "rr"
  | _ => setting

/-- `netsim/outputs/d2.py:230-251` (`graph_bgp`) -/
def d2Bgp (nodes : List GvNode) (asList : List (Val × Option String)) (setting : Bool) (format : Option (List String)) : List GvItem :=
  gvClusters (gvAsName asList) (gvAs nodes) ++
    nodes.flatMap (fun n => (n.neighbors.filter (fun s => decide (n.name < s.name))).map (fun s =>
      .session (d2Name (gvAs nodes) n.name) (d2Name (gvAs nodes) s.name) (d2Dir (d2RrSession setting format) n.rr s)))

end Netlab
