import Verif.Model.Graph
/-!
# Specification of graphs
-/

namespace Netlab.Spec

/-- A node is drawn in a cluster. -/
def InCluster (m : List (String × List String)) (c n : String) : Prop := ∃ l, m.lookup c = some l ∧ n ∈ l

/-- The first selected group (in the order of groups in the topology) with the specified member -/
def FirstGroup (groups : List (String × List String)) (selected : List String) (n c : String) : Prop :=
  ∃ pre ms post, groups = pre ++ (c, ms) :: post ∧ c ∈ selected ∧ n ∈ ms ∧ ∀ g ∈ pre, g.1 ∈ selected → n ∉ g.2

/-- Nodes drawn outside of clusters -/
def drawnNodes (items : List GvItem) : List String := items.filterMap (fun i => match i with | .node n => some n | _ => none)

/-- Clusters -/
def drawnClusters (items : List GvItem) : List (String × List String) := items.filterMap (fun i => match i with | .cluster c _ l => some (c, l) | _ => none)

/-- Connections -/
def drawnEdges (items : List GvItem) : List (String × String) := items.filterMap (fun i => match i with | .edge a b => some (a, b) | _ => none)

/-- Networks -/
def drawnNets (items : List GvItem) : List String := items.filterMap (fun i => match i with | .net n => some n | _ => none)

/-- Connections of a link: a single one between two nodes on a point-to-point link, one connection between every node and the network on any other link -/
def linkEdges (name : String → String) (l : GvLink) : List (String × String) :=
  if l.p2p = true then (match l.nodes with | a :: b :: _ => [(name a, name b)] | _ => []) else l.nodes.map (fun n => (name n, l.bridge))

/-- Clusters of selected groups -/
def groupClusters (groups : List (String × List String)) (selected : Option (List String)) : List (String × List String) :=
  match selected with
  | some s => (gvGroups groups s).1
  | none => []

end Netlab.Spec
