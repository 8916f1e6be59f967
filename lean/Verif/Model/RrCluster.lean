/-!
# Route reflector clusters (`netsim/modules/bgp.py`)
-/

namespace Netlab

/-- BGP data of a node used in `build_bgp_rr_clusters` (`netsim/modules/bgp.py:370-395`).  `asn = none`: the node does
not run BGP. -/
structure RrNode where
  name : String
  asn : Option Int := none
  rr : Bool := false
  routerId : String := ""
  clusterId : Option String := none
  deriving Repr, DecidableEq

/-- `find_bgp_rr` (`netsim/modules/bgp.py:85-88`) as a condition on a node -/
def RrNode.isRrIn (n : RrNode) (a : Int) : Bool := n.asn = some a && n.rr

/-- `min` of a list of strings (`netsim/modules/bgp.py:388`) -/
def minString : List String → Option String
  | [] => none
  | s :: r => some (r.foldl (fun a b => if b < a then b else a) s)

/-- Cluster IDs in one AS (`netsim/modules/bgp.py:374-395`) -/
def rrClusterAs (topo : List RrNode) (a : Int) : List RrNode :=
  let cand := (topo.filter (fun n => n.isRrIn a && n.clusterId.isNone)).map (·.routerId)
  topo.map (fun n =>
    if n.isRrIn a && n.clusterId.isNone then
      { n with clusterId := some (match minString cand with
        | some m => if m = "" then n.routerId else m
        | none => n.routerId) }
    else n)

/-- `netsim/modules/bgp.py:370-395` (`build_bgp_rr_clusters`); `asns` is the iteration order of the set of AS numbers. -/
def buildRrClusters (asns : List Int) (topo : List RrNode) : List RrNode :=
  asns.foldl rrClusterAs topo

end Netlab
