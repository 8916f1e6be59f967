import Verif.Model.PrefixCheck

namespace Netlab.Spec

open Netlab

/-- `h` is the part of the text before the first slash. -/
def HostPart (v h : String) : Prop := '/' ∉ h.toList ∧ (v = h ∨ ∃ r : List Char, v.toList = h.toList ++ '/' :: r)

/-- The text `x` is somewhere in the text `y`. -/
def TextContains (x y : String) : Prop := ∃ a b : List Char, y.toList = a ++ x.toList ++ b

/-- A BGP path in an FRR table has all attributes requested by the user (communities are not considered). -/
structure FrMatches (a : VpArgs) (p : FrPath) : Prop where
  peer : ∀ v, a.peer = some v → p.peer = v
  nh : ∀ v, a.nh = some v → ∃ h ∈ p.nexthops, HostPart v h
  best : ∀ v, a.best = some v → p.best = some v
  cluster : ∀ v, a.clusterid = some v → ∃ l, p.cluster = some l ∧ v ∈ l
  asElements : ∀ v, a.asElements = some v → ∀ n ∈ v, ∃ s ∈ p.segments, n ∈ s
  aspath : ∀ v, a.aspath = some v → p.aspath = v
  locpref : ∀ v, a.locpref = some v → p.locpref = some v
  med : ∀ v, a.med = some v → p.med = some v

/-- A BGP path in an EOS table has all attributes requested by the user (communities are not considered). -/
structure EoMatches (a : VpArgs) (p : EoPath) : Prop where
  peer : ∀ v, a.peer = some v → p.peerAddr = v ∨ p.peerId = v
  nh : ∀ v, a.nh = some v → HostPart v p.nextHop
  best : ∀ v, a.best = some v → p.active = some v
  cluster : ∀ v, a.clusterid = some v → ∃ x, p.detail = some x ∧ TextContains v x.cluster
  asElements : ∀ v, a.asElements = some v → ∃ s, p.aspath = some s ∧ ∀ n ∈ v, (toString n).toList ∈ splitOnChar ' ' s.toList
  aspath : ∀ v, a.aspath = some v → p.aspath = some v
  locpref : ∀ v, a.locpref = some v → p.locpref = some v
  med : ∀ v, a.med = some v → p.med = some v

/-- The user wants no attributes. -/
def NoAttributes (a : VpArgs) : Prop :=
  a.peer = none ∧ a.nh = none ∧ a.best = none ∧ a.clusterid = none ∧ a.community = none ∧ a.asElements = none ∧ a.aspath = none ∧ a.locpref = none ∧
    a.med = none

/-- Number of attributes, without communities -/
def attributeCount (a : VpArgs) : Nat :=
  a.peer.toList.length + a.nh.toList.length + a.best.toList.length + a.clusterid.toList.length + a.asElements.toList.length + a.aspath.toList.length +
    a.locpref.toList.length + a.med.toList.length

/-- The attributes checked before communities -/
def EarlyAttributes (a : VpArgs) : VpArgs := { peer := a.peer, nh := a.nh, best := a.best, clusterid := a.clusterid }

/-- A community of a path on EOS: the value is an element of the list of communities of that kind in route details. -/
def EoCommunity (c : String × String) (p : EoPath) : Prop :=
  ∃ x l, p.detail = some x ∧ c.2 ∈ l ∧
    ((c.1 = "community" ∧ ("communityList", l) ∈ x.comms) ∨ (c.1 = "largeCommunity" ∧ ("largeCommunityList", l) ∈ x.comms))

end Netlab.Spec
