import Verif.Model.Validators
import Verif.Spec.PrefixCheck
import Mathlib.Data.List.Forall2

namespace Netlab.Spec

open Netlab

/-- `x` is the first element of the list with the property. -/
def FirstSuch {α : Type} (P : α → Prop) (l : List α) (x : α) : Prop := ∃ a b, l = a ++ x :: b ∧ P x ∧ ∀ y ∈ a, ¬ P y

/-- `a` is the address of the neighbor in an address family: the address in the first list item with the name of the neighbor that has such an address. -/
def NgbAddress (ngb : List VnNgb) (n af : String) (a : VnNgbAddr) : Prop :=
  ∃ x, FirstSuch (fun y => y.name = n ∧ ∃ b, y.addrs.lookup af = some b) ngb x ∧ x.addrs.lookup af = some a

/-- States of a BGP session -/
def BgpStates : List String := ["Idle", "Connect", "Active", "OpenSent", "OpenConfirm", "Established"]

/-- How FRR identifies a peer: the address or the interface of an unnumbered session -/
def FrPeer (intf : String) (a : VnNgbAddr) (key : String) : Prop := a = .text key ∨ (a = .unnumbered ∧ intf = key ∧ intf ≠ "")

/-- Names of address families in FRR printouts -/
def FrFamily (af name : String) : Prop :=
  (af = "ipv4" ∧ name = "ipv4Unicast") ∨ (af = "ipv6" ∧ name = "ipv6Unicast") ∨ (af = "evpn" ∧ name = "evpn")

/-- The peers of the router, and the key of the neighbor, in an FRR printout -/
def FrSession (ngb : List VnNgb) (n af activate intf : String) (result : List (String × List (String × String))) (key : String)
    (peers : List (String × String)) : Prop :=
  (∃ a, NgbAddress ngb n af a ∧ FrPeer intf a key) ∧
    ∃ name, ((activate = "" ∧ FrFamily af name) ∨ (activate ≠ "" ∧ FrFamily activate name)) ∧ result.lookup name = some peers

/-- The peers in a VRF in an EOS printout -/
def EoVrfPeers (vrf : String) (result : Option (List (String × Option (List (String × String))))) (peers : List (String × String)) : Prop :=
  ∃ vrfs, result = some vrfs ∧ vrfs.lookup vrf = some (some peers)

/-- The state of a neighbor in an EOS printout; unnumbered neighbors are never there. -/
def EoState (peers : List (String × String)) (a : VnNgbAddr) (s : String) : Prop := ∃ t, a = .text t ∧ peers.lookup t = some s

/-- The text starts with `p`. -/
def BeginsWith (p s : String) : Prop := ∃ r : List Char, s.toList = p.toList ++ r

/-- A key in the OSPFv3 printout describes an adjacency with a router: its router ID, optionally followed by `%` and the interface name. -/
def KeyOf (id k : String) : Prop := '%' ∉ id.toList ∧ (k = id ∨ ∃ r : List Char, k.toList = id.toList ++ '%' :: r)

/-- The adjacencies in a VRF in an EOS printout -/
def EoAdjacencies (vrf : String) (result : List (String × List (String × List (String × String)))) : List (String × String) :=
  match result.lookup vrf with
  | none => []
  | some inst => (inst.map (·.2)).flatten

/-- An FRR OSPF route has the attributes requested by the user. -/
structure OspfMatches (cost : Option Int) (rt : Option String) (p : FrOspfRoute) : Prop where
  cost : ∀ v, cost = some v → (TextContains "E2" p.routeType ∧ p.type2cost = some v) ∨ (¬ TextContains "E2" p.routeType ∧ p.cost = some v)
  rt : ∀ v, rt = some v → p.routeType = v

/-- An FRR OSPFv3 route has the attributes requested by the user. -/
structure Ospf6Matches (cost : Option Int) (rt : Option String) (p : FrOspf6Route) : Prop where
  cost : ∀ v, cost = some v → (p.pathType = "External-2" ∧ p.metricCostE2 = some v) ∨ (p.pathType ≠ "External-2" ∧ p.metricCost = some v)
  rt : ∀ v, rt = some v → p.pathType = v

/-- All circuits in the printout -/
def AllCircuits (areas : Option (List (Option (List IsCircuit)))) : List IsCircuit := ((areas.getD []).map (·.getD [])).flatten

/-- A circuit has the expected state, level and area; an empty text means any value. -/
structure CircuitOk (state level area : String) (c : IsCircuit) : Prop where
  state : state ≠ "" → c.state = state
  level : level ≠ "" → c.level = some level
  area : area ≠ "" → c.area = some area

/-- All prefixes of an address family and level in the printout -/
def AllPrefixes (level af : String) (areas : List (List (String × List (String × List IsPrefix)))) : List IsPrefix :=
  (areas.map (fun a => (((a.lookup ("level-" ++ level)).getD []).lookup af).getD [])).flatten

/-- The attribute of a prefix, with either spelling of its name -/
def PrefixIs (p : IsPrefix) (x : String) : Prop := p.prefix' = some x ∨ (p.prefix' = none ∧ p.capPrefix = some x)

/-- The metric of a prefix, with either spelling of its name -/
def MetricIs (p : IsPrefix) (x : Int) : Prop := p.metric = some x ∨ (p.metric = none ∧ p.capMetric = some x)

/-- A dot in the pattern matches any character, everything else matches itself. -/
def PatternMatches (p t : List Char) : Prop := List.Forall₂ (fun c d => c = '.' ∨ c = d) p t

/-- The pattern matches some part of the text. -/
def PatternIn (p l : String) : Prop := ∃ a t b : List Char, l.toList = a ++ t ++ b ∧ PatternMatches p.toList t

end Netlab.Spec
