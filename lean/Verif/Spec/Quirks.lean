import Verif.Model.Quirks
/-!
# Specification of device quirks
-/

namespace Netlab.Spec

/-- A Junos interface name consists of the physical interface name and the unit: `parent.unit` (there may be nothing but further dot-separated parts after the unit). -/
def JunosParts (name parent unit : String) : Prop :=
  '.' ∉ parent.toList ∧ '.' ∉ unit.toList ∧ ∃ rest : List Char, name.toList = parent.toList ++ '.' :: unit.toList ++ rest ∧ (rest = [] ∨ rest.head? = some '.')

/-- The Junos name of an interface: unit 0 is added to interface names without a unit. -/
def junosName (s : String) : String := if '.' ∈ s.toList then s else s ++ ".0"

/-- The interface is a physical interface (or unit 0) of something that carries VLANs: the VLAN module is used on the device, and there is an interface with VLAN data sharing the parent interface. -/
def CarriesVlans (vlanMod : Bool) (all : List JunosIntf) (i : JunosIntf) : Prop :=
  vlanMod = true ∧ i.unit = "0" ∧ ∃ j ∈ all, j.vlan.isSome = true ∧ j.parent = i.parent

/-- The interface needs flexible VLAN tagging. -/
def FlexTagging (model : String) (i : JunosIntf) : Prop :=
  model = "router" ∨ (model = "l3-switch" ∧ (i.vlan = none ∨ i.vlan = some (some "route")))

/-- The number of loopback interfaces in a VRF (the main loopback is in the default VRF) -/
def loopbacksIn (loopback : Bool) (intfs : List (String × Option String)) (vrf : String) : Nat :=
  (if loopback = true ∧ vrf = "default" then 1 else 0) + (intfs.filter (fun i => i.1 == "loopback" && i.2.getD "default" == vrf)).length

/-- The first location that has the collection has this version of it. -/
def FirstVersion (locations : List (List (String × String))) (c v : String) : Prop :=
  ∃ pre loc post, locations = pre ++ loc :: post ∧ loc.lookup c = some v ∧ ∀ l ∈ pre, c ∉ l.map Prod.fst

/-- Interfaces in the peer group are on two nodes: all of those on the first one have the first role, all of those on the second one have the second role. -/
def PairRoles (g : Int) (a b : String) (ra rb : Option String) (nodes : List AcxNode) : Prop :=
  ∀ n ∈ nodes, ∀ i ∈ n.intfs, i.group = some g → n.aruba = true ∧ ((n.name = a ∧ i.role = ra) ∨ (n.name = b ∧ i.role = rb))

/-- A node with the specified name has an interface in the peer group. -/
def HasPeerLink (g : Int) (a : String) (nodes : List AcxNode) : Prop :=
  ∃ n ∈ nodes, n.name = a ∧ ∃ i ∈ n.intfs, i.group = some g

end Netlab.Spec
