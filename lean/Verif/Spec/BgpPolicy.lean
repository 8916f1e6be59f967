import Verif.Model.BgpPolicy
/-!
# Specification vocabulary for BGP policies of EBGP neighbors
-/

namespace Netlab.Spec

/-- EBGP neighbor on the interface -/
def OnInterface (i : BpIntf) (g : BpNgb) : Prop := g.type = "ebgp" ∧ g.vrf = i.vrf ∧ g.ifindex = some i.ifindex

/-- A value that counts: not zero and not empty -/
def Counts (v : BpVal) : Prop := v ≠ .zero ∧ v ≠ .bidir {}

/-- The value of an attribute used for the neighbors on an interface: the value on the interface (a single bandwidth is used in
the incoming direction), or the node-level local preference unless the device can set it for all routes. -/
def UsedValue (p : BpPar) (i : BpIntf) (a : String) (v : BpVal) : Prop :=
  Counts v ∧
  ((i.attrs.lookup a = some v ∧ ¬ (a = "bandwidth" ∧ ∃ s, v = .val s)) ∨
   (a = "bandwidth" ∧ ∃ s, i.attrs.lookup a = some (.val s) ∧ v = .bidir { inp := some s }) ∨
   (a = "locpref" ∧ p.defaultLocpref = false ∧ p.locpref = some v ∧ ∀ w, i.attrs.lookup a = some w → ¬ Counts w))

/-- The part of a value used in a direction, for attributes that are part of route maps -/
def RouteMapValue (p : BpPar) (i : BpIntf) (d : Bool) (a : String) (w : BpVal) : Prop :=
  ∃ c v, p.compound.lookup a = some c ∧ UsedValue p i a v ∧
    ((c = .one d ∧ w = v) ∨ (c = .both ∧ ∃ x s, v = .bidir x ∧ x.get d = some s ∧ w = .val s))

/-- A BGP policy attribute -/
def PolicyAttr (p : BpPar) (a : String) : Prop := a ∈ p.direct ∨ ∃ c, (a, c) ∈ p.compound

/-- Attributes and policies of a neighbor on interface `i`; `pols` are the route maps of the node. -/
def PolicyOf (p : BpPar) (i : BpIntf) (g g' : BpNgb) (pols : List (String × List (String × BpVal))) : Prop :=
  g'.name = g.name ∧ g'.type = g.type ∧ g'.vrf = g.vrf ∧ g'.ifindex = g.ifindex ∧
  (∀ a, PolicyAttr p a → ∀ v, g'.attrs.lookup a = some v ↔ UsedValue p i a v) ∧
  (∀ a, ¬ PolicyAttr p a → g'.attrs.lookup a = g.attrs.lookup a) ∧
  ∀ d, (∀ n, i.policy.get d = some n → g'.policy.get d = some n) ∧
    ((∃ a w, RouteMapValue p i d a w) → i.policy.get d = none ∧ ∃ name s, g'.policy.get d = some name ∧
      pols.lookup name = some s ∧ ∀ a w, s.lookup a = some w ↔ RouteMapValue p i d a w) ∧
    (i.policy.get d = none → (¬ ∃ a w, RouteMapValue p i d a w) → g'.policy.get d = none)

/-- The neighbor without BGP policies and policy attributes -/
def WithoutPolicy (p : BpPar) (g g' : BpNgb) : Prop :=
  g'.name = g.name ∧ g'.type = g.type ∧ g'.vrf = g.vrf ∧ g'.ifindex = g.ifindex ∧ g'.policy = {} ∧
  (∀ a, PolicyAttr p a → g'.attrs.lookup a = none) ∧ ∀ a, ¬ PolicyAttr p a → g'.attrs.lookup a = g.attrs.lookup a

/-- What the device and the routing policies must support for neighbors on the interface -/
def PolicySupported (p : BpPar) (i : BpIntf) : Prop :=
  (∀ a v, PolicyAttr p a → UsedValue p i a v → p.supp a = true ∧ (p.compound.lookup a ≠ none → p.dirOk a v = true)) ∧
  ∀ d n, i.policy.get d = some n → p.polOk n = true ∧ ¬ ∃ a w, RouteMapValue p i d a w

end Netlab.Spec
