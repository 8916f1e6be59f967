import Verif.Model.BgpAf
/-!
# Specification vocabulary for BGP address families, advertised prefixes and communities
-/

namespace Netlab.Spec

/-- Only hosts that are not routing daemons are attached to the link. -/
def OnlyHosts (peer : String → AfPeer) (l : AfIntf) : Prop :=
  ∀ n ∈ l.neighbors, (peer n).role = "host" ∧ (peer n).daemon = false

/-- The type or the role of the interface is one of the advertised roles. -/
def AdvertisedRole (roles : List String) (l : AfIntf) : Prop :=
  ∃ r ∈ roles, l.type = some r ∨ l.role = some r

/-- The prefix of an interface has to be advertised in BGP: BGP is not disabled on the interface and it has the advertise
flag; or it has no such flag and either it has an advertised role (stub links: only when hosts are the only neighbors)
or it is a loopback and loopbacks are advertised. -/
def Advertised (roles : List String) (peer : String → AfPeer) (adLo : Option Bool) (l : AfIntf) : Prop :=
  l.off = false ∧
  (l.advertise = some true ∨
   (l.advertise = none ∧
    ((AdvertisedRole roles l ∧ (l.role = some "stub" → OnlyHosts peer l)) ∨
     (¬ AdvertisedRole roles l ∧ l.type = some "loopback" ∧ adLo = some true))))

/-- The session type is active for an address family: it is listed in the activation list; without activation lists, all
sessions are active. -/
def ActiveType (a : Option Activate) (sel : Activate → Option (List SType)) (t : SType) : Prop :=
  (a = none ∨ a = some ⟨none, none⟩) ∨ ∃ x l, a = some x ∧ sel x = some l ∧ t ∈ l

/-- `w` is one of the words the device uses for a community keyword. -/
def Translates (t : List (String × KwVal)) (k w : String) : Prop :=
  t.lookup k = some .same ∧ w = k ∨ t.lookup k = some (.word w) ∨ ∃ l, t.lookup k = some (.words l) ∧ w ∈ l

/-- Keywords configured for sessions of a type: IBGP communities also apply to IBGP sessions built with local AS. -/
def CommConfigured : CommSpec → SType → List String → Prop
  | .one k, _, l => l = [k]
  | .list c, _, l => l = c
  | .dict _ e, .ebgp, l => e = some l
  | .dict i _, _, l => i = some l

/-- Communities propagated over sessions of a type -/
def commOf (c : CommList) : SType → Option (List String)
  | .ibgp => c.ibgp
  | .ebgp => c.ebgp
  | .localasIbgp => c.localas

end Netlab.Spec
