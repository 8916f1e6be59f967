import Verif.Spec.Vrf
/-!
# Vocabulary for C119 (VRFs)
-/

namespace Netlab.Spec
open Netlab

/-- The route distinguisher built from an AS number and a number -/
def numberedRd (asn n : Int) : String := toString asn ++ ":" ++ toString n

/-- The route distinguisher a user specified for a VRF: a string, or a number prefixed with the AS number -/
def staticRd (asn : Option Int) (v : Vrf) : Option String :=
  match v.rd with
  | .str s => some s
  | .num m => asn.map (numberedRd · m)
  | _ => none

/-- The number `n` is used by the VRF: as its identifier, or in its route distinguisher -/
def UsesNumber (asn n : Int) (v : Vrf) : Prop := v.id = some n ∨ v.rd = .str (numberedRd asn n)

/-- A user-defined VRF does not use the identifier `n` or the route distinguisher `asn:n` (`own` is the AS number used for the VRF). -/
def LeavesNumber (own : Option Int) (asn n : Int) (v : Vrf) : Prop := v.id ≠ some n ∧ staticRd own v ≠ some (numberedRd asn n)

/-- Added global VRFs and VRFs of added nodes don't specify numbers used by VRFs of the existing lab: `t` is the lab, `out` is its transformed topology. -/
def NewNumbers (t out : VrfTopo) (more : VrfDict) (moreNodes : List (String × VrfNode)) : Prop :=
  ∀ (p : VrfPos) v a n, vrfAt out p = some v → vrfAsn t p = some a → UsesNumber a n v →
    (∀ w ∈ more, LeavesNumber (vrfAsn t (none, w.1)) a n w.2) ∧
    (∀ x ∈ moreNodes, ∀ w ∈ x.2.vrfs, LeavesNumber (vrfAsn { t with nodes := [x] } (some x.1, w.1)) a n w.2)

end Netlab.Spec
