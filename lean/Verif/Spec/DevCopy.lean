import Verif.Spec.Box
/-!
# Specification of requests to copy features between devices
-/

namespace Netlab.Spec

/-- The dictionary has a request to copy or merge data from another device. -/
def HasFeatReq (d : List (String × Val)) : Prop := (∃ v, d.lookup "merge" = some v) ∨ ∃ v, d.lookup "copy" = some v

/-- There's a request at this path, and it is not a part of another request. -/
def FeatReq (devices : List (String × Val)) (p : List String) (d : List (String × Val)) : Prop :=
  Val.at (.dict devices) p = some (.dict d) ∧ p ≠ [] ∧ HasFeatReq d ∧
    ∀ q e, q <+: p → q ≠ p → q ≠ [] → Val.at (.dict devices) q = some (.dict e) → ¬ HasFeatReq e

/-- Merge the data of this device -/
def MergeFrom (d : List (String × Val)) (s : String) : Prop := d.lookup "merge" = some (.str s) ∧ s ≠ ""

/-- Copy the data of this device -/
def CopyFrom (d : List (String × Val)) (s : String) : Prop := d.lookup "merge" = none ∧ d.lookup "copy" = some (.str s)

/-- The path in the data of the other device -/
def sameIn (s : String) (p : List String) : List String := s :: p.tail

/-- The path is not a part of a request and there are no requests in the value at that path. -/
def NoFeatReq (devices : List (String × Val)) (q : List String) : Prop :=
  ∀ p d, FeatReq devices p d → ¬ p <+: q ∧ ¬ q <+: p

/-- The request is valid: it names another device that has data at the same path (a dictionary, if they have to be merged), and those
data don't depend on other requests. -/
def ValidFeatReq (devices : List (String × Val)) (p : List String) (d : List (String × Val)) : Prop :=
  ∃ s, NoFeatReq devices (sameIn s p) ∧
    ((MergeFrom d s ∧ ∃ a, Val.at (.dict devices) (sameIn s p) = some (.dict a)) ∨
     (CopyFrom d s ∧ ∃ v, Val.at (.dict devices) (sameIn s p) = some v))

end Netlab.Spec
