import Verif.Model.ReadTopo
import Verif.Spec.Box
/-!
# Specification vocabulary for reading the lab topology
-/

namespace Netlab.Spec

/-- The comparison of versions is a total preorder (there are different strings for the same version) -/
structure VersionOrder {V : Type} (lib : PyVersions V) : Prop where
  refl : ∀ a, lib.le a a = true
  trans : ∀ a b c, lib.le a b = true → lib.le b c = true → lib.le a c = true
  total : ∀ a b, lib.le a b = true ∨ lib.le b a = true

/-- A version without a comparison operator -/
def PlainVersion {V : Type} (lib : PyVersions V) (s : String) (v : V) : Prop := (∀ c ∈ s.toList, c ≠ '=' ∧ c ≠ '>' ∧ c ≠ '<') ∧ lib.parse s = some v

/-- No dictionary (at any depth) has an `_include` entry -/
def NoIncludes (v : Val) : Prop := ∀ p, Val.at v (p ++ ["_include"]) = none

/-- The pieces of a CLI setting -/
def IsSetting (s k v : String) : Prop := s.toList = k.toList ++ '=' :: v.toList ∧ '=' ∉ k.toList ∧ '=' ∉ v.toList

end Netlab.Spec
