import Verif.Model.RouteImport
import Mathlib.Data.List.Forall2

namespace Netlab.Spec

open Netlab

/-- The device can import routes into the protocol. -/
def ImportSupported (f : RiFeat) : Prop := f = .all ∨ ∃ l, f = .list l ∧ l ≠ []

/-- The device can import routes from the source. -/
def SourceSupported (f : RiFeat) (s : String) : Prop := f = .all ∨ ∃ l, f = .list l ∧ s ∈ l

/-- The device can import routes into the protocol in VRFs. -/
def VrfImportSupported (f : RiFeat) : Prop := f = .all ∨ ∃ l, f = .list l ∧ "vrf" ∈ l

/-- The routing policy is on the node, or there is a global policy the device can use. -/
def PolUsable (env : RiEnv) (pols : List String) (p : String) : Prop := p ∈ pols ∨ (p ∈ env.glob ∧ env.polOk p = true)

/-- An import of routes from the source is possible. -/
structure ImportOk (env : RiEnv) (pols : List String) (s : String) (v : RiVal) : Prop where
  source : s = "connected" ∨ s ∈ env.modules
  other : s ≠ env.proto
  policy : ∀ p a, v = .dict (some p) a → p ≠ "" → (∃ l, env.feat = .list l ∧ "no_policy" ∉ l) ∧ PolUsable env pols p

/-- The import requests are acceptable. -/
def ImportsOk (env : RiEnv) (pols : List String) (d : List (String × RiVal)) : Prop :=
  ImportSupported env.feat ∧ ∀ s v, d.lookup s = some v → SourceSupported env.feat s ∧ (v ≠ .no → ImportOk env pols s v)

/-- The name of the source protocol in device configuration. -/
def SourceName (s : String) : String := if s = "ripv2" then "rip" else s

/-- The final imports: all requested ones that are not disabled; `true` is an empty dictionary. -/
def Imported (d r : List (String × RiVal)) : Prop :=
  ∀ k v, r.lookup k = some v ↔
    ∃ s w, d.lookup s = some w ∧ w ≠ .no ∧ k = SourceName s ∧ v = (if w = .yes then .dict none false else w)

/-- Every policy used in the imports is on the node. -/
def PoliciesPresent (r : List (String × RiVal)) (pols : List String) : Prop :=
  ∀ k p a, r.lookup k = some (.dict (some p) a) → p ≠ "" → p ∈ pols

/-- The protocol runs in the VRF: it has data in the VRF, or it is BGP and the node has an AS number. -/
def RunsInVrf (env : RiEnv) (v : List (String × RiProto)) (s : String) : Prop :=
  s ∈ v.map (·.1) ∨ (s = "bgp" ∧ env.bgpAs = true)

/-- Routes of the source are imported into the VRF instance even though the user did not ask for it. -/
def AutoSource (env : RiEnv) (v : List (String × RiProto)) (s : String) : Prop :=
  s = "connected" ∨ s = "static" ∨ s = env.proto ∨ RunsInVrf env v s ∨ (env.proto = "bgp" ∧ s ∈ env.keys)

/-- The imports of a protocol in a VRF. -/
def VrfImports (v : List (String × RiProto)) (rp k : String) (x : RiVal) : Prop :=
  ∃ d, v.lookup rp = some (.data (some d)) ∧ d.lookup k = some x

/-- The VRF before and after the imports into its protocol instance are processed. -/
structure VrfProcessed (env : RiEnv) (srcs : List String) (v r : List (String × RiProto)) : Prop where
  others : ∀ p, p ≠ env.proto → r.lookup p = v.lookup p
  idle : ¬ RunsInVrf env v env.proto → r = v
  explicit : ∀ d, v.lookup env.proto = some (.data (some d)) → ∃ d', r.lookup env.proto = some (.data (some d')) ∧ Imported d d'
  auto : RunsInVrf env v env.proto → (∀ d, v.lookup env.proto ≠ some (.data (some d))) → VrfImportSupported env.feat →
    ∀ k x, VrfImports r env.proto k x ↔ ∃ s ∈ srcs, AutoSource env v s ∧ k = SourceName s ∧ x = .dict none true
  none : (∀ d, v.lookup env.proto ≠ some (.data (some d))) → ¬ VrfImportSupported env.feat → ∀ k x, ¬ VrfImports r env.proto k x

/-- The import requests of the VRF can be processed. -/
def VrfOk (env : RiEnv) (pols : List String) (v : List (String × RiProto)) : Prop :=
  RunsInVrf env v env.proto →
    (∀ b, v.lookup env.proto ≠ some (.flag b)) ∧
    ∀ d, v.lookup env.proto = some (.data (some d)) → VrfImportSupported env.feat ∧ ImportsOk env pols d

/-- A default route setting the device can use. -/
def DefaultOk (env : RiEnv) (pols : List String) (feat : RdFeat) (v : Option RdVal) : Prop :=
  v = none ∨ v = some .no ∨
  (feat ≠ .off ∧ ∀ e p, v = some (.dict e (some p)) → feat = .dict true ∧ (p ≠ "" → PolUsable env pols p))

/-- The final default route setting. -/
def DefaultFinal (v r : Option RdVal) : Prop :=
  ((v = none ∨ v = some .no) ∧ r = none) ∨ (v = some .yes ∧ r = some (.dict true none)) ∨ (∃ e p, v = some (.dict e p) ∧ r = v)

end Netlab.Spec
