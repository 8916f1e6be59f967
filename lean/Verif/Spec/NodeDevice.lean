import Verif.Model.NodeDevice
import Mathlib.Data.List.Forall2
/-!
# Specification of node devices, providers and images
-/

namespace Netlab.Spec

/-- Device of a node: its own or the default one -/
def askedDevice (env : NdEnv) (n : List (String × Val)) : Val := (n.lookup "device").getD env.defdev

/-- The node uses device `d` with these settings. -/
def KnownDevice (env : NdEnv) (n : List (String × Val)) (d : String) (dev : List (String × Val)) : Prop :=
  askedDevice env n = .str d ∧ d ≠ "" ∧ env.devs.lookup d = some (.dict dev)

/-- A provider specified in a node is the topology provider, or a known provider that can be used together with it. -/
def GoodProvider (env : NdEnv) (n : List (String × Val)) : Prop :=
  ∀ v, n.lookup "provider" = some v → v = .str env.top ∨
    ∃ p, v = .str p ∧ (∃ x, env.provs.lookup p = some x) ∧ ∃ x y, env.provs.lookup env.top = some (.dict x) ∧ x.lookup p = some y

/-- The provider of the node: the provider requested by the device, otherwise the provider requested by the node; the attribute is missing when it is the
topology provider. -/
inductive FinalProvider (env : NdEnv) (dev n : List (String × Val)) : Option Val → Prop
  | device (v : Val) : dev.lookup "provider" = some v → v ≠ .str env.top → FinalProvider env dev n (some v)
  | node (v : Val) : (∀ w, dev.lookup "provider" = some w → w = .str env.top) → n.lookup "provider" = some v → v ≠ .str env.top →
      FinalProvider env dev n (some v)
  | topology : (∀ w, dev.lookup "provider" = some w → w = .str env.top) → (∀ v, n.lookup "provider" = some v → v = .str env.top) →
      FinalProvider env dev n none

/-- Image of the node: the box of the node, the image of the node, of the device, of the device used with the provider -/
def imageOf (dev pdata n : List (String × Val)) : Option Val :=
  if ((n.lookup "box").getD .null).truthy then n.lookup "box"
  else (n.lookup "image").or ((dev.lookup "image").or (pdata.lookup "image"))

/-- Modules of the node: its own, or the default ones of the device -/
def modulesOf (dev n : List (String × Val)) : Option Val :=
  (n.lookup "module").or ((ndPath dev "node" "module").filter Val.truthy)

/-- Names changed by this step are not used as provider names. -/
def ProviderNames (env : NdEnv) : Prop :=
  ∀ p ∈ ["device", "provider", "module", "box", "image"], p ≠ env.top ∧ env.provs.lookup p = none ∧
    ∀ d dev, env.devs.lookup d = some (.dict dev) → dev.lookup "provider" ≠ some (.str p)

/-- A node was completed with the settings of its device. -/
structure NodeCompleted (env : NdEnv) (n m : List (String × Val)) (d p : String) (dev pdata : List (String × Val)) : Prop where
  known : KnownDevice env n d dev
  device : m.lookup "device" = some (.str d)
  finalProv : FinalProvider env dev n (m.lookup "provider")
  provider : (m.lookup "provider").getD (.str env.top) = .str p
  provData : dev.lookup p = none ∧ pdata = [] ∨ dev.lookup p = some (.dict pdata)
  image : ∃ i, imageOf dev pdata n = some i ∧ m.lookup "box" = some i
  modules : m.lookup "module" = modulesOf dev n
  settings : (pdata.lookup "node" = none ∧ m.lookup p = n.lookup p) ∨
    ∃ x y, pdata.lookup "node" = some (.dict x) ∧ (n.lookup p = none ∧ y = [] ∨ n.lookup p = some (.dict y)) ∧ m.lookup p = some (.dict (mergeDict x y))
  rest : ∀ k, k ∉ ["device", "provider", "module", "box", "image", p] → m.lookup k = n.lookup k

/-- Reasons to reject a node -/
inductive NodeRejected (env : NdEnv) (n : List (String × Val)) : Prop
  | provider : ¬ GoodProvider env n → NodeRejected env n
  | device : (¬ ∃ d v, askedDevice env n = .str d ∧ d ≠ "" ∧ env.devs.lookup d = some v) → NodeRejected env n
  | image (d p : String) (dev pdata : List (String × Val)) (v : Option Val) : KnownDevice env n d dev → FinalProvider env dev n v →
      v.getD (.str env.top) = .str p → (dev.lookup p = none ∧ pdata = [] ∨ dev.lookup p = some (.dict pdata)) →
      ((n.lookup "box").getD .null).truthy = false → n.lookup "image" = none → (∀ i, (dev.lookup "image").or (pdata.lookup "image") ≠ some (.str i)) →
      NodeRejected env n

end Netlab.Spec
