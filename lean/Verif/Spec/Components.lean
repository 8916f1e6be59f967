import Verif.Model.Components
import Mathlib.Data.List.Forall2

namespace Netlab.Spec

open Netlab

/-- The instance `p` of the component `cp` is within the instance `n` of the component `c`. -/
inductive Within {α : Type} (comps : List (String × Comp α)) : String → String → String → String → Prop
  | same (n c : String) : Within comps n c n c
  | nested (n c m c' p cp : String) (comp : Comp α) (d : CNode α) (hc : comps.lookup c = some comp)
      (hm : (m, d) ∈ comp.nodes) (hi : d.incl = some c') (h : Within comps (n ++ "_" ++ m) c' p cp) :
      Within comps n c p cp

/-- `p` is an instance of the component `c` in the topology. -/
def Instance {α : Type} (t : CTopo α) (p c : String) : Prop :=
  ∃ n d c₀, (n, d) ∈ t.nodes ∧ d.incl = some c₀ ∧ Within t.comps n c₀ p c

/-- The link of a component, as it appears in an instance of the component (link indices do not matter). -/
def LinkCopy {α : Type} (p : String) (l l' : CLink α) : Prop :=
  l'.name = p ++ "_" ++ l.name ∧ l'.data = l.data ∧ l'.ends = l.ends.map (fun e => (p ++ "_" ++ e.1, e.2))

/-- The links are links of the listed instances (instance name, component), every link of every instance once. -/
inductive LinksOf {α : Type} (comps : List (String × Comp α)) : List (String × String) → List (CLink α) → Prop
  | nil : LinksOf comps [] []
  | cons (p c : String) (comp : Comp α) (is : List (String × String)) (new rest : List (CLink α))
      (hc : comps.lookup c = some comp) (hf : List.Forall₂ (LinkCopy p) comp.links new) (h : LinksOf comps is rest) :
      LinksOf comps ((p, c) :: is) (new ++ rest)

/-- Components are not recursive: there is a ranking in which a component includes only lower-ranked components. -/
def NotRecursive {α : Type} (comps : List (String × Comp α)) (rank : String → Nat) : Prop :=
  ∀ c comp m d c', comps.lookup c = some comp → (m, d) ∈ comp.nodes → d.incl = some c' → rank c' < rank c

end Netlab.Spec
