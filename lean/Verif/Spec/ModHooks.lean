import Verif.Model.ModHooks
import Verif.Spec.Box
/-!
# Specification of module hooks
-/

namespace Netlab.Spec

/-- The position of the hook in a transformation stage: topology hooks, node hooks, link hooks -/
def hookRank : HookCall → Nat
  | .topo _ => 0
  | .node _ _ => 1
  | .link _ _ => 2

/-- Topology hooks are called in dependency order: never the hook of a module before the hook of a module it depends on -/
def TopoOrdered (dep : String → String → Prop) (calls : List HookCall) : Prop :=
  calls.Pairwise (fun x y => ∀ m r, x = .topo m → y = .topo r → ¬ dep m r)

/-- Hooks of a node are called in dependency order -/
def NodeOrdered (dep : String → String → Prop) (calls : List HookCall) : Prop :=
  calls.Pairwise (fun x y => ∀ n m r, x = .node n m → y = .node n r → ¬ dep m r)

/-- Hooks of a link are called in dependency order -/
def LinkOrdered (dep : String → String → Prop) (calls : List HookCall) : Prop :=
  calls.Pairwise (fun x y => ∀ i m r, x = .link i m → y = .link i r → ¬ dep m r)

/-- The module needs the other module -/
def Requires (params : String → Option ModDef) (m r : String) : Prop := ∃ d, params m = some d ∧ r ∈ d.requires

/-- The module needs the other module, or has to be processed after it -/
def Follows (params : String → Option ModDef) (m r : String) : Prop := ∃ d, params m = some d ∧ (r ∈ d.requires ∨ r ∈ d.after)

/-- Only the selected top-level settings -/
def Selected (keys : List String) (d : List (String × Val)) (p : List String) (w : Val) : Prop :=
  ∃ k r, p = k :: r ∧ k ∈ keys ∧ Val.leafAt (.dict d) p w

end Netlab.Spec
