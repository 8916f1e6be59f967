import Verif.Model.Vlan
/-!
# Vocabulary for C20
-/

namespace Netlab.Spec
open Netlab

/-- Where a VLAN definition is: `(none, v)` is the global VLAN `v`, `(some n, v)` is the VLAN
`v` of node `n`. -/
abbrev VlanPos := Option String × String

/-- The VLAN definition found at a position -/
def vlanAt (t : VlanTopo) : VlanPos → Option Vlan
  | (none, v) => t.vlans.lookup v
  | (some n, v) => (t.nodes.lookup n).bind (·.lookup v)

/-- The definition that decides about the identifiers: the global VLAN when there is one with
this name, otherwise the definition itself. -/
def vlanOwner (t : VlanTopo) (p : VlanPos) : VlanPos :=
  if (t.vlans.lookup p.2).isSome then (none, p.2) else p

/-- The VNI of a VLAN (a number), if it has one -/
def vniNum (v : Vlan) : Option Int :=
  match v.vni with
  | .num n => some n
  | _ => none

end Netlab.Spec
