import Verif.Model.Vrf
/-!
# Vocabulary for C21
-/

namespace Netlab.Spec
open Netlab

/-- Where a VRF definition is: `(none, v)` is the global VRF `v`, `(some n, v)` is the VRF
`v` of node `n`. -/
abbrev VrfPos := Option String × String

/-- The VRF definition found at a position -/
def vrfAt (t : VrfTopo) : VrfPos → Option Vrf
  | (none, v) => t.vrfs.bind (·.lookup v)
  | (some n, v) => (t.nodes.lookup n).bind (·.vrfs.lookup v)

/-- The VRF definition found at a position in the user topology: a VRF that is only mentioned in
a VLAN of the node counts as an empty definition. -/
def vrfDef (t : VrfTopo) : VrfPos → Option Vrf
  | (none, v) => t.vrfs.bind (·.lookup v)
  | (some n, v) => (t.nodes.lookup n).bind fun nd =>
      (nd.vrfs.lookup v).or (if v ∈ nd.vlanVrfs then some {} else none)

/-- Is there a global VRF with this name? -/
def isGlobalVrf (t : VrfTopo) (v : String) : Bool := (t.vrfs.bind (·.lookup v)).isSome

/-- The definition is a global VRF or the VRF is not defined globally (it is not a node copy of
a global VRF). -/
def OwnVrf (t : VrfTopo) (p : VrfPos) : Prop := p.1 = none ∨ isGlobalVrf t p.2 = false

/-- The RD of a VRF (a string), if it has one -/
def rdStr (v : Vrf) : Option String :=
  match v.rd with
  | .str s => some s
  | _ => none

/-- The AS number used at a position: the first nonzero number among `bgp.as` and `vrf.as`
of the node and `bgp.as` and `vrf.as` of the topology -/
def vrfAsn (t : VrfTopo) (p : VrfPos) : Option Int :=
  let node := match p.1.bind (t.nodes.lookup ·) with
    | some nd => [nd.bgpAs, nd.vrfAs]
    | none => []
  (node ++ [t.bgpAs, t.vrfAs]).findSome? fun x => if x = some 0 then none else x

/-- `s` is the meaning of the route target `rt` written in the VRF at position `p`: a number is
prefixed with the AS number, a value with a colon stands for itself, anything else is the name of a VRF
(the global VRF is preferred to the VRF of the same node) and means the RD of that VRF. -/
def RtMeans (t : VrfTopo) (p : VrfPos) (rt out : RtVal) : Prop :=
  match rt with
  | .null => False
  | .num n => ∃ a, vrfAsn t p = some a ∧ out = .str (toString a ++ ":" ++ toString n)
  | .str x =>
    if ':' ∈ x.toList then out = .str x
    else ∃ v r, (vrfAt t (none, x)).or (vrfAt t (p.1, x)) = some v ∧ v.rd = .str r ∧ out = .str r

end Netlab.Spec
