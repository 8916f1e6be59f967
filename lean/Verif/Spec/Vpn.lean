import Verif.Spec.Vrf
/-!
# Vocabulary for C126
-/

namespace Netlab.Spec
open Netlab

/-- The VPN a VRF of a node belongs to: node VRFs that have the name of a global VRF belong to the
global VRF, every other node VRF is a VPN of its own. -/
def vpnOf (t : VrfTopo) (p : VrfPos) : VrfPos := if isGlobalVrf t p.2 then (none, p.2) else p

/-- The VRF at position `q` accepts the routes of the VRF at position `p`: there is a route target
that `p` attaches to its routes and that is in the import list of `q`. -/
def Accepts (t : VrfTopo) (q p : VrfPos) : Prop :=
  ∃ b c r, vrfAt t q = some b ∧ vrfAt t p = some c ∧
    RtVal.str r ∈ b.imp.getD [] ∧ RtVal.str r ∈ c.exp.getD []

/-- The route targets the user wrote for the VRF at a position: those in the VRF definition, otherwise those in
the global VRF.  The result includes the place where they are written. -/
def writtenRt (sel : Vrf → Option (List RtVal)) (t : VrfTopo) (p : VrfPos) :
    Option (VrfPos × List RtVal) :=
  match (vrfDef t p).bind sel with
  | some l => some (p, l)
  | none => ((vrfDef t (vpnOf t p)).bind sel).map fun l => (vpnOf t p, l)

/-- The import route targets written by the user -/
def writtenImp : VrfTopo → VrfPos → Option (VrfPos × List RtVal) := writtenRt (·.imp)

/-- The export route targets written by the user -/
def writtenExp : VrfTopo → VrfPos → Option (VrfPos × List RtVal) := writtenRt (·.exp)

end Netlab.Spec
