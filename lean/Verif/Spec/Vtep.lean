import Verif.Model.Vtep
/-!
# VXLAN peers
-/

namespace Netlab.Spec

/-- The VTEP address of a node: the address of the first loopback interface marked as VTEP, or of the
main loopback interface -/
def IsVtep (useV6 : Bool) (n : VxNode) (a : String) : Prop :=
  ∃ i : VxIntf, ((∃ pre post, n.intfs = pre ++ i :: post ∧ i.isLoopback = true ∧ i.vtep = true ∧
        ∀ j ∈ pre, ¬ (j.isLoopback = true ∧ j.vtep = true)) ∨
      (i = n.loopback ∧ ∀ j ∈ n.intfs, ¬ (j.isLoopback = true ∧ j.vtep = true))) ∧
    if useV6 then n.vtep6 = true ∧ i.ipv6 = some a else i.ipv4 = some a

/-- The node uses the VNI in one of its VLANs -/
def UsesVni (n : VxNode) (x : VlanVni) : Prop :=
  ∃ l, n.vlans = some l ∧ ∃ v ∈ l, v.vni = some x

/-- The node has the VXLAN module, an interface, and a VLAN or a VRF needing VXLAN -/
def VxlanActive (n : VxNode) : Prop :=
  n.enabled = true ∧ n.intfs ≠ [] ∧ (n.l3vnis = true ∨ ∃ k, k ≠ 0 ∧ UsesVni n (.num k))

/-- The remote VTEPs node `me` (with VTEP address `mine`) has to use for a VNI -/
def RemoteVtep (useV6 : Bool) (nodes : List VxNode) (me : VxNode) (mine : String) (x : VlanVni)
    (a : String) : Prop :=
  ∃ n ∈ nodes, n.name ≠ me.name ∧ n.domain = me.domain ∧ VxlanActive n ∧ IsVtep useV6 n a ∧
    a ≠ mine ∧ UsesVni n x

end Netlab.Spec
