import Verif.Model.Vlan
import Verif.Model.TransitVni
/-!
# Transit VNIs of VRFs and VNIs of VLANs

`register_static_transit_vni` (`netsim/modules/evpn.py`) combined with the models of VLAN VNIs and transit VNIs.

Simplifications: those of the two models; EVPN uses VXLAN transport.
-/

namespace Netlab

/-- `register_static_transit_vni`, `netsim/modules/evpn.py:170-183`: the set of VNIs and the number of errors -/
def registerTransit (var : IdVar) : TVniDict → IdVar × Nat
  | [] => (var, 0)
  | (_, .num n) :: r =>
    if var.isUsed (.i n) then ((registerTransit var r).1, (registerTransit var r).2 + 1)
    else registerTransit (var.extend [.i n]) r
  | _ :: r => registerTransit var r

/-- The order of transformations in `netsim/augment/main.py:66-74`: the EVPN module runs after the VXLAN module
(`netsim/modules/evpn.yml:5-5`).  Static VNIs of VLANs and VRFs are registered (`netsim/modules/vxlan.py:167-168`,
`netsim/modules/evpn.py:390-391`), VNIs of VLANs (`netsim/modules/vxlan.py:183-188`) and transit VNIs of VRFs
(`netsim/modules/evpn.py:407-407`) are set. -/
def evpnVnis (startVlan startVni startTransit : Int) (glist : List String) (lists : String → List String) (t : VlanTopo) (d : TVniDict) :
    Except Fatal (VlanTopo × TVniDict × Nat) :=
  match vlanTransform startVlan t with
  | .error e => .error e
  | .ok (t1, _, e1) =>
    let reg := registerTransit (registerStaticVni startVni t) d
    match vniTransform startVni glist lists reg.1 t1 with
    | .error e => .error e
    | .ok (t2, _, e2) =>
      let tr := vrfTransitVni true startTransit d
      .ok (t2, tr.1, e1 + reg.2 + e2 + tr.2)

end Netlab
