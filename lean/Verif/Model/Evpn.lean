import Verif.Model.Vrf
import Verif.Model.Bgp
/-!
# EVPN services (`netsim/modules/evpn.py`)
-/

namespace Netlab

/-- EVPN attributes of a VLAN (`netsim/modules/evpn.py:69-79,106-110`) -/
structure EvpnVlanAttr where
  evi : Option Int := none
  imp : Option (List String) := none
  exp : Option (List String) := none
  bundle : Option String := none
  rd : Option String := none
  deriving Repr, DecidableEq

/-- A global VLAN (`netsim/modules/evpn.py:69-134`).  `vni`: it has a VXLAN network identifier that is not false. -/
structure EvVlan where
  name : String
  id : Int
  vrf : Option String := none
  vni : Bool := false
  evpn : Option EvpnVlanAttr := none
  deriving Repr, DecidableEq

/-- EVPN attributes of a VRF (`netsim/modules/evpn.py:97-115,266-272`); the transit VNI is described in another module -/
structure EvpnVrfAttr where
  evi : Option Int := none
  bundle : Option String := none
  vlans : Option (List String) := none
  vlanIds : Option (List Int) := none
  rd : Option String := none
  deriving Repr, DecidableEq

/-- A global VRF (`netsim/modules/evpn.py:82-115`) -/
structure EvVrf where
  name : String
  id : Int
  evpn : Option EvpnVrfAttr := none
  deriving Repr, DecidableEq

/-- Global data (`netsim/modules/evpn.py:402-411`) and the number of errors -/
structure EvState where
  vlans : List EvVlan
  vrfs : List EvVrf
  errors : Nat := 0
  deriving Repr, DecidableEq

/-- AS numbers in the topology (`netsim/modules/evpn.py:55-58`) -/
structure EvAs where
  evpn : Option Int := none
  vrf : Option Int := none
  bgp : Option Int := none
  deriving Repr, DecidableEq

/-- `netsim/modules/evpn.py:55-67` (`get_usable_evpn_asn`): zero means an error.  `data.is_true_int` always holds, as the
attributes are AS numbers. -/
def usableAsn (a : EvAs) : Int := (orAs a.evpn (orAs a.vrf a.bgp)).getD 0

/-- `evpn.evi or vlan.id` (`netsim/modules/evpn.py:72`) -/
def eviOr (evi : Option Int) (id : Int) : Int :=
  match evi with
  | some e => if e = 0 then id else e
  | none => id

/-- `netsim/modules/evpn.py:69-79` (`vlan_based_service`): the VLAN and the number of errors -/
def vlanBased (asn : Int) (v : EvVlan) : EvVlan × Nat :=
  let e := v.evpn.getD {}
  let evi := eviOr e.evi v.id
  let rt := [mkRd asn evi]
  ({ v with evpn := some { e with evi := some evi, imp := some (e.imp.getD rt), exp := some (e.exp.getD rt) } },
   (if asn = 0 then 1 else 0) + (if 1 ≤ evi ∧ evi ≤ 65535 then 0 else 1))

/-- `netsim/modules/evpn.py:122-137` (`get_vlan_bundle_flag`): the VRF of the VLAN when the VLAN is in a bundle.  The check
of the bundle type (done again in the validation of attributes) is left out.  A missing VRF is read as an empty one. -/
def bundleVrf (vrfs : List EvVrf) (v : EvVlan) : Option EvVrf :=
  match v.vrf with
  | none => none
  | some r =>
    match vrfs.find? (fun x => x.name == r) with
    | none => none
    | some x => if (x.evpn.bind (·.bundle)).getD "" = "" then none else some x

/-- The VRF after a VLAN was added to its bundle (`netsim/modules/evpn.py:105-115`) -/
def bundleAddVrf (v : EvVlan) (r : EvVrf) : EvVrf :=
  let e := r.evpn.getD {}
  { r with evpn := some { e with
      evi := if e.evi.isSome then e.evi else some r.id
      vlans := some (e.vlans.getD [] ++ [v.name])
      vlanIds := some (e.vlanIds.getD [] ++ [v.id]) } }

/-- The VLAN added to a bundle (`netsim/modules/evpn.py:105-110`) -/
def bundleAddVlan (r : EvVrf) (v : EvVlan) : EvVlan :=
  let e := r.evpn.getD {}
  { v with evpn := some { bundle := e.bundle, evi := if e.evi.isSome then e.evi else some r.id } }

/-- `netsim/modules/evpn.py:143-148` (`create_vlan_service`) with `netsim/modules/evpn.py:82-115`
(`vlan_aware_bundle_service`).  A name that is not a global VLAN was reported before; reading it yields an empty VLAN
without an id, which is one more error. -/
def vlanService (asn : Int) (st : EvState) (name : String) : EvState :=
  match st.vlans.find? (fun v => v.name == name) with
  | none => { st with errors := st.errors + 1 }
  | some v =>
    match bundleVrf st.vrfs v with
    | none =>
      let r := vlanBased asn v
      { st with vlans := st.vlans.map (fun x => if x.name = name then r.1 else x), errors := st.errors + r.2 }
    | some r =>
      if v.evpn.isSome then { st with errors := st.errors + 1 }
      else
        { st with
          vlans := st.vlans.map (fun x => if x.name = name then bundleAddVlan r x else x)
          vrfs := st.vrfs.map (fun x => if x.name = r.name then bundleAddVrf v x else x) }

/-- `netsim/modules/evpn.py:266-272` (`vrf_irb_setup`) -/
def irbVrf (r : EvVrf) : EvVrf :=
  match r.evpn with
  | none => r
  | some e => if e.evi.isSome then r else { r with evpn := some { e with evi := some r.id } }

/-- `netsim/modules/_dataplane.py:120-174` (`validate_object_reference_list`): the list (`none`: missing), the parameters
`local` and `glob` are the names of objects in the parent and in the topology (`none`: no such dictionary), `dflt` the
objects of the parent selected by the default filter, `topoList` the global list.  Result: the list and the number of
errors. -/
def refList (list : Option (List String)) (loc glob : Option (List String)) (dflt : List String) (create merge : Bool)
    (topoList : Option (List String)) : Option (List String) × Nat :=
  let check := fun l : List String =>
    (l.filter (fun n => !(loc.getD []).contains n && !(glob.getD []).contains n)).length
  match list with
  | some (a :: r) => (list, check (a :: r))
  | _ =>
    if loc.isNone || !create then (list, 0)
    else
      let l := if merge then
          (topoList.getD []).foldl (fun l k => if l.contains k then l else l ++ [k]) dflt
        else dflt
      if l.isEmpty then (list, 0) else (some l, check l)

/-- Global part of `module_post_node_transform` (`netsim/modules/evpn.py:402-411`) for VLANs: `list` is `evpn.vlans`; VRF
lists and transit VNIs are left out.  The result includes the final list. -/
def evpnServices (as : EvAs) (list : Option (List String)) (vlans : List EvVlan) (vrfs : List EvVrf) :
    EvState × Option (List String) :=
  let names := vlans.map (·.name)
  let l := refList list (some names) (some names) ((vlans.filter (·.vni)).map (·.name)) true false none
  let st := (l.1.getD []).foldl (vlanService (usableAsn as)) { vlans := vlans, vrfs := vrfs, errors := l.2 }
  ({ st with vrfs := st.vrfs.map irbVrf }, l.1)

/-! ## Nodes -/

/-- EVPN attributes of a VLAN or VRF on a node (`netsim/modules/evpn.py:297-314`) -/
structure EvObj where
  evi : Option Int := none
  rd : Option String := none
  bundle : Option String := none
  transitVni : Bool := false
  deriving Repr, DecidableEq

/-- VRF of a node (`netsim/modules/evpn.py:343-366`); `af`: it has address families -/
structure EvNodeVrf where
  af : Bool := false
  evpn : Option EvObj := none
  deriving Repr, DecidableEq

/-- Neighbor of a node (`netsim/modules/evpn.py:45-52`) -/
structure EvNgb where
  name : String
  type : SType
  evpn : Bool := false
  deriving Repr, DecidableEq

/-- A node using EVPN (`netsim/modules/evpn.py:421-428`); features of its device are included.  `session = none`: no
`evpn.session` -/
structure EvNode where
  name : String
  routerId : String := ""
  session : Option (List SType) := none
  ngbs : List EvNgb := []
  evVlans : Option (List String) := none
  evVrfs : Option (List String) := none
  transport : Option String := none
  vlans : List (String × Option EvObj) := []
  vrfs : List (String × EvNodeVrf) := []
  irb : Bool := false
  asymIrb : Bool := false
  bundles : List String := []
  deriving Repr, DecidableEq

/-- Global lists (`netsim/modules/evpn.py:277-281`) and global VLANs: name, VRF and the presence of EVPN attributes
(`netsim/modules/evpn.py:320-332`) -/
structure EvGlobal where
  evVlans : Option (List String) := none
  evVrfs : Option (List String) := none
  transport : Option String := none
  vlans : List (String × Option String × Bool) := []
  deriving Repr, DecidableEq

/-- `netsim/modules/evpn.py:45-52` (`enable_evpn_af`); `usesEvpn`: the node uses the EVPN module -/
def enableEvpnAf (usesEvpn : String → Bool) (n : EvNode) : EvNode :=
  { n with ngbs := n.ngbs.map (fun g =>
      if (n.session.getD []).contains g.type && usesEvpn g.name then { g with evpn := true } else g) }

/-- `netsim/modules/evpn.py:277-281` (`copy_global_evpn_lists`) -/
def copyEvpnLists (g : EvGlobal) (n : EvNode) : EvNode :=
  { n with evVlans := if n.evVlans.isSome then n.evVlans else g.evVlans
           evVrfs := if n.evVrfs.isSome then n.evVrfs else g.evVrfs
           transport := if n.transport.isSome then n.transport else g.transport }

/-- `x in y` for strings (`netsim/modules/evpn.py:325`) -/
def pySubstr (x y : List Char) : Bool :=
  match y with
  | [] => x.isEmpty
  | c :: r => x.isPrefixOf (c :: r) || pySubstr x r

/-- `netsim/modules/evpn.py:320-338` (`check_asym_vlan`): number of errors.  The test of the VRF looks for a substring. -/
def checkAsymVlan (g : EvGlobal) (n : EvNode) (vrf : String) : Nat :=
  (g.vlans.filter (fun v =>
    pySubstr vrf.toList (v.2.1.getD "").toList && v.2.2 && !(n.vlans.map (·.1)).contains v.1)).length

/-- `netsim/modules/evpn.py:343-368` (`check_node_vrf_irb`) for one VRF: number of errors -/
def checkVrfIrb (g : EvGlobal) (n : EvNode) (name : String) (v : EvNodeVrf) : Nat :=
  if !v.af then 0
  else
    let transport := n.transport.getD "vxlan"
    if (v.evpn.any (·.transitVni)) || transport == "mpls" then
      if !n.irb && transport == "vxlan" then 1 else 0
    else if !n.asymIrb then 1
    else checkAsymVlan g n name

/-- `netsim/modules/evpn.py:373-384` (`check_node_vrf_bundle`) for one VRF: number of errors -/
def checkVrfBundle (n : EvNode) (v : EvNodeVrf) : Nat :=
  let b := (v.evpn.bind (·.bundle)).getD ""
  if b = "" then 0 else if n.bundles.contains b then 0 else 1

/-- `netsim/modules/evpn.py:286-292` (`trim_node_evpn_lists`) -/
def trimEvpnLists (n : EvNode) : EvNode :=
  { n with evVlans := n.evVlans.map (fun l => (n.vlans.map (·.1)).filter l.contains)
           evVrfs := n.evVrfs.map (fun l => (n.vrfs.map (·.1)).filter l.contains) }

/-- Route distinguisher of an EVPN object (`netsim/modules/evpn.py:302-314`): attributes and number of errors -/
def evpnRd (routerId : String) (o : Option EvObj) : Option EvObj × Nat :=
  match o with
  | none => (none, 0)
  | some e =>
    match e.evi with
    | none => (some e, 1)
    | some i => (some { e with rd := if e.rd.isSome then e.rd else some (routerId ++ ":" ++ toString i) }, 0)

/-- `netsim/modules/evpn.py:297-314` (`set_local_evpn_rd`) -/
def setEvpnRd (n : EvNode) : EvNode × Nat :=
  let a := n.vlans.map (fun v => (v.1, evpnRd n.routerId v.2))
  let b := n.vrfs.map (fun v => (v.1, v.2.af, evpnRd n.routerId v.2.evpn))
  ({ n with vlans := a.map (fun v => (v.1, v.2.1))
            vrfs := b.map (fun v => (v.1, { af := v.2.1, evpn := v.2.2.1 })) },
   (a.map (fun v => v.2.2)).sum + (b.map (fun v => v.2.2.2)).sum)

/-- `node_post_transform` (`netsim/modules/evpn.py:421-428`): the node and the number of errors; the router ID is set
elsewhere. -/
def evpnNode (usesEvpn : String → Bool) (g : EvGlobal) (n : EvNode) : EvNode × Nat :=
  let m := copyEvpnLists g (enableEvpnAf usesEvpn n)
  let e := (m.vrfs.map (fun v => checkVrfIrb g m v.1 v.2)).sum + (m.vrfs.map (fun v => checkVrfBundle m v.2)).sum
  let r := setEvpnRd (trimEvpnLists m)
  (r.1, e + r.2)

end Netlab
