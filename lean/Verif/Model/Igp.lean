import Verif.Model.Box
/-!
# IGP interfaces (`netsim/modules/_routing.py`, `netsim/modules/ospf.py`)

The common part of IGP configuration modules: which interfaces run the protocol, which of them are
passive, VRF instances and address families.  An interface is reduced to the attributes used by
these functions.  Interface attribute `<proto>` is missing, `False`, or a dictionary (`True` is
left out); within the dictionary only `passive` and `network_type` are modelled.
-/

namespace Netlab

/-- Interface protocol parameters used in `netsim/modules/_routing.py:75-178`: `passive` (its truth
value) and `network_type` (`some none` = specified, but empty). -/
structure IgpData where
  passive : Option Bool := none
  ntype : Option (Option String) := none
  deriving Repr, DecidableEq

/-- Value of interface attribute `<proto>` (`netsim/modules/_routing.py:94-103`) -/
inductive IgpAttr where
  | missing
  | off
  | data (d : IgpData)
  deriving Repr, DecidableEq

/-- The interface data used by IGP modules (`netsim/modules/_routing.py:50-170`): link role, link
type, VRF, address families with an address (or a DHCP client), neighbor node names, and protocol
data. -/
structure IgpIntf where
  name : String
  role : String := ""
  type : String := "lan"
  vrf : Option String := none
  af : List String := []
  dhcp : List String := []
  ngb : List String := []
  igp : IgpAttr := .missing
  deriving Repr, DecidableEq

/-- `netsim/modules/_routing.py:94-103` (`external`): the new protocol attribute when the protocol
is removed from the interface. -/
def igpExternal (i : IgpIntf) : Bool :=
  i.role == "external" || i.igp == .off

/-- `netsim/modules/_routing.py:112-123` (`is_true_stub`) for an IGP; `runs` says whether a node
runs the protocol. -/
def isTrueStub (runs : String → Bool) (i : IgpIntf) : Bool :=
  i.ngb.all (fun n => !runs n)

/-- `netsim/modules/_routing.py:135-170` (`passive`): the value of the passive flag; the error
reported for devices without passive interfaces is left out. -/
def igpPassive (runs : String → Bool) (i : IgpIntf) (d : IgpData) : Bool :=
  match d.passive with
  | some b => b
  | none =>
    if i.role == "passive" || i.role == "external" || i.type == "stub" then true
    else if i.role != "stub" then false
    else isTrueStub runs i

/-- `netsim/modules/_routing.py:75-90` (`network_type`): the new network type and whether an
error was reported. -/
def igpNetworkType (allowed : List String) (i : IgpIntf) (d : IgpData) :
    Option (Option String) × Bool :=
  match d.ntype with
  | some none => (none, false)
  | some (some t) =>
    if t == "" then (none, false)
    else if allowed.contains t then (some (some t), false) else (some (some t), true)
  | none => if i.ngb.length == 1 then (some (some "point-to-point"), false) else (none, false)

/-- The interface loop in `netsim/modules/ospf.py:106-111` for one interface.  The protocol is
enabled on every interface that is not external and not disabled (reading the missing attribute
of a `Box` creates it). -/
def igpIntf (runs : String → Bool) (allowed : List String) (i : IgpIntf) : IgpIntf × Bool :=
  if igpExternal i then ({ i with igp := .missing }, false)
  else
    let d := match i.igp with
      | .data d => d
      | _ => {}
    let t := igpNetworkType allowed i d
    ({ i with igp := .data { passive := some (igpPassive runs i d), ntype := t.1 } }, t.2)

/-- `netsim/modules/_routing.py:301-306` (`remove_unaddressed_intf`) for one interface -/
def removeUnaddressed (i : IgpIntf) : IgpIntf :=
  if ["ipv4", "ipv6"].any (fun a => i.af.contains a || i.dhcp.contains a) then i
  else { i with igp := .missing }

/-- Protocol data of a VRF (`netsim/modules/_routing.py:265-289`): missing, `True`, `False`,
or a dictionary with the `active` flag and the interface list. -/
inductive VrfIgp where
  | missing
  | on
  | off
  | data (active : Option Bool) (ifs : List IgpIntf)
  deriving Repr, DecidableEq

/-- The first loop of `netsim/modules/_routing.py:262-282` (`build_vrf_interface_list`) for one
interface: VRF data and the interface.  Other protocol parameters copied into the VRF are left
out; a VRF that is not in the dictionary is created. -/
def vrfIntfStep (runs : String → Bool) (vrfs : List (String × VrfIgp)) (i : IgpIntf) :
    List (String × VrfIgp) × IgpIntf :=
  match i.igp, i.vrf with
  | .missing, _ => (vrfs, i)
  | _, none => (vrfs, i)
  | _, some v =>
    let add := fun (active : Bool) (ifs : List IgpIntf) =>
      (setKey vrfs v (.data (some (active || i.ngb.any runs)) (ifs ++ [i])),
        { i with igp := .missing })
    match (vrfs.lookup v).getD .missing with
    | .off => (vrfs, { i with igp := .missing })
    | .on => add true []
    | .missing => add false []
    | .data a ifs => add (a.getD false) ifs

/-- The first loop of `netsim/modules/_routing.py:262-282` (`build_vrf_interface_list`) -/
def vrfIntfLoop (runs : String → Bool) :
    List (String × VrfIgp) → List IgpIntf → List (String × VrfIgp) × List IgpIntf
  | vrfs, [] => (vrfs, [])
  | vrfs, i :: is =>
    let s := vrfIntfStep runs vrfs i
    let r := vrfIntfLoop runs s.1 is
    (r.1, s.2 :: r.2)

/-- The second loop of `netsim/modules/_routing.py:283-289`: instances that are not active are
removed.  (The import cleanup is left out.) -/
def vrfIgpCleanup (v : VrfIgp) : VrfIgp :=
  match v with
  | .data (some true) ifs => .data (some true) ifs
  | _ => .missing

/-- `netsim/modules/_routing.py:254-257` (`remove_vrf_interfaces`) for one interface -/
def removeVrfIntf (i : IgpIntf) : IgpIntf :=
  if i.vrf.isSome then { i with igp := .missing } else i

/-- `netsim/modules/_routing.py:43-65` (`routing_af`): the address families of the global instance
when the `af` attribute is not configured; `lb` are the address families of the loopback
interface. -/
def routingAf (lb : List String) (ifs : List IgpIntf) : List String :=
  ["ipv4", "ipv6"].filter (fun a =>
    lb.contains a || ifs.any (fun i => i.igp != .missing && (i.af.contains a || i.dhcp.contains a)
      && i.vrf.isNone))

/-- `netsim/modules/_routing.py:309-319` (`remove_unused_igp`) up to line 319: is the protocol
removed from the node? -/
def unusedIgp (af : List String) (ifs : List IgpIntf) (vrfs : List (String × VrfIgp)) : Bool :=
  !((ifs.any (fun i => i.igp != .missing) && !af.isEmpty) ||
    vrfs.any (fun p => p.2 != .missing))

/-- Result of the IGP transformation of a node (`netsim/modules/ospf.py:80-120`). -/
structure IgpResult where
  ifs : List IgpIntf
  vrfs : List (String × VrfIgp)
  af : List String
  removed : Bool
  errors : Nat
  deriving Repr, DecidableEq

/-- `netsim/modules/ospf.py:104-117` and `netsim/modules/_routing.py:727-755`
(`igp_post_transform`): interface loop, interfaces without addresses, VRF interfaces, address
families, unused protocol.  Without the `af` attribute on the node; route imports, default routes,
unnumbered-interface and BFD checks are left out. -/
def igpTransform (vrfAware : Bool) (runs : String → Bool) (allowed lb : List String)
    (vrfs : List (String × VrfIgp)) (ifs : List IgpIntf) : IgpResult :=
  let r := ifs.map (igpIntf runs allowed)
  let l1 := (r.map (·.1)).map removeUnaddressed
  let b := vrfIntfLoop runs vrfs l1
  let l2 := if vrfAware then b.2 else l1.map removeVrfIntf
  let v2 := if vrfAware then b.1.map (fun p => (p.1, vrfIgpCleanup p.2)) else vrfs
  let af := routingAf lb l2
  ⟨l2, v2, af, unusedIgp af l2 v2, (r.filter (·.2)).length⟩

end Netlab
