import Verif.Model.Igp
import Verif.Model.RoutingObjects
/-!
# MPLS: LDP, BGP labeled unicast, L3VPN and 6PE (`netsim/modules/mpls.py`)
-/

namespace Netlab

/-! ## LDP -/

/-- An interface in `netsim/modules/mpls.py:48-71`: common interface data (the protocol attribute of `IgpIntf` is
not used), interface attribute `mpls.ldp` and the resulting attribute `ldp` (its `passive` flag). -/
structure LdpIntf where
  intf : IgpIntf
  mplsLdp : Option Bool := none
  ldp : Option Bool := none
  deriving Repr, DecidableEq

/-- The interface loop in `netsim/modules/mpls.py:48-71` for one interface; `none` is an exception.

* `bool_to_defaults` (`netsim/data/__init__.py:121-139`) removes `mpls.ldp: False`, so the attribute `ldp` is never
  set to `False`, and `external` never sees it.
* `mpls.ldp: True` is copied into `ldp`; `'passive' in True` in `netsim/modules/_routing.py:141` is a type error.
* no node has a configuration module called `ldp`: `is_true_stub` (`netsim/modules/_routing.py:112-123`) is always
  true. -/
def ldpIntf (csc : Bool) (i : LdpIntf) : Option (LdpIntf × Nat) :=
  if !i.intf.af.contains "ipv4" then some (i, 0)
  else if i.intf.vrf.isSome && i.mplsLdp != some true then some (i, 0)
  else if i.intf.vrf.isSome && !csc then some (i, 1)
  else
    let copied := i.mplsLdp == some true
    if i.intf.role == "external" then some ({ i with ldp := none }, 0)
    else if copied then none
    else some ({ i with ldp := some (igpPassive (fun _ => false) i.intf {}) }, 0)

/-- The interface loop of `netsim/modules/mpls.py:48-71` -/
def ldpLoop (csc : Bool) : List LdpIntf → Option (List LdpIntf × Nat)
  | [] => some ([], 0)
  | i :: is =>
    match ldpIntf csc i with
    | none => none
    | some (j, e) =>
      match ldpLoop csc is with
      | none => none
      | some (js, e') => some (j :: js, e + e')

/-- Result of `node_adjust_ldp` (`netsim/modules/mpls.py:36-73`): interfaces, is LDP active on the node, is `ldp`
still among the MPLS settings of the node, number of errors. -/
structure LdpResult where
  ifs : List LdpIntf
  active : Bool
  inMpls : Bool
  errors : Nat
  deriving Repr, DecidableEq

/-- `netsim/modules/mpls.py:36-73` (`node_adjust_ldp`) with `remove_unused_igp`
(`netsim/modules/_routing.py:308-310`).  The LDP router ID is left out (see C31). -/
def nodeAdjustLdp (v4 csc : Bool) (ifs : List LdpIntf) : Option LdpResult :=
  if !v4 then some ⟨ifs, false, true, 1⟩
  else
    match ldpLoop csc ifs with
    | none => none
    | some (r, e) => some ⟨r, r.any (fun i => i.ldp.isSome), false, e⟩

/-! ## BGP address families -/

/-- Value of an address family in `mpls.bgp` or `mpls.vpn` (`netsim/modules/mpls.yml:17-25`) -/
inductive MVal where
  | flag (b : Bool)
  | list (l : List String)
  deriving Repr, DecidableEq

/-- Value of `mpls.bgp` or `mpls.vpn` as specified by the user (`netsim/modules/mpls.yml:15-25`) -/
inductive MSet where
  | flag (b : Bool)
  | list (l : List String)
  | dict (v4 v6 : Option MVal)
  deriving Repr, DecidableEq

/-- Session types per address family (`node.mpls.bgp`, `netsim/modules/mpls.py:75-114`); other parameters of the
dictionary are left out -/
structure AfSess where
  v4 : Option (List String) := none
  v6 : Option (List String) := none
  deriving Repr, DecidableEq

/-- `setting[af]` (`netsim/modules/mpls.py:125`) -/
def AfSess.get (s : AfSess) : Afam → Option (List String)
  | .v4 => s.v4
  | .v6 => s.v6

/-- Value of `mpls.bgp` or `mpls.vpn` after `bool_to_defaults` (`netsim/modules/mpls.py:223-224`) -/
inductive MPost where
  | list (l : List String)
  | dict (s : AfSess)
  deriving Repr, DecidableEq

/-- `netsim/data/__init__.py:121-139` (`bool_to_defaults`) for the value of one address family -/
def MVal.toDefault (d : List String) : MVal → Option (List String)
  | .flag true => some d
  | .flag false => none
  | .list l => some l

/-- `netsim/data/__init__.py:121-139` (`bool_to_defaults`) with `DEFAULT_BGP_LU` or `DEFAULT_VPN_AF`
(`netsim/modules/mpls.py:18-26`, the same list for both address families) -/
def MSet.toDefaults (d : List String) : MSet → Option MPost
  | .flag true => some (.dict ⟨some d, some d⟩)
  | .flag false => none
  | .list l => some (.list l)
  | .dict a b => some (.dict ⟨a.bind (MVal.toDefault d), b.bind (MVal.toDefault d)⟩)

/-- `check_valid_values` for a list of session types (`netsim/data/types.py:206-222`), number of errors -/
def badSess (l : List String) : Nat :=
  if l.all (fun x => ["ibgp", "ebgp"].contains x) then 0 else 1

/-- `netsim/modules/mpls.py:75-114` (`validate_mpls_bgp_parameter`): the normalized value (`none`: the function
returned `False`) and the number of errors.  `must_be_list` returns the list, so an empty list counts as a
failure (lines 78-85 and 95-104), without an error. -/
def validateMpls (nodeAf : List Afam) : MPost → Option AfSess × Nat
  | .list l =>
    if l.isEmpty then (none, 0)
    else (some ⟨if nodeAf.contains .v4 then some l else none, if nodeAf.contains .v6 then some l else none⟩,
      badSess l)
  | .dict s =>
    if s.v4 = some [] then (none, 0)
    else
      let e := badSess (s.v4.getD [])
      if s.v6 = some [] then (none, e)
      else (some s, e + badSess (s.v6.getD []))

/-- A BGP neighbor in `netsim/modules/mpls.py:123-183`: name, session type, addresses, label flags (`ipv4_label`,
`ipv6_label`), 6PE flag, VPN addresses (`vpnv4`, `vpnv6`) -/
structure MplsNgb where
  name : String
  type : String
  ipv4 : Option String := none
  ipv6 : Option String := none
  label4 : Bool := false
  label6 : Bool := false
  sixPe : Bool := false
  vpnv4 : Option String := none
  vpnv6 : Option String := none
  deriving Repr, DecidableEq

/-- Node data used in `netsim/modules/mpls.py:116-183`: address families of the node, `mpls.bgp`, `mpls.vpn` and
`mpls.6pe` after the pre-transform phase, BGP neighbors, is `ipv4` configured in BGP, is the node a route
reflector, address families of VRFs -/
structure MplsNode where
  name : String
  af : List Afam := []
  ldp : Bool := false
  bgp : Option MPost := none
  vpn : Option MPost := none
  sixPe : Option (List String) := none
  neighbors : List MplsNgb := []
  bgpV4 : Bool := true
  rr : Bool := false
  vrfs : List (List Afam) := []
  deriving Repr, DecidableEq

/-- `netsim/modules/mpls.py:123-126` for one neighbor: `af in n and af in node.mpls.bgp and n.type in
node.mpls.bgp[af]` -/
def luNeighbor (s : AfSess) (n : MplsNgb) : MplsNgb :=
  { n with
    label4 := n.label4 || (n.ipv4.isSome && (s.v4.getD []).contains n.type)
    label6 := n.label6 || (n.ipv6.isSome && (s.v6.getD []).contains n.type) }

/-- `netsim/modules/mpls.py:116-126` (`node_adjust_bgplu`) -/
def adjustLu (x : MplsNode) (p : MPost) : MplsNode × Nat :=
  match validateMpls x.af p with
  | (none, e) => (x, e)
  | (some s, e) => ({ x with bgp := some (.dict s), neighbors := x.neighbors.map (luNeighbor s) }, e)

/-- `netsim/modules/mpls.py:159-170` (`prune_mplsvpn_af`) -/
def pruneVpn (s : AfSess) (vrfs : List (List Afam)) : AfSess :=
  let keep := fun (a : Afam) (v : Option (List String)) =>
    match v with
    | none => none
    | some l => if !vrfs.any (fun w => w.contains a) && !l.contains "ebgp" then none else some l
  ⟨keep .v4 s.v4, keep .v6 s.v6⟩

/-- `netsim/modules/mpls.py:179-183` for one neighbor.  The session type is not looked at. -/
def vpnNeighbor (s : AfSess) (n : MplsNgb) : MplsNgb :=
  match n.ipv4 with
  | none => n
  | some a =>
    { n with
      vpnv4 := if s.v4.isSome then some a else n.vpnv4
      vpnv6 := if s.v6.isSome then some a else n.vpnv6 }

/-- `netsim/modules/mpls.py:172-183` (`node_adjust_mplsvpn`) -/
def adjustVpn (x : MplsNode) (p : MPost) : MplsNode × Nat :=
  match validateMpls x.af p with
  | (none, e) => (x, e)
  | (some s, e) =>
    let s' := if x.rr then s else pruneVpn s x.vrfs
    ({ x with vpn := some (.dict s'), neighbors := x.neighbors.map (vpnNeighbor s') }, e)

/-- `netsim/modules/mpls.py:149-157` for one neighbor; `remote` are the 6PE session types of the neighbor
(`topology.nodes[n.name].get('mpls.6pe',[])`) -/
def sixPeNeighbor (l : List String) (remote : String → List String) (n : MplsNgb) : MplsNgb :=
  if n.ipv4.isSome && l.contains n.type then
    if (remote n.name).contains n.type then { n with sixPe := true, ipv6 := none } else { n with sixPe := true }
  else n

/-- `netsim/modules/mpls.py:128-157` (`node_adjust_6pe`).  The function validates `mpls.bgp`, not `mpls.6pe`
(line 129); reading the missing attribute creates an empty dictionary. -/
def adjust6pe (remote : String → List String) (x : MplsNode) (l : List String) : MplsNode × Nat :=
  let p := x.bgp.getD (.dict {})
  match validateMpls x.af p with
  | (none, e) => ({ x with bgp := some p }, e)
  | (some s, e) =>
    let y := { x with bgp := some (.dict s) }
    if !x.bgpV4 then (y, e + 1)
    else if s.v6.isSome then (y, e + 1)
    else ({ y with neighbors := x.neighbors.map (sixPeNeighbor l remote) }, e)

/-- Device feature `mpls.<fn>` (`netsim/modules/mpls.py:190-205`): a truth value, or a dictionary of address
families -/
inductive MFeat where
  | flag (b : Bool)
  | dict (v4 v6 : Bool)
  deriving Repr, DecidableEq

/-- Device features `mpls.ldp`, `mpls.bgp`, `mpls.vpn` and `mpls.6pe` (`netsim/modules/mpls.yml:33-37`) -/
structure MFeatures where
  ldp : MFeat
  bgp : MFeat
  vpn : MFeat
  sixPe : MFeat
  deriving Repr, DecidableEq

/-- `netsim/modules/mpls.py:190-205` for one feature; `v` is the value of the node attribute.  An empty feature
dictionary (not modelled) would be false. -/
def featErrors (f : MFeat) (v : Option MPost) : Nat :=
  match v with
  | none => 0
  | some p =>
    match f with
    | .flag false => 1
    | .flag true => 0
    | .dict a b =>
      match p with
      | .list _ => 0
      | .dict s => (if s.v4.isSome && !a then 1 else 0) + (if s.v6.isSome && !b then 1 else 0)

/-- `netsim/modules/mpls.py:188-205` (`check_node_features`), number of errors; LDP and 6PE values are not
dictionaries with address families. -/
def mplsFeatures (f : MFeatures) (ldp : Bool) (x : MplsNode) : Nat :=
  featErrors f.ldp (if ldp then some (.list []) else none) + featErrors f.bgp x.bgp + featErrors f.vpn x.vpn +
    featErrors f.sixPe (x.sixPe.map .list)

/-- Result of the MPLS post-transform phase of a node (`netsim/modules/mpls.py:233-253`) -/
structure MplsResult where
  node : MplsNode
  ifs : List LdpIntf
  ldpActive : Bool
  errors : Nat
  deriving Repr, DecidableEq

/-- `netsim/modules/mpls.py:241-242`: LDP is adjusted if it is among MPLS settings -/
def ldpPart (ldp v4 csc : Bool) (ifs : List LdpIntf) : Option LdpResult :=
  if ldp then nodeAdjustLdp v4 csc ifs else some ⟨ifs, false, false, 0⟩

/-- `netsim/modules/mpls.py:244-245` -/
def luPart (x : MplsNode) : MplsNode × Nat :=
  match x.bgp with
  | none => (x, 0)
  | some p => adjustLu x p

/-- `netsim/modules/mpls.py:247-248` -/
def vpnPart (x : MplsNode) : MplsNode × Nat :=
  match x.vpn with
  | none => (x, 0)
  | some p => adjustVpn x p

/-- `netsim/modules/mpls.py:250-251` -/
def sixPePart (remote : String → List String) (x : MplsNode) : MplsNode × Nat :=
  match x.sixPe with
  | none => (x, 0)
  | some l => adjust6pe remote x l

/-- `netsim/modules/mpls.py:233-253` (`node_post_transform`); `none` is an exception. -/
def mplsTransform (f : MFeatures) (csc : Bool) (remote : String → List String) (x : MplsNode)
    (ifs : List LdpIntf) : Option MplsResult :=
  match ldpPart x.ldp (x.af.contains .v4) csc ifs with
  | none => none
  | some r =>
    let a := luPart x
    let b := vpnPart a.1
    let c := sixPePart remote b.1
    some ⟨c.1, r.ifs, r.active, r.errors + a.2 + b.2 + c.2 + mplsFeatures f r.inMpls c.1⟩

/-- The settings of a node before the transformation (`netsim/modules/mpls.yml:7-30`) -/
structure MplsUser where
  ldp : Bool := true
  bgp : Option MSet := none
  vpn : Option MSet := none
  sixPe : Option MVal := none
  deriving Repr, DecidableEq

/-- Validation of an attribute of type `list` with a `true_value` (`netsim/data/types.py:264-300`,
`get_value_to_check`; the false value of lists is an empty list, `netsim/data/types.py:438`) -/
def MVal.validate (d : List String) : MVal → MVal
  | .flag true => .list d
  | .flag false => .list []
  | .list l => .list l

/-- Validation of `mpls.bgp` and `mpls.vpn` (`netsim/modules/mpls.yml:15-24`), done before the transformation
(`netsim/augment/main.py:61`) -/
def MSet.validate (d : List String) : MSet → MSet
  | .dict a b => .dict (a.map (MVal.validate d)) (b.map (MVal.validate d))
  | s => s

/-- `netsim/modules/mpls.py:209-231` (`node_pre_transform`) after validation of attributes: settings and the number
of errors; `mods` are the modules of the node.  LDP parameters are left out. -/
def mplsPre (mods : List String) (u : MplsUser) (x : MplsNode) : MplsNode × Nat :=
  let b := (u.bgp.map (MSet.validate ["ibgp", "ebgp"])).bind (MSet.toDefaults ["ibgp", "ebgp"])
  let v := (u.vpn.map (MSet.validate ["ibgp"])).bind (MSet.toDefaults ["ibgp"])
  let e1 := if u.ldp && !mods.any (fun m => ["ospf", "isis", "eigrp"].contains m) then 1 else 0
  let e2 := if (b.isSome || v.isSome) && !mods.contains "bgp" then 1 else 0
  ({ x with
    ldp := u.ldp
    bgp := b
    vpn := v
    sixPe := (u.sixPe.map (MVal.validate ["ibgp"])).bind (MVal.toDefault ["ibgp"]) }, e1 + e2)

/-- Both phases for a node (`netsim/modules/mpls.py:209-253`) -/
def mplsRun (f : MFeatures) (csc : Bool) (remote : String → List String) (mods : List String) (u : MplsUser)
    (x : MplsNode) (ifs : List LdpIntf) : Option MplsResult :=
  let p := mplsPre mods u x
  match mplsTransform f csc remote p.1 ifs with
  | none => none
  | some r => some { r with errors := p.2 + r.errors }

end Netlab
