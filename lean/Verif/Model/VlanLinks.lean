/-!
# VLAN attributes of links

`link_pre_transform` of the VLAN module (`netsim/modules/vlan.py:1296-1360`): checks of access, native and trunk VLANs,
forwarding mode of the interfaces, VLAN member links created from trunks, and the IP prefix of the link.

Simplifications:

* the attribute types were checked before (`netsim/modules/vlan.yml`), VLAN names are not empty, a trunk list was changed
  into a dictionary, and the only attribute of a trunk VLAN is `vlan.mode`;
* a Python set is a list without repetitions; the arbitrary choice `list(set)[0]` is a parameter (a function of the
  list), as is `sorted`;
* prefixes are opaque; other attributes of links, VLANs and interfaces are left out;
* errors are counted; `log.fatal` counts as an error.
-/

namespace Netlab

/-- Forwarding modes: `netsim/modules/vlan.py:15` (`vlan_mode_kwd`) -/
inductive VMode where
  | bridge
  | irb
  | route
deriving DecidableEq, Repr

/-- The `vlan` dictionary of a link or an interface (`netsim/modules/vlan.py:17-22`).  A trunk is a dictionary of VLANs;
the value is the `vlan.mode` attribute of the VLAN in that trunk (`netsim/modules/vlan.py:623-629`). -/
structure VlanAttr where
  access : Option String := none
  native : Option String := none
  mode : Option VMode := none
  trunk : Option (List (String × Option VMode)) := none
deriving DecidableEq, Repr

/-- An interface of a link; `fwd` is the attribute `_vlan_mode`, `noIp` says that `ipv4` and `ipv6` are set to `False`:
`netsim/modules/vlan.py:525-529`, `631-635`. -/
structure VIf where
  node : String
  vlan : Option VlanAttr := none
  fwd : Option VMode := none
  noIp : Bool := false
deriving DecidableEq, Repr

/-- The `prefix` attribute of a link: not set, no IP addressing (`{}`), or a prefix; `netsim/modules/vlan.py:433-434`,
`566-570`. -/
inductive VPrefix where
  | auto
  | off
  | net (p : String)
deriving DecidableEq, Repr

/-- A link; `parent` is the index of the trunk link of a VLAN member link, `addressed` says that the user set `role`,
`prefix` or `pool` (`netsim/modules/vlan.py:567`). -/
structure VLink where
  parent : Option Int := none
  index : Int := 0
  vlan : Option VlanAttr := none
  ifs : List VIf := []
  pfx : VPrefix := .auto
  addressed : Bool := false
  vlanName : Option String := none
deriving DecidableEq, Repr

/-- The attributes of a VLAN definition used here: `netsim/modules/vlan.py:432-437`, `510-520`. -/
structure VlanDef where
  mode : Option VMode := none
  pfx : Option String := none
deriving DecidableEq, Repr

/-- A node: does it use the VLAN module, `vlan.mode` and `vlans` (`netsim/modules/vlan.py:510-520`, `1313-1317`). -/
structure VNode where
  aware : Bool := false
  mode : Option VMode := none
  vlans : List (String × VlanDef) := []
deriving DecidableEq, Repr

/-- The topology: `vlan.mode`, `vlans`, and `nodes` (`netsim/modules/vlan.py:510-520`). -/
structure VTopo where
  mode : Option VMode := none
  vlans : List (String × VlanDef) := []
  node : String → VNode

/-- Is this a global VLAN?  `netsim/modules/vlan.py:205` -/
def VTopo.isGlobal (t : VTopo) (v : String) : Bool := (t.vlans.lookup v).isSome

/-- Is this a VLAN of a node?  `netsim/modules/vlan.py:208` -/
def VTopo.isLocal (t : VTopo) (n v : String) : Bool := ((t.node n).vlans.lookup v).isSome

/-! ### Collection of VLAN attributes -/

/-- Link attributes with VLAN names: `netsim/modules/vlan.py:17-22`. -/
inductive VKind where
  | access
  | native
  | trunk
deriving DecidableEq, Repr

/-- The names in an attribute: `netsim/modules/vlan.py:192`. -/
def VlanAttr.names (a : VlanAttr) : VKind → Option (List String)
  | .access => a.access.map ([·])
  | .native => a.native.map ([·])
  | .trunk => a.trunk.map (·.map (·.1))

/-- An element of the `v_attr` dictionary: `netsim/modules/vlan.py:193-198`; the set is `list.eraseDups`. -/
structure VColl where
  list : List String := []
  glob : List String := []
  nodes : List String := []
deriving DecidableEq, Repr

/-- The `v_attr` dictionary: `netsim/modules/vlan.py:1300`. -/
abbrev VColls := VKind → Option VColl

/-- One VLAN attribute of the link (`owner = none`) or of an interface of the node `owner`: `netsim/modules/vlan.py:192-216`.
The result is the updated dictionary and the number of undefined VLANs. -/
def collectAttr (t : VTopo) (owner : Option String) (k : VKind) (names : List String) (s : VColls) : VColls × Nat :=
  let c := (s k).getD {}
  let loc := names.filter fun v => !t.isGlobal v && match owner with
    | some n => t.isLocal n v
    | none => false
  let bad := names.filter fun v => !t.isGlobal v && match owner with
    | some n => !t.isLocal n v
    | none => true
  let nodes := match owner with
    | some n => if loc.isEmpty || c.nodes.contains n then c.nodes else c.nodes ++ [n]
    | none => c.nodes
  (fun k' => if k' = k then
      some {
        list := c.list ++ names
        glob := c.glob ++ names.filter t.isGlobal
        nodes := nodes }
    else s k', bad.length)

/-- The attribute, if it is there: `netsim/modules/vlan.py:168-170`. -/
def collectKind (t : VTopo) (owner : Option String) (a : VlanAttr) (s : VColls × Nat) (k : VKind) : VColls × Nat :=
  match a.names k with
  | none => s
  | some names => ((collectAttr t owner k names s.1).1, s.2 + (collectAttr t owner k names s.1).2)

/-- `check_link_vlan_attributes`: `netsim/modules/vlan.py:144-218`. -/
def collectObj (t : VTopo) (owner : Option String) (a : Option VlanAttr) (s : VColls) : VColls × Nat :=
  match a with
  | none => (s, 0)
  | some a => [VKind.access, .native, .trunk].foldl (collectKind t owner a) (s, 0)

/-- The loop over interfaces stops doing anything after an error: `netsim/modules/vlan.py:1303-1304`. -/
def collectIfs (t : VTopo) : List VIf → VColls × Nat → VColls × Nat
  | [], s => s
  | i :: r, s => if s.2 = 0 then collectIfs t r (collectObj t (some i.node) i.vlan s.1) else s

/-- Attributes of the link and of all interfaces: `netsim/modules/vlan.py:1300-1304`. -/
def collectLink (t : VTopo) (l : VLink) : VColls × Nat :=
  collectIfs t l.ifs (collectObj t none l.vlan fun _ => none)

/-! ### Checks -/

/-- `get_effective_module_attribute('vlan.trunk',...)`: the names in the merged dictionary, or `none` if both dictionaries
are missing or empty: `netsim/modules/__init__.py:424-447`. -/
def effTrunk (i l : Option VlanAttr) : Option (List String) :=
  match ((i.bind (·.names .trunk)).getD []) ++ ((l.bind (·.names .trunk)).getD []) with
  | [] => none
  | names => some names

/-- `get_effective_module_attribute('vlan.native',...)`: `netsim/modules/__init__.py:424-447`. -/
def effNative (i l : Option VlanAttr) : Option String := ((i.bind (·.native)).or (l.bind (·.native)))

/-- Native VLAN check of one interface: `netsim/modules/vlan.py:296-321`; `first` is the first native VLAN of the link. -/
def nativeCheck (l : Option VlanAttr) (first : String) (i : VIf) : VIf × Nat :=
  match i.vlan with
  | none => (i, 0)
  | some a =>
    match effNative (some a) l, effTrunk (some a) l with
    | some _, none => (i, 1)
    | some n, some tr => if tr.contains n then (i, 0) else (i, 1)
    | none, none => (i, 0)
    | none, some tr => if tr.contains first then (i, 1) else ({ i with noIp := true }, 0)

/-- `validate_link_vlan_attributes`: `netsim/modules/vlan.py:227-322`; `none` means that the function returned `False` (after
an error).  The loop in lines 263-287 does nothing because the test `'vlan' in v_attr` is never true. -/
def validateAttrs (l : VLink) (s : VColls) : Option (List VIf × Nat) :=
  if (s .trunk).isSome && (s .access).isSome then none
  else if (s .native).isSome && (s .trunk).isNone then none
  else if ((((s .access).getD {}).glob).eraseDups).length > 1 then none
  else
    match s .native, s .trunk with
    | some n, some tr =>
      if n.list.any tr.list.contains then
        some ((l.ifs.map (nativeCheck l.vlan (n.list.headD ""))).map (·.1),
          ((l.ifs.map (nativeCheck l.vlan (n.list.headD ""))).map (·.2)).sum)
      else some (l.ifs, 1)
    | _, _ => some (l.ifs, 0)

/-- Merge trunk dictionaries (`link.vlan + intf.vlan`): `netsim/modules/vlan.py:1317`. -/
def mergeTrunk (l i : List (String × Option VMode)) : List (String × Option VMode) :=
  (l.map fun e => (e.1, ((i.lookup e.1).getD none).or e.2)) ++ i.filter fun e => (l.lookup e.1).isNone

/-- `link.vlan + intf.vlan`: `netsim/modules/vlan.py:1317`. -/
def mergeAttr (l i : VlanAttr) : VlanAttr where
  access := i.access.or l.access
  native := i.native.or l.native
  mode := i.mode.or l.mode
  trunk := match l.trunk, i.trunk with
    | some a, some b => some (mergeTrunk a b)
    | a, b => b.or a

/-- Merge link attributes into the interfaces of VLAN-aware nodes: `netsim/modules/vlan.py:1313-1317`. -/
def mergeIf (t : VTopo) (l : VLink) (i : VIf) : VIf :=
  match l.vlan with
  | none => i
  | some a => if (t.node i.node).aware then { i with vlan := some (mergeAttr a (i.vlan.getD {})) } else i

/-- The trunk VLANs of an interface: `netsim/modules/vlan.py:401`, `411`, `660`. -/
def VIf.trunk (i : VIf) : List String := ((i.vlan.bind (·.trunk)).getD []).map (·.1)

/-- The native VLAN of an interface: `netsim/modules/vlan.py:379`, `418`. -/
def VIf.native (i : VIf) : Option String := i.vlan.bind (·.native)

/-- Errors in the trunk of one interface, `others` are the other interfaces: `netsim/modules/vlan.py:394-425`. -/
def trunkErrors (needsNative : Bool) (others : List VIf) (i : VIf) : Nat :=
  match i.vlan with
  | none => 0
  | some a =>
    match a.trunk with
    | none => 1
    | some _ => (i.trunk.filter fun v =>
        !(others.any fun o => o.trunk.contains v) && !(i.native == some v && needsNative)).length

/-- The loop over interfaces; `pre` are the interfaces before the current one: `netsim/modules/vlan.py:394-425`. -/
def trunkLoop (needsNative : Bool) (pre : List VIf) : List VIf → Nat
  | [] => 0
  | i :: r => trunkErrors needsNative (pre ++ r) i + trunkLoop needsNative (pre ++ [i]) r

/-- `validate_trunk_vlan_list`: `netsim/modules/vlan.py:377-427`. -/
def trunkCheck (ifs : List VIf) : Nat :=
  if (ifs.any fun i => i.vlan.isNone) && !(ifs.any fun i => i.native.isSome) then 1
  else trunkLoop (ifs.any fun i => i.vlan.isNone) [] ifs

/-! ### Forwarding mode -/

/-- `compute_interface_vlan_mode`: `netsim/modules/vlan.py:510-520`. -/
def ifMode (t : VTopo) (i : VIf) : VMode :=
  match ((i.vlan.bind (·.access)).or (i.vlan.bind (·.native))) with
  | none => .irb
  | some v =>
    ((((((i.fwd.or (i.vlan.bind (·.mode))).or (((t.node i.node).vlans.lookup v).bind (·.mode))).or (t.node i.node).mode).or
      ((t.vlans.lookup v).bind (·.mode))).or t.mode).getD .irb)

/-- `set_access_vlan_interface_mode`: `netsim/modules/vlan.py:525-529`. -/
def setFwd (t : VTopo) (i : VIf) : VIf := if i.vlan.isSome then { i with fwd := some (ifMode t i) } else i

/-- `routed_access_vlan`: `netsim/modules/vlan.py:35-48`. -/
def routedAccess (ifs : List VIf) : Bool :=
  (ifs.any fun i => i.fwd.isSome) && ifs.all fun i => match i.fwd with
    | some m => m = .route
    | none => true

/-- `intf.vlan.mode = 'route'` for interfaces with VLAN attributes: `netsim/modules/vlan.py:1347-1349`, `677-678`. -/
def setRoute (i : VIf) : VIf :=
  match i.vlan with
  | none => i
  | some a => { i with vlan := some { a with mode := some .route } }

/-! ### VLAN member links -/

/-- `create_vlan_member_interface`: `netsim/modules/vlan.py:616-637`; `m` is the `vlan.mode` of the VLAN in the trunk. -/
def memberIf (t : VTopo) (v : String) (m : Option VMode) (i : VIf) : VIf :=
  let j : VIf := {
    node := i.node
    vlan := some {
      access := some v
      mode := m.or (i.vlan.bind (·.mode)) } }
  { j with fwd := some (ifMode t j), noIp := ifMode t j = .bridge }

/-- The member interface of an interface that carries the VLAN: `netsim/modules/vlan.py:660-661`. -/
def memberOf (t : VTopo) (v : String) (i : VIf) : Option VIf :=
  (((i.vlan.bind (·.trunk)).getD []).lookup v).map fun m => memberIf t v m i

/-- Prefix of the member link: `netsim/modules/vlan.py:654-668`. -/
def memberPrefix (t : VTopo) (v : String) (ifs : List VIf) : Option String :=
  ifs.foldl (fun p i => match p with
    | some p => some p
    | none => if i.fwd = some .bridge then none else ((t.node i.node).vlans.lookup v).bind (·.pfx))
    ((t.vlans.lookup v).bind (·.pfx))

/-- The member link of one VLAN: `netsim/modules/vlan.py:649-682`. -/
def memberLink (t : VTopo) (l : VLink) (v : String) : VLink :=
  let ifs := l.ifs.filterMap (memberOf t v)
  if routedAccess ifs then {
    parent := some l.index
    vlan := some {
      access := some v
      mode := some .route }
    ifs := ifs.map setRoute
    vlanName := some v }
  else {
    parent := some l.index
    vlan := some { access := some v }
    ifs := ifs
    pfx := match memberPrefix t v ifs with
      | some p => .net p
      | none => .auto
    vlanName := some v }

/-- `create_vlan_links`: `netsim/modules/vlan.py:642-682`. -/
def memberLinks (t : VTopo) (sort : List String → List String) (l : VLink) (s : VColls) : List VLink :=
  ((sort ((((s .trunk).getD {}).list).eraseDups)).filter fun v =>
    some v ≠ (s .native).bind (·.list.head?)).map (memberLink t l)

/-! ### Access and native VLANs -/

/-- `get_link_access_vlan`: `netsim/modules/vlan.py:442-451`; `pick` is the choice `list(set)[0]`. -/
def accessVlan (pick : List String → Option String) (s : VColls) : Option String :=
  match (s .access).bind fun c => pick c.list.eraseDups with
  | some v => some v
  | none => (s .native).bind fun c => pick c.list.eraseDups

/-- `copy_vlan_attributes`: `netsim/modules/vlan.py:432-437`. -/
def copyVlan (v : String) (d : VlanDef) (l : VLink) : VLink :=
  { l with
    pfx := match d.pfx with
      | some p => .net p
      | none => l.pfx
    vlanName := some v }

/-- The end of `set_link_vlan_prefix` for the access or native VLAN: `netsim/modules/vlan.py:572-584`. -/
def vlanPrefix (t : VTopo) (pick : List String → Option String) (c : VColl) (l : VLink) : VLink × Nat :=
  match pick c.list.eraseDups with
  | none => (l, 0)
  | some v =>
    match t.vlans.lookup v with
    | some d => (copyVlan v d l, 0)
    | none =>
      match pick c.nodes with
      | none => (l, 1)
      | some n => (copyVlan v (((t.node n).vlans.lookup v).getD {}) l, 0)

/-- `set_link_vlan_prefix`: `netsim/modules/vlan.py:556-584`. -/
def setPrefix (t : VTopo) (pick : List String → Option String) (s : VColls) (l : VLink) : VLink × Nat :=
  match s .access, s .native, s .trunk with
  | some c, _, _ => vlanPrefix t pick c l
  | none, some c, _ => vlanPrefix t pick c l
  | none, none, some _ => (if l.addressed then l else { l with pfx := .off }, 0)
  | none, none, none => (l, 0)

/-- Disable IP addressing on bridged interfaces: `netsim/modules/vlan.py:1354-1360`. -/
def disableIp (t : VTopo) (i : VIf) : VIf :=
  if (t.node i.node).aware && i.fwd = some .bridge then { i with noIp := true } else i

/-- Access or native VLAN of the link: `netsim/modules/vlan.py:1328-1360`. -/
def accessPart (t : VTopo) (pick : List String → Option String) (s : VColls) (l : VLink) : VLink × Nat :=
  match accessVlan pick s with
  | none => setPrefix t pick s l
  | some _ =>
    let ifs := l.ifs.map (setFwd t)
    if routedAccess ifs then
      ({ l with
          vlan := some { l.vlan.getD {} with mode := some .route }
          ifs := (ifs.map setRoute).map (disableIp t) }, 0)
    else
      let r := setPrefix t pick s { l with ifs := ifs }
      ({ r.1 with ifs := r.1.ifs.map (disableIp t) }, r.2)

/-! ### The link -/

/-- The result of `link_pre_transform`: the link, new VLAN member links and the number of errors;
`netsim/modules/vlan.py:1296-1360`. -/
structure VlanResult where
  link : VLink
  members : List VLink := []
  errors : Nat
deriving DecidableEq, Repr

/-- `link_pre_transform` (`netsim/modules/vlan.py:1296-1360`) for links other than VLAN member links. -/
def vlanLink (t : VTopo) (sort : List String → List String) (pick : List String → Option String) (l : VLink) :
    VlanResult :=
  let c := collectLink t l
  if c.2 ≠ 0 then { link := l, errors := c.2 }
  else
    match validateAttrs l c.1 with
    | none => { link := l, errors := 1 }
    | some (ifs, e) =>
      let l1 := { l with ifs := ifs.map (mergeIf t l) }
      if (c.1 .trunk).isSome && trunkCheck l1.ifs ≠ 0 then { link := l1, errors := e + trunkCheck l1.ifs }
      else
        let r := accessPart t pick c.1 l1
        {
          link := r.1
          members := if (c.1 .trunk).isSome then memberLinks t sort l1 c.1 else []
          errors := e + r.2 }

end Netlab
