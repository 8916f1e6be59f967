import Verif.Model.Box
/-!
# Small plugins (`netsim/extra`)

* `bonding`: the names of interfaces in neighbor data are modelled separately (`bdPeerName`, `bdRename`).
* `check.config`: the text of warnings and the way they're combined are not modelled.
* `multilab`: evaluation of format strings is a parameter.
* `mlag.vtep`: addresses taken from the address pools are a parameter.
-/

namespace Netlab

/-- An interface (`netsim/extra/bonding/plugin.py:69-99`): `bond` is `bonding.ifindex`, `virt` tells it's a virtual interface, `attrs` are all other attributes, `nbrs` are names and interfaces of
neighbors, `l2` is set when `prefix` is changed to `False`. -/
structure BdIntf where
  ifname : String
  ifindex : Nat
  linkindex : Nat
  bond : Option Nat := none
  mode : Option String := none
  primary : Bool := false
  virt : Bool := false
  attrs : List (String × Val) := []
  nbrs : List (String × String) := []
  l2 : Bool := false
  deriving DecidableEq

/-- A bond (`netsim/extra/bonding/plugin.py:91-97`) -/
structure Bond where
  members : List String
  mode : String
  attrs : List (String × Val)
  primary : Option String
  nbrs : List (String × String)
  deriving DecidableEq

/-- `netsim/extra/bonding/plugin.py:9` (`ATTS_TO_MOVE`) -/
def bdMove : List String := ["ipv4", "ipv6", "vlan", "_vlan_mode", "vlan_name", "gateway"]

/-- A new bond or one more member (`netsim/extra/bonding/plugin.py:86-97`) -/
def bdJoin (topMode : String) (i : BdIntf) : Option Bond → Bond
  | some x => { x with members := x.members ++ [i.ifname], primary := if i.primary then some i.ifname else x.primary }
  | none => { members := [i.ifname], mode := i.mode.getD topMode, attrs := i.attrs.filter (fun a => bdMove.contains a.1), primary := if i.primary then some i.ifname else none, nbrs := i.nbrs }

/-- One interface in `netsim/extra/bonding/plugin.py:73-99` (`post_link_transform`) with the checks in `netsim/extra/bonding/plugin.py:43-47` (`update_neighbors`): the interface, the bonds of the node,
and the number of errors.  `count` is the number of nodes on a link; `none`: the link doesn't exist (a crash). -/
def bdIntf (support : Bool) (count : Nat → Option Nat) (topMode : String) (s : List (Nat × Bond)) (i : BdIntf) : Option (BdIntf × List (Nat × Bond) × Nat) :=
  match i.bond with
  | none => some (i, s, 0)
  | some b =>
    if !support then some (i, s, 1)
    else match count i.linkindex with
      | none => none
      | some c =>
        if i.virt || c != 2 then some (i, s, 1)
        else
          let i' := { i with attrs := i.attrs.filter (fun a => !bdMove.contains a.1), l2 := true }
          match s.lookup b with
          | some x => some (i', s.map (fun p => if p.1 = b then (b, bdJoin topMode i (some x)) else p), 0)
          | none => some (i', s ++ [(b, bdJoin topMode i none)], 0)

/-- The loop over interfaces of a node (`netsim/extra/bonding/plugin.py:75-99`) -/
def bdIntfs (support : Bool) (count : Nat → Option Nat) (topMode : String) : List (Nat × Bond) → List BdIntf → Option (List BdIntf × List (Nat × Bond) × Nat)
  | s, [] => some ([], s, 0)
  | s, i :: r =>
    match bdIntf support count topMode s i with
    | none => none
    | some (i', s', e) => (bdIntfs support count topMode s' r).map (fun x => (i' :: x.1, x.2.1, e + x.2.2))

/-- Interfaces created in `netsim/extra/bonding/plugin.py:14-37` (`add_bond_interfaces`): name, interface index, bond.  `fmt` evaluates the format of the interface name. -/
def bdAdd (fmt : Nat → String) : Nat → List (Nat × Bond) → List (String × Nat × Bond)
  | _, [] => []
  | c, (b, x) :: r => (fmt b, 50000 + c, x) :: bdAdd fmt (c + 1) r

/-- The name of the bond interface in the data of neighbors (`netsim/extra/bonding/plugin.py:50-51`): the format is evaluated with data of the member interface. -/
def bdPeerName (fmt : Nat → String) (i : BdIntf) : String := fmt i.ifindex

/-- Neighbors of an interface of the other node (`netsim/extra/bonding/plugin.py:56-60`) -/
def bdRename (node name : String) (nbrs : List (String × String)) : List (String × String) := nbrs.map (fun n => if n.1 = node then (n.1, name) else n)

/-- A loopback link (`netsim/extra/bgp.originate/plugin.py:26-41`): name, node, link index, prefixes, is it advertised? -/
structure BoLink where
  name : String
  node : String
  linkindex : Nat
  ipv4 : Option String
  ipv6 : Option String
  advertise : Bool
  deriving DecidableEq

/-- The loop in `netsim/extra/bgp.originate/plugin.py:25-41`; `idx` is the result of `get_next_linkindex`, `n` the position of the entry -/
def boLinks (node : String) : Nat → Nat → List (Option String × Option String) → List BoLink
  | _, _, [] => []
  | idx, n, (v4, v6) :: r =>
    { name := "BGP originate #" ++ toString (n + 1), node := node, linkindex := idx, ipv4 := v4, ipv6 := v6, advertise := v4.isSome || v6.isSome } :: boLinks node (idx + 1) (n + 1) r

/-- `netsim/extra/bgp.originate/plugin.py:17-43` (`post_node_transform`): nodes (name, does it run BGP, originate list) -/
def boAll : Nat → List (String × Bool × List (Option String × Option String)) → List BoLink
  | _, [] => []
  | idx, (n, bgp, l) :: r => if bgp then boLinks n idx 0 l ++ boAll (idx + l.length) r else boAll idx r

/-- An interface in `netsim/extra/proxy-arp/plugin.py:26-30` -/
structure PaIntf where
  type : String
  vrf : Option String := none
  ipv4 : Bool := false
  ipv6 : Bool := false
  proxyArp : Bool := false
  deriving DecidableEq

/-- `netsim/extra/proxy-arp/plugin.py:28-29`; `vrfs` are VRFs with the attribute `proxy_arp` and its value. -/
def paMatch (vrfs : List (String × Option Bool)) (i : PaIntf) : Bool :=
  ["lan", "p2p", "svi"].contains i.type && (match i.vrf with | some v => (vrfs.filter (fun x => x.2.isSome)).any (fun x => x.1 == v) | none => false) && (i.ipv4 || i.ipv6)

/-- `netsim/extra/proxy-arp/plugin.py:16-31` (`post_transform`) for one node: interfaces, and is the configuration template added to the node? -/
def paNode (vrfs : List (String × Option Bool)) (intfs : List PaIntf) : List PaIntf × Bool :=
  if vrfs.isEmpty then (intfs, false)
  else (intfs.map (fun i => if paMatch vrfs i then { i with proxyArp := true } else i), intfs.any (paMatch vrfs))

/-- `netsim/extra/vrrp.version/plugin.py:24-38` (`post_transform`): nodes (name, uses the gateway module, uses VRRP, supports VRRP versions); nodes with the additional configuration and nodes in error messages -/
def vvNodes : List (String × Bool × Bool × Bool) → List String × List String
  | [] => ([], [])
  | (n, gw, vrrp, f) :: r =>
    let (c, e) := vvNodes r
    if !gw then (c, e) else if !vrrp then (c, e) else if f then (n :: c, e) else (c, n :: e)

/-- `netsim/extra/mlag.vtep/plugin.py:27-43` (`pre_link_transform`): links (is it a peer link, nodes), the result is a list of loopback links (node and its address).  `ok` tells whether the node gets the
loopback, `alloc` is the address returned by the n-th call to the address pools; `none` is a crash. -/
def mvLinks {α : Type} (ok : String → Bool) (alloc : Nat → Option α) : Nat → List (Bool × List String) → Option (List (String × α))
  | _, [] => some []
  | k, (peer, nodes) :: r =>
    if !peer then mvLinks ok alloc k r
    else match alloc k with
      | none => none
      | some a => (mvLinks ok alloc (k + 1) r).map (fun l => (nodes.filter ok).map (fun n => (n, a)) ++ l)

/-- Does a node get the loopback (`netsim/extra/mlag.vtep/plugin.py:35-37`)? -/
def mvOk (vxlan : Bool) (vtep : Option Bool) : Bool := vtep != some false && vxlan

/-- The loop over custom configurations of a node (`netsim/extra/check.config/plugin.py:21-34`, `cleanup`): the new list and the missing configurations; `found` tells whether there's a template for
the node. -/
def ckLoop (found : String → Bool) : List String → List String → List String × List String
  | [], c => (c, [])
  | f :: r, c =>
    if found f then (c, [])
    else
      let (c', m) := ckLoop found r (c.filter (fun x => x != f))
      (c', f :: m)

/-- `netsim/extra/multilab/__init__.py:13-19` (`eval_changed_parameters`); `ev` is `eval_format` -/
def mlEval (ev : String → String) : List (String × Val) → List (String × Val)
  | [] => []
  | (k, .dict d) :: r => (k, .dict (mlEval ev d)) :: mlEval ev r
  | (k, .str s) :: r => (k, if s.toList.contains '{' then .str (ev s) else .str s) :: mlEval ev r
  | (k, v) :: r => (k, v) :: mlEval ev r

/-- One changed parameter (`netsim/extra/multilab/__init__.py:29-34`) -/
def mlOne (old : Option Val) (new : Val) : Val :=
  match new, old with
  | .dict a, some (.dict b) => .dict (mergeDict b a)
  | .list a, some (.list b) => .list (b ++ a)
  | v, _ => v

/-- `netsim/extra/multilab/__init__.py:27-34` (`merge_changes`) -/
def mlMerge (t ch : List (String × Val)) : List (String × Val) := ch.foldl (fun t p => setKey t p.1 (mlOne (t.lookup p.1) p.2)) t

/-- `netsim/extra/multilab/__init__.py:43-74` (`init`): the topology and the number of errors; `mlab` is `defaults.multilab`.  Simplified: the identifier has to be an integer, values that are not
dictionaries (or integers) result in an error. -/
def mlInit (ev : Int → String → String) (t mlab : List (String × Val)) : List (String × Val) × Nat :=
  match mlab.lookup "id", mlab.lookup "change" with
  | some (.int i), some (.dict ch) => (mlMerge t (mlEval (ev i) ch), if 1 ≤ i ∧ i ≤ 200 then 0 else 1)
  | some _, some _ => (t, 1)
  | none, none => (t, 2)
  | _, _ => (t, 1)

end Netlab
