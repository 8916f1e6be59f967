import Verif.Model.Box
import Verif.Model.Links
/-!
# EBGP multihop sessions (`netsim/extra/ebgp.multihop/plugin.py`)

Values of attributes, addresses and names are strings.  Validation of attributes
(`netsim/extra/ebgp.multihop/plugin.py:46-54` and `netsim/extra/ebgp.multihop/plugin.py:64-72`) and the parsing of
`bgp.multihop.sessions` (`adjust_link_list`) are left out.
-/

namespace Netlab

/-- The body of the loops in `netsim/extra/ebgp.multihop/plugin.py:35-40` and `netsim/extra/ebgp.multihop/plugin.py:58-62`:
an attribute is moved into the `bgp` dictionary unless it is in the list `skip`. -/
def moveAttr {β : Type} (skip : List String) (st : List (String × β) × List (String × β)) (a : String) :
    List (String × β) × List (String × β) :=
  if skip.contains a then st
  else match st.1.lookup a with
    | some v => (popKey st.1 a, setKey st.2 a v)
    | none => st

/-- Attributes are moved into the `bgp` dictionary with the exception of the attributes in `skip`
(`netsim/extra/ebgp.multihop/plugin.py:35-40` and `netsim/extra/ebgp.multihop/plugin.py:58-62`).  The result are
the remaining attributes and the `bgp` dictionary.  The `bgp` dictionary is not an element of `d`. -/
def moveToBgp {β : Type} (skip : List String) (d bgp : List (String × β)) : List (String × β) × List (String × β) :=
  (d.map (·.1)).foldl (moveAttr skip) (d, bgp)

/-- An end of a session before the transformation (`netsim/extra/ebgp.multihop/plugin.py:56-86`): the node, the VRF, other
attributes and attributes in the `bgp` dictionary -/
structure MhEnd where
  node : String
  vrf : Option String := none
  attrs : List (String × String) := []
  bgp : List (String × String) := []
  deriving Repr, DecidableEq

/-- A session before the transformation (`netsim/extra/ebgp.multihop/plugin.py:34-43`) -/
structure MhSession where
  vrf : Option String := none
  attrs : List (String × String) := []
  bgp : List (String × String) := []
  ends : List MhEnd := []
  deriving Repr, DecidableEq

/-- An interface of the link created for a session (`netsim/extra/ebgp.multihop/plugin.py:78-86`): `vrf` is also the value of
`bgp._vrf` -/
structure MhLinkEnd where
  node : String
  vrf : Option String
  bgp : List (String × String)
  ipv4 : Option String
  ipv6 : Option String
  multihop : Option Nat
  ifname : Option String
  fake : Bool
  deriving Repr, DecidableEq

/-- The link created for a session (`netsim/extra/ebgp.multihop/plugin.py:42-44`) -/
structure MhLink where
  type : String
  index : Int
  vrf : Option String
  bgp : List (String × String)
  ends : List MhLinkEnd
  deriving Repr, DecidableEq

/-- `netsim/extra/ebgp.multihop/plugin.py:56-86`: `lo` is the loopback of the node (IPv4 and IPv6 addresses), `none` if the
node has no loopback.  The second result is the number of errors. -/
def mhEnd (lo : String → Option (Option String × Option String)) (idx : Int) (e : MhEnd) : MhLinkEnd × Nat :=
  let b := (moveToBgp ["node", "bgp", "vrf"] e.attrs e.bgp).2
  match lo e.node with
  | none => ({ node := e.node, vrf := e.vrf, bgp := b, ipv4 := none, ipv6 := none, multihop := none, ifname := none, fake := false }, 1)
  | some l => ({ node := e.node, vrf := e.vrf, bgp := b, ipv4 := l.1, ipv6 := l.2, multihop := some 255,
                 ifname := some ("_ebgp_multihop_" ++ toString idx), fake := true }, 0)

/-- `netsim/extra/ebgp.multihop/plugin.py:34-86` for one session; `idx` is the result of `get_next_linkindex` -/
def mhLink (lo : String → Option (Option String × Option String)) (idx : Int) (s : MhSession) : MhLink × Nat :=
  let l := s.ends.map (mhEnd lo idx)
  ({ type := "tunnel", index := idx, vrf := s.vrf,
     bgp := (moveToBgp ["interfaces", "_linkname", "bgp", "vrf"] s.attrs s.bgp).2,
     ends := l.map (·.1) }, (l.map (·.2)).sum)

/-- `netsim/extra/ebgp.multihop/plugin.py:25-88` (`pre_link_transform`): `links` are indices of existing links.  The links
are added to the topology after all sessions were processed, and so all sessions get the same index.  Result: links of
the sessions, indices of all links, number of errors. -/
def mhPreLink (lo : String → Option (Option String × Option String)) (start : Int) (links : List Int) (ss : List MhSession) :
    List MhLink × List Int × Nat :=
  let r := ss.map (mhLink lo (nextLinkindex start links))
  (r.map (·.1), links ++ r.map (·.1.index), (r.map (·.2)).sum)

/-- An interface of a node (`netsim/modules/vrf.py:375-384`, `netsim/extra/ebgp.multihop/plugin.py:143`); `fake` is the
`_bgp_session` flag -/
structure MhIf where
  ifname : String
  type : String := ""
  vrf : Option String := none
  ipv4 : Option String := none
  ipv6 : Option String := none
  fake : Bool := false
  deriving Repr, DecidableEq

/-- A BGP neighbor (`netsim/extra/ebgp.multihop/plugin.py:168-202`): `vrf` is `_vrf` (the VRF on the other end), `srcVrf` is
`_src_vrf`, `activate` the `activate` dictionary and `flags` the attributes with names of address families -/
structure MhNgb where
  name : String
  type : String
  multihop : Option Nat := none
  vrf : Option String := none
  srcVrf : Option String := none
  ipv4 : Option String := none
  ipv6 : Option String := none
  activate : List (String × String) := []
  flags : List (String × String) := []
  source : Option MhIf := none
  deriving Repr, DecidableEq

/-- VRF of a node: neighbors and interfaces in `ospf` (`netsim/extra/ebgp.multihop/plugin.py:152-155`) -/
structure MhVrf where
  ngbs : List MhNgb := []
  ospf : Option (List MhIf) := none
  deriving Repr, DecidableEq

/-- A node (`netsim/extra/ebgp.multihop/plugin.py:150-202`): `supp` and `suppVrf` are the device features `bgp.multihop` (is
it true?) and `bgp.multihop.vrf`, `suppAf` the feature `bgp.activate_af`; `activate` is `bgp.multihop.activate` (lists for
IPv4 and IPv6 sessions). -/
structure MhNode where
  name : String
  loopback : Option MhIf := none
  ifs : List MhIf := []
  ngbs : List MhNgb := []
  vrfs : List (String × MhVrf) := []
  config : List String := []
  supp : Bool := true
  suppVrf : Bool := true
  suppAf : Bool := true
  activate : Option (List String × List String) := none
  deriving Repr, DecidableEq

/-- `netsim/modules/vrf.py:375-384` (`get_vrf_loopback`) -/
def vrfLoopback (n : MhNode) (v : String) : Option MhIf :=
  n.ifs.find? (fun i => i.type == "loopback" && i.vrf == some v)

/-- `select=['ebgp','localas_ibgp']` in `netsim/extra/ebgp.multihop/plugin.py:170` and
`netsim/extra/ebgp.multihop/plugin.py:125` -/
def mhSelected (g : MhNgb) : Bool := g.type == "ebgp" || g.type == "localas_ibgp"

/-- `netsim/extra/ebgp.multihop/plugin.py:182-202`: the source interface of a session.  The second result is the number
of errors. -/
def mhSource (n : MhNode) (g : MhNgb) : MhNgb × Nat :=
  match g.srcVrf with
  | none => ({ g with source := n.loopback }, 0)
  | some v =>
    if !n.suppVrf then (g, 1)
    else match vrfLoopback n v with
      | none => (g, 1)
      | some l => ({ g with source := some l }, 0)

/-- The body of the loop in `netsim/extra/ebgp.multihop/plugin.py:170-202`.  `topo` returns the data of a node, `ip` is the
address part of an interface address (`str(ipaddress.ip_interface(x).ip)`).  The second result is the number of errors. -/
def mhFix (ip : String → String) (topo : String → Option MhNode) (n : MhNode) (g : MhNgb) : MhNgb × Nat :=
  if g.multihop.getD 0 = 0 then (g, 0)
  else match g.vrf with
    | none => mhSource n g
    | some v =>
      match (topo g.name).bind (fun m => vrfLoopback m v) with
      | none => (g, 0)
      | some l => mhSource n { g with ipv4 := l.ipv4.map ip, ipv6 := l.ipv6.map ip }

/-- Neighbors in a VRF selected by the generator get the attribute `_src_vrf` (`netsim/utils/routing.py:48-52`). -/
def mhFixVrf (ip : String → String) (topo : String → Option MhNode) (n : MhNode) (v : String) (g : MhNgb) : MhNgb × Nat :=
  if mhSelected g then mhFix ip topo n { g with srcVrf := some v } else (g, 0)

/-- Neighbors in the global routing table (`netsim/utils/routing.py:41-43`) -/
def mhFixGlob (ip : String → String) (topo : String → Option MhNode) (n : MhNode) (g : MhNgb) : MhNgb × Nat :=
  if mhSelected g then mhFix ip topo n g else (g, 0)

/-- `netsim/extra/ebgp.multihop/plugin.py:168-202` (`fix_vrf_loopbacks`) -/
def mhFixNode (ip : String → String) (topo : String → Option MhNode) (n : MhNode) : MhNode × Nat :=
  let g := n.ngbs.map (mhFixGlob ip topo n)
  let v := n.vrfs.map (fun p => (p.1, p.2, p.2.ngbs.map (mhFixVrf ip topo n p.1)))
  ({ n with ngbs := g.map (·.1), vrfs := v.map (fun p => (p.1, { p.2.1 with ngbs := p.2.2.map (·.1) })) },
   (g.map (·.2)).sum + (v.map (fun p => (p.2.2.map (·.2)).sum)).sum)

/-- The innermost loop in `netsim/extra/ebgp.multihop/plugin.py:131-136`: `set` is `af_set[af]` -/
def mhActivateAf (valid set : List String) (g : MhNgb) : MhNgb :=
  valid.foldl
    (fun g a =>
      if a == "ipv4" || a == "ipv6" then
        { g with activate := if set.contains a then setKey g.activate a "True" else popKey g.activate a }
      else
        { g with flags := if set.contains a then setKey g.flags a "True" else popKey g.flags a })
    g

/-- The body of the loop in `netsim/extra/ebgp.multihop/plugin.py:125-136`; `valid` are the valid values of
`bgp.multihop.activate.ipv4` and `bgp.multihop.activate.ipv6` -/
def mhActivate (valid set : List String × List String) (g : MhNgb) : MhNgb :=
  if mhSelected g && g.multihop.isSome then
    let g := if g.ipv4.isSome then mhActivateAf valid.1 set.1 g else g
    if g.ipv6.isSome then mhActivateAf valid.2 set.2 g else g
  else g

/-- `netsim/extra/ebgp.multihop/plugin.py:141-145` (`remove_fake_interfaces`) -/
def mhReal (l : List MhIf) : List MhIf := l.filter (fun i => !i.fake)

/-- `netsim/extra/ebgp.multihop/plugin.py:150-160` (`cleanup_interfaces`) with `check_multihop_support`
(`netsim/extra/ebgp.multihop/plugin.py:93-100`), `check_af_activation_support`
(`netsim/extra/ebgp.multihop/plugin.py:105-112`) and `augment_af_activation`
(`netsim/extra/ebgp.multihop/plugin.py:117-136`); `glob` is the global value of `bgp.multihop.activate`. -/
def mhCleanup (valid : List String × List String) (glob : Option (List String × List String)) (n : MhNode) : MhNode × Nat :=
  let changed := (mhReal n.ifs).length != n.ifs.length ||
    n.vrfs.any (fun v => v.2.ospf.any (fun l => (mhReal l).length != l.length))
  let m := { n with ifs := mhReal n.ifs, vrfs := n.vrfs.map (fun v => (v.1, { v.2 with ospf := v.2.ospf.map mhReal })) }
  if !changed then (m, 0)
  else
    let e := if n.supp then 0 else 1
    let m := { m with config := if m.config.contains "ebgp.multihop" then m.config else m.config ++ ["ebgp.multihop"] }
    match n.activate.or glob with
    | none => (m, e)
    | some s =>
      ({ m with ngbs := m.ngbs.map (mhActivate valid s)
                vrfs := m.vrfs.map (fun v => (v.1, { v.2 with ngbs := v.2.ngbs.map (mhActivate valid s) })) },
       e + if n.suppAf then 0 else 1)

/-- The body of the loop in `netsim/extra/ebgp.multihop/plugin.py:213-215` -/
def mhNode (ip : String → String) (valid : List String × List String) (glob : Option (List String × List String))
    (topo : String → Option MhNode) (n : MhNode) : MhNode × Nat :=
  let a := mhFixNode ip topo n
  let b := mhCleanup valid glob a.1
  (b.1, a.2 + b.2)

/-- Data of a node in the topology (`topology.nodes[name]`, `netsim/extra/ebgp.multihop/plugin.py:174`) -/
def mhFind (t : List MhNode) (x : String) : Option MhNode := t.find? (fun n => n.name == x)

/-- The loop in `netsim/extra/ebgp.multihop/plugin.py:213-215`: nodes in `done` were already changed. -/
def mhLoop (ip : String → String) (valid : List String × List String) (glob : Option (List String × List String)) :
    List MhNode → List MhNode → List MhNode × Nat
  | done, [] => (done, 0)
  | done, n :: r =>
    let x := mhNode ip valid glob (mhFind (done ++ n :: r)) n
    let y := mhLoop ip valid glob (done ++ [x.1]) r
    (y.1, x.2 + y.2)

/-- `netsim/extra/ebgp.multihop/plugin.py:211-217` (`post_transform`) without the list of links -/
def mhPost (ip : String → String) (valid : List String × List String) (glob : Option (List String × List String))
    (t : List MhNode) : List MhNode × Nat :=
  mhLoop ip valid glob [] t

end Netlab
