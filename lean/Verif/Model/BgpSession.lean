import Verif.Model.Box
/-!
# BGP session attributes and route servers (`netsim/extra/bgp.session/plugin.py`)

Values of attributes are numbers; zero stands for all values that are false in Python.
-/

namespace Netlab

/-- A BGP neighbor of a node (`netsim/modules/bgp.py:92-119` and `netsim/modules/bgp.py:310-345`): name of the
neighbor, type of the session, VRF, index of the local interface (EBGP only), session attributes, `rs_client`
and `_zapped` flags.  Addresses are left out. -/
structure SNgb where
  name : String
  type : String
  vrf : Option String := none
  ifindex : Option Nat := none
  attrs : List (String × Nat) := []
  rsClient : Bool := false
  zapped : Bool := false
  deriving Repr, DecidableEq

/-- An interface of a node with its BGP attributes (`netsim/extra/bgp.session/plugin.py:48-49`) -/
structure SIntf where
  ifindex : Nat
  vrf : Option String := none
  attrs : List (String × Nat) := []
  deriving Repr, DecidableEq

/-- Value of `bgp.session.apply.<type>` (`netsim/extra/bgp.session/defaults.yml:161-172`): all attributes (missing
value, `True`, or a list with a star) or a list of attributes -/
inductive SSel where
  | all
  | list (l : List String)
  deriving Repr, DecidableEq

/-- A node (`netsim/extra/bgp.session/plugin.py:244-260`): does it use BGP and BFD modules, node-level BGP attributes,
`bgp.session.apply`, interfaces and BGP neighbors (global neighbors followed by VRF neighbors) -/
structure SNode where
  name : String
  bgp : Bool := true
  bfd : Bool := false
  attrs : List (String × Nat) := []
  apply : Option (Option SSel × Option SSel) := none
  intfs : List SIntf := []
  ngbs : List SNgb := []
  deriving Repr, DecidableEq

/-- `netsim/extra/bgp.session/plugin.py:22-26` (`get_attribute_list`); `all` are `bgp.attributes.session.attr` -/
def SSel.attrs (all : List String) : SSel → List String
  | .all => all
  | .list l => l

/-- `netsim/extra/bgp.session/plugin.py:66` and `netsim/extra/bgp.session/plugin.py:69-70`: attributes applied to
IBGP sessions -/
def ibgpAttrs (all : List String) (n : SNode) : List String :=
  (((n.apply.getD (none, some .all)).1).map (SSel.attrs all)).getD []

/-- `netsim/extra/bgp.session/plugin.py:66` and `netsim/extra/bgp.session/plugin.py:77-78`: attributes applied to
EBGP sessions -/
def ebgpAttrs (all : List String) (n : SNode) : List String :=
  (((n.apply.getD (none, some .all)).2).map (SSel.attrs all)).getD []

/-- `netsim/extra/bgp.session/plugin.py:48-50`: interface value or node value -/
def sessValue (intf node : List (String × Nat)) (a : String) : Nat :=
  if (intf.lookup a).getD 0 ≠ 0 then (intf.lookup a).getD 0 else (node.lookup a).getD 0

/-- The loop body in `netsim/extra/bgp.session/plugin.py:47-57`; `supp`: does the device support the attribute
(`netsim/utils/routing.py:97-116`, at most one error) -/
def applyAttr (supp : String → Bool) (intf node : List (String × Nat)) (st : SNgb × Bool) (a : String) : SNgb × Bool :=
  let v := sessValue intf node a
  if v = 0 then st else ({ st.1 with attrs := setKey st.1.attrs a v }, st.2 && supp a)

/-- `netsim/extra/bgp.session/plugin.py:43-59` (`apply_neighbor_attributes`).  Support for attributes is checked until
the first failure. -/
def applyNgb (supp : String → Bool) (intf node : List (String × Nat)) (l : List String) (n : SNgb) : SNgb × Bool :=
  l.foldl (applyAttr supp intf node) (n, true)

/-- IBGP neighbors in `netsim/extra/bgp.session/plugin.py:68-72`: nothing is applied after the first failure. -/
def copyIbgp (supp : String → Bool) (node : List (String × Nat)) (l : List String) :
    Bool → List SNgb → List SNgb × Bool
  | ok, [] => ([], ok)
  | ok, n :: ns =>
    if n.type = "ibgp" && ok then
      let r := applyNgb supp [] node l n
      let s := copyIbgp supp node l r.2 ns
      (r.1 :: s.1, s.2)
    else
      let s := copyIbgp supp node l ok ns
      (n :: s.1, s.2)

/-- Does a neighbor belong to the interface (`netsim/utils/routing.py:56-68`)? -/
def intfMatch (i : SIntf) (n : SNgb) : Bool :=
  n.ifindex == some i.ifindex && n.vrf == i.vrf && n.type == "ebgp"

/-- `netsim/extra/bgp.session/plugin.py:77-82` for one neighbor.  The loops over interfaces and neighbors are exchanged:
pairs are handled independently of each other. -/
def copyEbgpNgb (supp : String → Bool) (node : List (String × Nat)) (l : List String) (is : List SIntf) (n : SNgb) :
    SNgb × Nat :=
  is.foldl (fun st i =>
    if intfMatch i st.1 then
      let r := applyNgb supp i.attrs node l st.1
      (r.1, st.2 + if r.2 then 0 else 1)
    else st) (n, 0)

/-- `netsim/extra/bgp.session/plugin.py:65-82` (`copy_local_attributes`): neighbors and the number of errors -/
def copyLocal (supp : String → Bool) (all : List String) (n : SNode) (ngbs : List SNgb) : List SNgb × Nat :=
  let r := copyIbgp supp n.attrs (ibgpAttrs all n) true ngbs
  if !r.2 then (r.1, 1)
  else
    let s := r.1.map (copyEbgpNgb supp n.attrs (ebgpAttrs all n) n.intfs)
    (s.map (·.1), (s.map (·.2)).sum)

/-- Is the neighbor returned by `neighbors` (`netsim/utils/routing.py:37-53`)? -/
def mainType (n : SNgb) : Bool := n.type == "ibgp" || n.type == "ebgp"

/-- `netsim/utils/routing.py:122-125` (`cleanup_neighbor_attributes`) for one neighbor -/
def cleanNgb (all : List String) (n : SNgb) : SNgb :=
  if mainType n then { n with attrs := all.foldl popKey n.attrs } else n

/-- Errors in `process_tcpao_secrets` and `process_bfd_requests` (`netsim/extra/bgp.session/plugin.py:89-126`).  The list
of secrets is left out. -/
def tcpAoBfdErrors (n : SNode) (ngbs : List SNgb) : Nat :=
  (ngbs.map (fun g => if mainType g then
    (if (g.attrs.lookup "tcp_ao").isSome && !(g.attrs.lookup "password").isSome then 1 else 0) +
    (if (g.attrs.lookup "bfd").getD 0 ≠ 0 && !n.bfd then 1 else 0) else 0)).sum

/-- `ngb.get('rs',False)` (`netsim/extra/bgp.session/plugin.py:164`) -/
def SNgb.hasRs (n : SNgb) : Bool := (n.attrs.lookup "rs").getD 0 != 0

/-- `netsim/extra/bgp.session/plugin.py:131-135` (`zap_bgp_neighbor`) -/
def zapNgb (n : SNgb) : SNgb := { n with ifindex := none, zapped := true }

/-- The loop body in `netsim/extra/bgp.session/plugin.py:161-175` for a neighbor of the remote node; `a` is the name of
the route server -/
def markNgb (a : String) (n : SNgb) : SNgb :=
  if mainType n && n.name == a then
    if n.hasRs then zapNgb n else { n with rsClient := true }
  else n

/-- Errors in `netsim/extra/bgp.session/plugin.py:171-175`: the support check and the route server check -/
def markErrors (supp : String → Bool) (a : String) (n : SNgb) : Nat :=
  if mainType n && n.name == a && !n.hasRs && !supp "rs_client" then 2 else 0

/-- Is the remote neighbor a route server, too (`netsim/extra/bgp.session/plugin.py:164`)? -/
def remoteRs (a : String) (topo : List SNode) (b : String) : Bool :=
  topo.any (fun m => m.name == b && m.bgp && m.ngbs.any (fun f => mainType f && f.name == a && f.hasRs))

/-- `netsim/extra/bgp.session/plugin.py:157-175` (`set_rs_client`) for the remote nodes.  `sup` is the support of
attributes by nodes; no node is its own neighbor. -/
def markNodes (a : String) (topo : List SNode) (b : String) : List SNode :=
  topo.map (fun m => if m.name = b ∧ m.bgp = true then { m with ngbs := m.ngbs.map (markNgb a) } else m)

/-- `netsim/extra/bgp.session/plugin.py:183-197` (`process_rs_requests`) for neighbors of node `a`: its neighbors, all
nodes, number of errors and `have_rs` -/
def rsLoop (sup : String → String → Bool) (a : String) (topo : List SNode) :
    List SNgb → List SNgb × List SNode × Nat × Bool
  | [] => ([], topo, 0, false)
  | e :: es =>
    if !(mainType e && e.hasRs) then
      let r := rsLoop sup a topo es
      (e :: r.1, r.2)
    else if e.type = "ibgp" then
      let r := rsLoop sup a topo es
      ({ e with attrs := popKey e.attrs "rs" } :: r.1, r.2)
    else
      let err := (topo.map (fun m => if m.name = e.name ∧ m.bgp = true then
        (m.ngbs.map (markErrors (sup m.name) a)).sum else 0)).sum
      let r := rsLoop sup a (markNodes a topo e.name) es
      ((if remoteRs a topo e.name then zapNgb e else e) :: r.1, r.2.1, err + r.2.2.1, true)

/-- The loop body in `netsim/extra/bgp.session/plugin.py:246-254` for a node with BGP: nodes, number of errors and
`have_rs` -/
def sessNode (sup : String → String → Bool) (all : List String) (topo : List SNode) (n : SNode) :
    List SNode × Nat × Bool :=
  let c := copyLocal (sup n.name) all n (n.ngbs.map (cleanNgb all))
  let r := rsLoop sup n.name topo c.1
  (r.2.1.map (fun m => if m.name = n.name then { m with ngbs := r.1 } else m),
    c.2 + tcpAoBfdErrors n c.1 + r.2.2.1, r.2.2.2)

/-- The loop in `netsim/extra/bgp.session/plugin.py:246-254`; the nodes are visited by name. -/
def sessLoop (sup : String → String → Bool) (all : List String) :
    List String → List SNode → List SNode × Nat × Bool
  | [], topo => (topo, 0, false)
  | a :: as, topo =>
    match topo.find? (fun n => n.name == a) with
    | none => sessLoop sup all as topo
    | some n =>
      if !n.bgp then sessLoop sup all as topo
      else
        let s := sessNode sup all topo n
        let r := sessLoop sup all as s.1
        (r.1, s.2.1 + r.2.1, s.2.2 || r.2.2)

/-- `netsim/extra/bgp.session/plugin.py:210-219` (`cleanup_rs_mesh`) for the neighbors of a node: the inner loop for
every RS client session.  Missing interface indices are equal; RS client sessions are not changed by the loop. -/
def cleanMesh (ngbs : List SNgb) : List SNgb :=
  (ngbs.filter (fun d => d.type == "ebgp" && d.rsClient)).foldl (fun l d =>
    l.map (fun x => if x.type == "ebgp" && x.ifindex == d.ifindex && !(x.attrs.lookup "rs").isSome && !x.rsClient
      then zapNgb x else x)) ngbs

/-- `netsim/extra/bgp.session/plugin.py:227-235` (`cleanup_bgp_neighbors`) -/
def dropZapped (ngbs : List SNgb) : List SNgb := ngbs.filter (fun n => !n.zapped)

/-- `netsim/extra/bgp.session/plugin.py:244-260` (`post_transform`): nodes and number of errors.  Added configurations and
the lists of sessions to clear are left out. -/
def bgpSession (sup : String → String → Bool) (all : List String) (topo : List SNode) : List SNode × Nat :=
  let r := sessLoop sup all (topo.map (·.name)) topo
  if r.2.2 then
    (r.1.map (fun n => if n.bgp then { n with ngbs := dropZapped (cleanMesh n.ngbs) } else n), r.2.1)
  else (r.1, r.2.1)

end Netlab
