/-!
# DHCP clients and relays (`netsim/modules/dhcp.py:20-114`, `netsim/modules/dhcp.py:266-386`)

Address families are Booleans (`true` for IPv6).  Neighbors of an interface are given with their DHCP client flags; an empty dictionary of DHCP
clients is a missing one.  Errors are counted.
-/

namespace Netlab

/-- An interface address (`netsim/modules/dhcp.py:346`, `netsim/modules/dhcp.py:301`): a boolean or a text -/
inductive DxAddr where
  | flag (b : Bool)
  | text (s : String)
  deriving Repr, DecidableEq

/-! ### Clients on links -/

/-- An interface on a link (`netsim/modules/dhcp.py:337-361`): node, addresses, `dhcp.client` attributes, is the VLAN mode `bridge` or `irb` -/
structure DlIntf where
  node : String
  addr : Bool → Option DxAddr
  client : Bool → Option Bool
  bridged : Bool

/-- Effects of the loop in `netsim/modules/dhcp.py:338-361`: nodes that get the DHCP module, `dhcp.subnet` flags of the link, number of errors -/
structure DlOut where
  modules : List String := []
  subnet : Bool → Bool := fun _ => false
  errors : Nat := 0

/-- Change of one address family (`netsim/modules/dhcp.py:344-361`) -/
def dlSet {β : Type} (f : Bool → β) (af : Bool) (v : β) : Bool → β := fun x => if x = af then v else f x

/-- The last step in `netsim/modules/dhcp.py:359-361` -/
def dlMark (i : DlIntf) (af : Bool) (o : DlOut) : DlIntf × DlOut :=
  if i.client af = some true then
    (i, { o with modules := if o.modules.contains i.node then o.modules else o.modules ++ [i.node], subnet := dlSet o.subnet af true })
  else (i, o)

/-- `netsim/modules/dhcp.py:352-361`: `link` are the `dhcp.client` attributes of the link. -/
def dlLinkClient (link : Bool → Option Bool) (i : DlIntf) (af : Bool) (o : DlOut) : DlIntf × DlOut :=
  if link af = some true ∧ i.client af ≠ some false then
    if i.bridged then (i, o) else dlMark { i with client := dlSet i.client af (some true) } af o
  else dlMark i af o

/-- One address family in `netsim/modules/dhcp.py:343-361` -/
def dlAf (link : Bool → Option Bool) (i : DlIntf) (af : Bool) (o : DlOut) : DlIntf × DlOut :=
  if i.addr af = some (.text "dhcp") then
    let i' := { i with client := dlSet i.client af (some true), addr := dlSet i.addr af none }
    if link af = some false then (i', { o with errors := o.errors + 1 }) else dlLinkClient link i' af o
  else dlLinkClient link i af o

/-- `netsim/modules/dhcp.py:337-361` (`link_pre_transform`); `known` are the nodes in the topology. -/
def dlLink (known : List String) (link : Bool → Option Bool) : List DlIntf → DlOut → List DlIntf × DlOut
  | [], o => ([], o)
  | i :: r, o =>
    if known.contains i.node then
      let a := dlAf link i false o
      let b := dlAf link a.1 true a.2
      let x := dlLink known link r b.2
      (b.1 :: x.1, x.2)
    else
      let x := dlLink known link r o
      (i :: x.1, x.2)

/-! ### Checks and relays -/

/-- The relay feature of a device (`netsim/modules/dhcp.py:66-80`): missing, available, or available for some address families -/
inductive DxRelay where
  | no
  | yes
  | afs (f : Bool → Bool)

/-- DHCP features of a device (`netsim/modules/dhcp.py:21-100`, `netsim/modules/dhcp.py:320-321`) -/
structure DxFeat where
  server : Bool
  client : Bool → Bool
  routing : Bool
  relay : DxRelay
  vrf : Bool

/-- A node interface (`netsim/modules/dhcp.py:36-114`, `netsim/modules/dhcp.py:269-329`): addresses, `dhcp.client`, `dhcp.server`, `dhcp.vrf`, does it run
BGP, OSPF or IS-IS, DHCP clients among its neighbors, `dhcp.relay` -/
structure DxIntf where
  addr : Bool → Option DxAddr
  client : Option (Bool → Option Bool)
  server : List String
  vrf : Option String
  bgp : Bool
  ospf : Bool
  isis : Bool
  nbrs : List (String × (Bool → Bool))
  relay : Bool → Option (List String)

/-- A node (`netsim/modules/dhcp.py:20-114`, `netsim/modules/_routing.py:422-429`) -/
structure DxNode where
  name : String
  feat : DxFeat
  host : Bool
  server : Bool
  vrf : Option Bool
  relay : Bool
  vrfs : List String
  loopback : Option (Bool → Option DxAddr)
  ifs : List DxIntf

/-- `intf.get('dhcp.client.af')` (`netsim/modules/dhcp.py:377`) -/
def dxClient (i : DxIntf) (af : Bool) : Bool :=
  match i.client with
  | none => false
  | some c => c af = some true

/-- Missing client feature for one address family (`netsim/modules/dhcp.py:44-53`) -/
def dxClientErr (f : DxFeat) (c : Bool → Option Bool) (af : Bool) : Nat := if (c af).isSome && !f.client af then 1 else 0

/-- The loop body in `netsim/modules/dhcp.py:35-53`: the interface and the number of errors -/
def dxCheckClient (f : DxFeat) (nodeServer : Bool) (i : DxIntf) : DxIntf × Nat :=
  match i.client with
  | none => (i, 0)
  | some c =>
    if i.server ≠ [] || nodeServer then ({ i with client := none }, 0)
    else (i, dxClientErr f c false + dxClientErr f c true)

/-- Missing relay feature (`netsim/modules/dhcp.py:60-74`): the errors that stop the processing of the node, and other errors -/
def dxRelayErr (f : DxFeat) (i : DxIntf) : Nat × Nat :=
  match f.relay with
  | .no => (1, 0)
  | .yes => (0, 0)
  | .afs g => (0, (if (i.addr false).isSome && !g false then 1 else 0) + (if (i.addr true).isSome && !g true then 1 else 0))

/-- Inter-VRF relaying (`netsim/modules/dhcp.py:86-112`): number of errors -/
def dxVrfErr (f : DxFeat) (vrfs : List String) (i : DxIntf) : Nat :=
  match i.vrf with
  | none => 0
  | some v => (if f.vrf then 0 else 1) + (if v = "global" || vrfs.contains v then 0 else 1)

/-- `topology.nodes.get(f'{srv}.dhcp.server',False)` (`netsim/modules/dhcp.py:77`) -/
def dxIsServer (nodes : List DxNode) (s : String) : Bool := nodes.any (fun n => n.name == s && n.server)

/-- The loop body in `netsim/modules/dhcp.py:57-112` for a relay: errors that stop the processing, other errors -/
def dxCheckRelay (nodes : List DxNode) (n : DxNode) (i : DxIntf) : Nat × Nat :=
  if i.server = [] then (0, 0)
  else ((dxRelayErr n.feat i).1 + (i.server.map (fun s => if dxIsServer nodes s then 0 else 1)).sum + dxVrfErr n.feat n.vrfs i, (dxRelayErr n.feat i).2)

/-- `netsim/modules/dhcp.py:20-114` (`check_protocol_support`): the node, errors that stop the processing, other errors -/
def dxCheck (nodes : List DxNode) (n : DxNode) : DxNode × Nat × Nat :=
  let c := n.ifs.map (dxCheckClient n.feat n.server)
  let r := c.map (fun x => dxCheckRelay nodes n x.1)
  ({ n with
       ifs := c.map (·.1),
       relay := n.relay || n.ifs.any (fun i => i.server ≠ []),
       vrf := if n.vrf = none && n.feat.vrf && n.ifs.any (fun i => i.server ≠ [] && i.vrf.isSome) then some true else n.vrf },
   (if n.server && !n.feat.server then 1 else 0) + (c.map (·.2)).sum + (r.map (·.1)).sum, (r.map (·.2)).sum)

/-- `netsim/modules/_routing.py:422-429` (`get_remote_cp_endpoint`): addresses of the interface -/
def dxEndpoint (n : DxNode) : Option (Bool → Option DxAddr) :=
  match n.loopback with
  | some l => if n.host then n.ifs.head?.map (·.addr) else some l
  | none => n.ifs.head?.map (·.addr)

/-- `netsim/utils/routing.py:17-18` (`get_intf_address`): `ip` is the address without the prefix length.  A Boolean is an integer in Python. -/
def dxIp (ip : String → String) : DxAddr → String
  | .text s => ip s
  | .flag b => if b then "0.0.0.1" else "0.0.0.0"

/-- One relay target (`netsim/modules/dhcp.py:281-301`): the address or an error -/
def dxTarget (ip : String → String) (nodes : List DxNode) (af : Bool) (s : String) : Option String :=
  match (nodes.find? (fun n => n.name == s)).bind dxEndpoint with
  | none => none
  | some e => (e af).map (dxIp ip)

/-- One address family in `netsim/modules/dhcp.py:273-301`: the relay targets and the number of errors -/
def dxRelayAf (ip : String → String) (nodes : List DxNode) (i : DxIntf) (af : Bool) : Option (List String) × Nat :=
  if i.nbrs.any (fun n => n.2 af) then
    (some (i.server.filterMap (dxTarget ip nodes af)), (i.server.map (fun s => if (dxTarget ip nodes af s).isSome then 0 else 1)).sum)
  else (i.relay af, 0)

/-- `netsim/modules/dhcp.py:269-301` (`set_dhcp_relay`) -/
def dxSetRelay (ip : String → String) (nodes : List DxNode) (i : DxIntf) : DxIntf × Nat :=
  if i.server = [] then (i, 0)
  else
    ({ i with relay := fun af => (dxRelayAf ip nodes i af).1 }, (dxRelayAf ip nodes i false).2 + (dxRelayAf ip nodes i true).2)

/-- `netsim/modules/dhcp.py:307-329` (`check_dynamic_routing`) -/
def dxRouting (f : DxFeat) (i : DxIntf) : DxIntf × Nat :=
  if i.bgp then ({ i with bgp := false }, 1)
  else (i, (if i.ospf && !f.routing then 1 else 0) + (if i.isis && !f.routing then 1 else 0))

/-- `netsim/modules/dhcp.py:377-379` -/
def dxPop (f : DxFeat) (af : Bool) (i : DxIntf) : DxIntf × Nat :=
  if dxClient i af then dxRouting f { i with addr := fun x => if x = af then none else i.addr x } else (i, 0)

/-- The body of the inner loop in `netsim/modules/dhcp.py:376-382`; `env` gives all nodes when the current interface is given. -/
def dxAf (ip : String → String) (f : DxFeat) (env : DxIntf → List DxNode) (af : Bool) (i : DxIntf) : DxIntf × Nat :=
  let a := dxPop f af i
  let b := dxSetRelay ip (env a.1) a.1
  (b.1, a.2 + b.2)

/-- The loop over interfaces in `netsim/modules/dhcp.py:375-382`; `env` gives all nodes when all interfaces of the current node are given, and `done` are
the interfaces already processed. -/
def dxIfs (ip : String → String) (f : DxFeat) (env : List DxIntf → List DxNode) (done : List DxIntf) : List DxIntf → List DxIntf × Nat
  | [] => (done, 0)
  | i :: r =>
    let a := dxAf ip f (fun i => env (done ++ i :: r)) false i
    let b := dxAf ip f (fun i => env (done ++ i :: r)) true a.1
    let x := dxIfs ip f env (done ++ [b.1]) r
    (x.1, a.2 + b.2 + x.2)

/-- The loop body in `netsim/modules/dhcp.py:371-382`; `pre` are the nodes already processed and `post` other nodes. -/
def dxNode (ip : String → String) (pre : List DxNode) (n : DxNode) (post : List DxNode) : DxNode × Nat :=
  let c := dxCheck (pre ++ n :: post) n
  if c.2.1 = 0 then
    let x := dxIfs ip n.feat (fun ifs => pre ++ { c.1 with ifs := ifs } :: post) [] c.1.ifs
    ({ c.1 with ifs := x.1 }, c.2.2 + x.2)
  else (c.1, c.2.1 + c.2.2)

/-- The loop over nodes in `netsim/modules/dhcp.py:371-382` (`module_post_transform`) -/
def dxNodes (ip : String → String) (pre : List DxNode) : List DxNode → List DxNode × Nat
  | [] => (pre, 0)
  | n :: r =>
    let a := dxNode ip pre n r
    let x := dxNodes ip (pre ++ [a.1]) r
    (x.1, a.2 + x.2)

end Netlab
