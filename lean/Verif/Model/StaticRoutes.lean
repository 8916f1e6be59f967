/-!
# Static routes

Resolution of next hops of static routes (`netsim/modules/routing.py:716-1056`).

Simplifications:

* destination prefixes specified with `pool`, `prefix` or `node` have been replaced with their values
  (`netsim/modules/routing.py:978-983`);
* addresses are strings; extraction of the host part and membership in a subnet are parameters;
* the attributes allowed together are those accepted by `netsim/modules/routing.yml:178-207`: a next hop is a node, a
  gateway or a set of addresses;
* device features are parameters.
-/

namespace Netlab

/-- A value for every address family (`log.AF_LIST`; `false` is IPv4, `true` is IPv6): `netsim/modules/routing.py:625`. -/
structure Dual (α : Type) where
  v4 : Option α
  v6 : Option α
deriving DecidableEq, Repr

/-- `x[af]`: `netsim/modules/routing.py:626` -/
def Dual.get {α : Type} (d : Dual α) (af : Bool) : Option α := if af then d.v6 else d.v4

/-- Build the value from a function: `netsim/modules/routing.py:622-633`. -/
def Dual.of {α : Type} (f : Bool → Option α) : Dual α := ⟨f false, f true⟩

/-- An empty box: `netsim/modules/routing.py:622`. -/
def Dual.isEmpty {α : Type} (d : Dual α) : Bool := d.v4.isNone && d.v6.isNone

/-- An address attribute of an interface: an address or a flag (unnumbered interface), `netsim/modules/routing.py:628`. -/
inductive SrAddr
  | str (a : String)
  | flag (b : Bool)
deriving DecidableEq, Repr

/-- A neighbor: `netsim/modules/routing.py:763-777`, `812-827`. -/
structure SrNgb where
  node : String
  addr : Dual SrAddr
  gateway : Option (Dual SrAddr)
  dhcp : Dual Unit
deriving DecidableEq, Repr

/-- An interface of the node: `netsim/modules/routing.py:763-780`. -/
structure SrIntf where
  name : String
  vrf : Option String
  addr : Dual SrAddr
  neighbors : List SrNgb
  /-- `intf.gateway`: configured data or the cache -/
  gateway : Option (Dual SrAddr)
deriving DecidableEq, Repr

/-- Kinds of next hops: `netsim/modules/routing.yml:191-203`, `netsim/modules/routing.py:1007-1015`. -/
inductive SrHop
  | node (n : String)
  | gateway
  | addr (a : Dual String)
deriving DecidableEq, Repr

/-- The `nexthop` attribute: `netsim/modules/routing.yml:191-203`. -/
structure SrNext where
  hop : SrHop
  vrf : Option (Option String)
deriving DecidableEq, Repr

/-- A static route: `netsim/modules/routing.yml:176-207`, `netsim/augment/nodes.py:460`. -/
structure SrRoute where
  dst : Dual String
  vrf : Option String
  next : Option SrNext
  skipMissing : Bool
deriving DecidableEq, Repr

/-- An element of `nhlist`: `netsim/modules/routing.py:722-735`, `925-929`. -/
structure NhEntry where
  addr : Dual String
  intf : String
  vrf : Option (Option String)
deriving DecidableEq, Repr

/-- The environment: other nodes, device features and functions on addresses, `netsim/modules/routing.py:735-930`. -/
structure SrEnv where
  /-- `get_intf_address`, `netsim/utils/routing.py:17-18` -/
  host : String → String
  /-- the first address belongs to the subnet of the second one, `netsim/modules/routing.py:909-921` -/
  inSubnet : String → String → Bool
  /-- `get_remote_cp_endpoint`, `netsim/modules/_routing.py:422-429` -/
  endpoint : String → Dual SrAddr
  /-- the node is a host, `netsim/modules/routing.py:813` -/
  isHost : String → Bool
  /-- address families of the node, `netsim/modules/routing.py:855` -/
  nodeAf : List Bool
  /-- VRFs of the node, `netsim/modules/routing.py:938` -/
  vrfs : List String
  /-- the device supports VRF static routes, `netsim/modules/routing.py:946` -/
  vrfOk : Bool
  /-- the device supports inter-VRF static routes, `netsim/modules/routing.py:953` -/
  interVrfOk : Bool
  /-- `max_nexthop`, `netsim/modules/routing.py:1041` -/
  maxNexthop : Nat

/-- The VRF of the next hop: `netsim/modules/routing.py:761`, `851`, `904`. -/
def SrRoute.nhVrf (r : SrRoute) (n : SrNext) : Option String :=
  match n.vrf with
  | some v => v
  | none => r.vrf

/-- `extract_af_info` with host addresses: `netsim/modules/routing.py:621-633`. -/
def hostAddrs (env : SrEnv) (d : Dual SrAddr) : Dual SrAddr :=
  Dual.of (fun af => (d.get af).map (fun a => match a with
    | .str s => .str (env.host s)
    | .flag b => .flag b))

/-- Only real addresses: `netsim/modules/routing.py:725-730`. -/
def strAddrs (d : Dual SrAddr) : Dual String :=
  Dual.of (fun af => match d.get af with
    | some (.str s) => some s
    | _ => none)

/-- `create_nexthop_data`, `netsim/modules/routing.py:722-735`. -/
def nexthopData (n : SrNext) (a : Dual SrAddr) (intf : SrIntf) : Option NhEntry :=
  let d := strAddrs a
  if d.isEmpty then none else some ⟨d, intf.name, n.vrf⟩

/-- Next hops for neighbors on one interface: `netsim/modules/routing.py:764-779`. -/
def nodeHops (env : SrEnv) (r : SrRoute) (n : SrNext) (node : String) (intf : SrIntf) : List NhEntry :=
  if intf.vrf = r.nhVrf n then
    intf.neighbors.filterMap (fun g => if g.node = node then nexthopData n (hostAddrs env g.addr) intf else none)
  else []

/-- `extract_nh_from_list`, `netsim/modules/routing.py:743-748`. -/
def firstAddrs (l : List NhEntry) : Dual String := Dual.of (fun af => l.findSome? (fun e => e.addr.get af))

/-- Next-hop information: addresses and `nhlist`, `netsim/modules/routing.py:759-795`. -/
structure SrResolved where
  addr : Dual SrAddr
  nhlist : List NhEntry
deriving DecidableEq, Repr

/-- Addresses as attributes of the next hop: `netsim/modules/routing.py:743-748`. -/
def asAddrs (d : Dual String) : Dual SrAddr := Dual.of (fun af => (d.get af).map .str)

/-- `resolve_node_nexthop`, `netsim/modules/routing.py:759-795`: the result and the number of errors. -/
def resolveNode (env : SrEnv) (r : SrRoute) (n : SrNext) (node : String) (ifs : List SrIntf) : SrResolved × Nat :=
  let l := ifs.flatMap (nodeHops env r n node)
  if l.isEmpty then
    (⟨hostAddrs env (env.endpoint node), []⟩,
      if ifs.any (fun i => i.neighbors.any (fun g => g.node == node)) then 1 else 0)
  else (⟨asAddrs (firstAddrs l), l⟩, 0)

/-- The first usable neighbor for an address family: `netsim/modules/routing.py:811-828`. -/
def lastResortAf (env : SrEnv) (intf : SrIntf) (af : Bool) : Option SrAddr :=
  intf.neighbors.findSome? (fun g =>
    if env.isHost g.node then none
    else match g.addr.get af with
      | some (.str s) => if (g.dhcp.get af).isSome then none else some (.str s)
      | _ => none)

/-- `create_gateway_last_resort`, `netsim/modules/routing.py:805-832` (without the warning). -/
def lastResort (env : SrEnv) (intf : SrIntf) (missing : List Bool) : Dual SrAddr :=
  Dual.of (fun af => if missing.contains af then lastResortAf env intf af else none)

/-- Gateway information from the interface or from neighbors: `netsim/modules/routing.py:861-866`. -/
def gatewayOf (intf : SrIntf) : Option (Dual SrAddr) :=
  match intf.gateway with
  | some g => some g
  | none => intf.neighbors.findSome? (·.gateway)

/-- The loop in `resolve_gateway_nexthop`, `netsim/modules/routing.py:857-878`: interfaces with cached gateways and the list
of next hops. -/
def gatewayLoop (env : SrEnv) (r : SrRoute) (n : SrNext) (create : Bool) :
    List SrIntf → List Bool → List SrIntf × List NhEntry
  | [], _ => ([], [])
  | i :: rest, missing =>
    if i.vrf ≠ r.nhVrf n then
      let x := gatewayLoop env r n create rest missing
      (i :: x.1, x.2)
    else
      match gatewayOf i with
      | some g =>
        let x := gatewayLoop env r n create rest missing
        ({ i with gateway := some g } :: x.1, (nexthopData n (hostAddrs env g) i).toList ++ x.2)
      | none =>
        let g := lastResort env i missing
        if create && !g.isEmpty then
          let x := gatewayLoop env r n create rest (missing.filter (fun af => (g.get af).isNone))
          ({ i with gateway := some g } :: x.1, (nexthopData n (hostAddrs env g) i).toList ++ x.2)
        else
          let x := gatewayLoop env r n create rest missing
          (i :: x.1, x.2)

/-- Both calls of `resolve_gateway_nexthop`, `netsim/modules/routing.py:1009-1013`. -/
def resolveGateway (env : SrEnv) (r : SrRoute) (n : SrNext) (ifs : List SrIntf) : List SrIntf × SrResolved :=
  let x := gatewayLoop env r n false ifs env.nodeAf
  if x.2.isEmpty then
    let y := gatewayLoop env r n true x.1 env.nodeAf
    (y.1, ⟨asAddrs (firstAddrs y.2), y.2⟩)
  else (x.1, ⟨asAddrs (firstAddrs x.2), x.2⟩)

/-- One address family of `resolve_nexthop_intf`, `netsim/modules/routing.py:906-930`; `none` is the exception raised when the
next hop has no address in the family of the prefix. -/
def directHops (env : SrEnv) (r : SrRoute) (n : SrNext) (a : Dual String) (ifs : List SrIntf) (af : Bool) :
    Option (List NhEntry) :=
  if (r.dst.get af).isNone then some []
  else
    match a.get af with
    | none => none
    | some s =>
      some (ifs.filterMap (fun i =>
        match i.addr.get af with
        | some (.str p) =>
          if i.vrf = r.nhVrf n ∧ env.inSubnet s p then
            some ⟨Dual.of (fun f => if f = af then some s else none), i.name, n.vrf⟩
          else none
        | _ => none))

/-- `resolve_nexthop_intf`, `netsim/modules/routing.py:902-932`. -/
def resolveAddr (env : SrEnv) (r : SrRoute) (n : SrNext) (a : Dual String) (ifs : List SrIntf) : Option SrResolved :=
  match directHops env r n a ifs false, directHops env r n a ifs true with
  | some x, some y => some ⟨asAddrs a, x ++ y⟩
  | _, _ => none

/-- `check_VRF_static_route`, `netsim/modules/routing.py:936-969`. -/
def vrfRouteOk (env : SrEnv) (r : SrRoute) (n : SrNext) : Bool :=
  (match r.vrf with
   | none => true
   | some v => env.vrfs.contains v && env.vrfOk) &&
  (match n.vrf with
   | none => true
   | some none => env.interVrfOk
   | some (some v) => env.interVrfOk && env.vrfs.contains v)

/-- A route after the processing: `netsim/modules/routing.py:1036-1051`. -/
structure SrFinal where
  dst : Dual String
  vrf : Option String
  addr : Dual SrAddr
  intf : Option String
  nhVrf : Option (Option String)
  idx : Nat
deriving DecidableEq, Repr

/-- Result of the processing of a static route: `netsim/modules/routing.py:971-1052`. -/
inductive SrResult
  /-- an error was reported -/
  | error
  /-- the program fails with an exception -/
  | crash
  /-- the route is removed (`_skip_missing`) -/
  | skip
  /-- the route is kept -/
  | keep (r : SrFinal)
  /-- the route is replaced with routes for individual next hops -/
  | expand (l : List SrFinal)
deriving DecidableEq, Repr

/-- Next hops for one address family: `netsim/modules/routing.py:1035-1047`. -/
def expandAf (env : SrEnv) (r : SrRoute) (l : List NhEntry) (af : Bool) : List SrFinal :=
  match r.dst.get af with
  | none => []
  | some p =>
    ((l.filter (fun e => (e.addr.get af).isSome)).take env.maxNexthop).zipIdx.map (fun x =>
      { dst := Dual.of (fun f => if f = af then some p else none)
        vrf := r.vrf
        addr := asAddrs x.1.addr
        intf := some x.1.intf
        nhVrf := x.1.vrf
        idx := x.2 })

/-- The end of `check_static_routes`: `netsim/modules/routing.py:1017-1052`. -/
def finishRoute (env : SrEnv) (r : SrRoute) (n : SrNext) (x : SrResolved) : SrResult :=
  if [false, true].any (fun af => (r.dst.get af).isSome && (x.addr.get af).isNone) then
    if r.skipMissing then .skip else .error
  else if x.nhlist.isEmpty then .keep ⟨r.dst, r.vrf, x.addr, none, n.vrf, 0⟩
  else .expand (expandAf env r x.nhlist false ++ expandAf env r x.nhlist true)

/-- `check_static_routes`, `netsim/modules/routing.py:984-1052`: interfaces (with cached gateways) and the result. -/
def checkRoute (env : SrEnv) (ifs : List SrIntf) (r : SrRoute) : List SrIntf × SrResult :=
  if r.dst.isEmpty then (ifs, .error)
  else
    match r.next with
    | none => (ifs, if r.skipMissing then .skip else .error)
    | some n =>
      if !vrfRouteOk env r n then (ifs, .error)
      else
        match n.hop with
        | .node x =>
          let y := resolveNode env r n x ifs
          (ifs, if y.2 ≠ 0 then .error else finishRoute env r n y.1)
        | .gateway =>
          let y := resolveGateway env r n ifs
          (y.1, finishRoute env r n y.2)
        | .addr a =>
          match resolveAddr env r n a ifs with
          | none => (ifs, .crash)
          | some y => (ifs, finishRoute env r n y)

/-- All static routes of a node: `netsim/modules/routing.py:373-405`. -/
def checkRoutes (env : SrEnv) : List SrIntf → List SrRoute → List SrIntf × List SrResult
  | ifs, [] => (ifs, [])
  | ifs, r :: rest =>
    let x := checkRoute env ifs r
    let y := checkRoutes env x.1 rest
    (y.1, x.2 :: y.2)

/-- The final list: kept routes, then the new ones, `netsim/modules/routing.py:1047`, `1054-1055`. -/
def finalRoutes (l : List SrResult) : List SrFinal :=
  l.flatMap (fun x => match x with
    | .keep r => [r]
    | _ => []) ++
  l.flatMap (fun x => match x with
    | .expand e => e
    | _ => [])

/-! ### Static routes of hosts -/

/-- `default_static_route_list`, `netsim/augment/nodes.py:450-462`: pools in the order in which they are defined. -/
def defaultRoutes (pools : List (String × Dual String)) : List SrRoute :=
  pools.flatMap (fun p =>
    if p.1 = "mgmt" ∨ p.1 = "router_id" then []
    else [false, true].filterMap (fun af => (p.2.get af).map (fun a =>
      { dst := Dual.of (fun f => if f = af then some a else none)
        vrf := none
        next := some ⟨.gateway, none⟩
        skipMissing := true })))

/-- The static routes of a host: `netsim/augment/nodes.py:501-503`. -/
def hostRoutes (afs : List Bool) (l : List SrRoute) : List SrRoute :=
  afs.flatMap (fun af => l.filter (fun r => (r.dst.get af).isSome))

end Netlab
