/-!
# BGP sessions (`netsim/modules/bgp.py`)

Only the attributes used to build the session tables are kept.  Addresses are stored as the canonical text of the
host part and the prefix length.
-/

namespace Netlab

/-- An address family entry of an interface (`netsim/modules/bgp.py:112-117`): a boolean (unnumbered IPv4, IPv6 LLA) or
an address with prefix length -/
inductive AddrV where
  | flag (b : Bool)
  | addr (ip : String) (plen : Nat)
  deriving Repr, DecidableEq

/-- Address families of an interface (`netsim/modules/bgp.py:222`); `none`: not in the dictionary -/
structure AfAddr where
  ipv4 : Option AddrV := none
  ipv6 : Option AddrV := none
  deriving Repr, DecidableEq

/-- Session types (`netsim/modules/bgp.py:405-408`) -/
inductive SType where
  | ibgp
  | ebgp
  | localasIbgp
  deriving Repr, DecidableEq

/-- The `bgp.sessions` and `bgp.activate` attributes (`netsim/modules/bgp.py:405-408`) -/
structure Sessions where
  ipv4 : List SType := []
  ipv6 : List SType := []
  deriving Repr, DecidableEq

/-- `BGP_DEFAULT_SESSIONS` (`netsim/modules/bgp.py:405-408`) -/
def Sessions.default : Sessions where
  ipv4 := [.ibgp, .ebgp, .localasIbgp]
  ipv6 := [.ibgp, .ebgp, .localasIbgp]

/-- The `bgp` attribute of an interface (`netsim/modules/bgp.py:216,221,249`): `False`, or a dictionary (possibly
missing); `local_as` is the only attribute kept. -/
inductive IfBgp where
  | off
  | attrs (localAs : Option Int)
  deriving Repr, DecidableEq

/-- Address of a BGP neighbor (`netsim/modules/bgp.py:114-117`): a boolean or a host address -/
inductive PeerAddr where
  | flag (b : Bool)
  | ip (a : String)
  deriving Repr, DecidableEq

/-- A BGP neighbor (`netsim/modules/bgp.py:106-119,257-342`).  `vrf` tells which list it is in. -/
structure BgpNgb where
  name : String
  asn : Int
  type : SType
  ipv4 : Option PeerAddr := none
  ipv6 : Option PeerAddr := none
  rr : Option Bool := none
  ifindex : Option Int := none
  vrf : Option String := none
  localIf : Option String := none
  rfc8950 : Bool := false
  localAs : Option Int := none
  deriving Repr, DecidableEq

/-- Neighbor entry of an interface (`netsim/augment/links.py:869-881`) -/
structure NgbIf where
  node : String
  ifname : String := ""
  ipv4 : Option AddrV := none
  ipv6 : Option AddrV := none
  bgp : IfBgp := .attrs none
  deriving Repr, DecidableEq

/-- Node interface (`netsim/modules/bgp.py:215-228`) -/
structure BgpIntf where
  ifindex : Int
  ifname : String := ""
  ipv4 : Option AddrV := none
  ipv6 : Option AddrV := none
  bgp : IfBgp := .attrs none
  vrf : Option String := none
  neighbors : List NgbIf := []
  deriving Repr, DecidableEq

/-- Device features used by the BGP module (`netsim/modules/bgp.py:227-336`) -/
structure BgpFeatures where
  localAs : Bool := true
  vrfLocalAs : Bool := true
  ipv6Lla : Bool := true
  rfc8950 : Bool := true
  localAsIbgp : Bool := true
  deriving Repr, DecidableEq

/-- BGP-related data of a node (`netsim/modules/bgp.py:85-208`).  `bgpAs = none`: the node does not run BGP.
`vrfOff`: VRFs with `bgp: False`. -/
structure BgpNode where
  name : String
  bgpAs : Option Int := none
  localAs : Option Int := none
  rr : Option Bool := none
  loopback : Option AfAddr := none
  daemon : Bool := false
  interfaces : List BgpIntf := []
  sessions : Sessions := .default
  features : BgpFeatures := {}
  vrfOff : List String := []
  deriving Repr, DecidableEq

/-- `node.bgp.get("rr",None)` used as a condition (`netsim/modules/bgp.py:88,155`) -/
def BgpNode.isRr (n : BgpNode) : Bool := n.rr.getD false

/-- `netsim/modules/bgp.py:85-88` (`find_bgp_rr`) -/
def findBgpRr (asn : Int) (topo : List BgpNode) : List BgpNode :=
  topo.filter (fun n => n.bgpAs = some asn && n.isRr)

/-- Neighbor address (`netsim/modules/bgp.py:114-117`) -/
def AddrV.peer : AddrV → PeerAddr
  | .flag b => .flag b
  | .addr ip _ => .ip ip

/-- `netsim/modules/bgp.py:98-119` (`bgp_neighbor`): `g` has the name, the AS number, the type and the extra data. -/
def bgpNeighbor (g : BgpNgb) (af : AfAddr) (s : Sessions) : Option BgpNgb :=
  let v4 := if g.type ∈ s.ipv4 then af.ipv4.map AddrV.peer else none
  let v6 := if g.type ∈ s.ipv6 then af.ipv6.map AddrV.peer else none
  if v4.isNone && v6.isNone then none
  else some { g with ipv4 := v4, ipv6 := v6 }

/-- `netsim/modules/bgp.py:134-141` (`get_remote_ibgp_endpoint`) -/
def ibgpEndpoint (n : BgpNode) : AfAddr :=
  match n.loopback with
  | some l => l
  | none =>
    if n.daemon then
      match n.interfaces with
      | i :: _ => { ipv4 := i.ipv4, ipv6 := i.ipv6 }
      | [] => {}
    else {}

/-- Session with a node in the same AS (`netsim/modules/bgp.py:159-161,171-173`) -/
def ibgpSession (s : Sessions) (asn : Int) (n : BgpNode) : Option BgpNgb :=
  bgpNeighbor { name := n.name, asn := asn, type := .ibgp, rr := n.rr } (ibgpEndpoint n) s

/-- `netsim/modules/bgp.py:149-180` (`build_ibgp_sessions`); the IGP warning and `_source_intf` are left out. -/
def buildIbgpSessions (topo : List BgpNode) (node : BgpNode) (asn : Int) : List BgpNgb :=
  let rrlist := findBgpRr asn topo
  if rrlist.isEmpty || node.isRr then
    topo.filterMap (fun n =>
      if n.bgpAs = some asn ∧ n.name ≠ node.name then ibgpSession node.sessions asn n else none)
  else
    rrlist.filterMap (fun n =>
      if n.name ≠ node.name then ibgpSession node.sessions asn n else none)

/-- `a or b` for optional AS numbers (`netsim/modules/bgp.py:221,249-251`) -/
def orAs (a b : Option Int) : Option Int :=
  match a with
  | some n => if n = 0 then b else some n
  | none => b

/-- `get('bgp.local_as',None)` of an interface (`netsim/modules/bgp.py:221,249`) -/
def IfBgp.localAs : IfBgp → Option Int
  | .off => none
  | .attrs a => a

/-- AS number used on a link (`netsim/modules/bgp.py:221` for the node, `:249-251` for the neighbor) -/
def linkAs (b : IfBgp) (n : BgpNode) : Option Int := orAs b.localAs (orAs n.localAs n.bgpAs)

/-- Result of an attempt to create a session (`netsim/modules/bgp.py:238-345`) -/
inductive EbgpRes where
  | skip
  | error
  | session (g : BgpNgb)
  deriving Repr, DecidableEq

/-- `x is True` (`netsim/modules/bgp.py:268-271`) -/
def isTrue (a : Option AddrV) : Bool := a = some (.flag true)

/-- `isinstance(x,str)` (`netsim/modules/bgp.py:269`) -/
def isNum : Option AddrV → Bool
  | some (.addr _ _) => true
  | _ => false

/-- Session with one neighbor on an interface (`netsim/modules/bgp.py:238-345`).  `v6` is the current value of the
`ipv6` attribute of the interface; the new value is a part of the result (line 297).  Neighbor interface attributes
other than the local AS are not kept. -/
def ebgpOne (node : BgpNode) (asn las : Int) (l : BgpIntf) (v6 : Option AddrV) (q : NgbIf) (n : BgpNode) :
    EbgpRes × Option AddrV :=
  if q.ipv4.isNone && q.ipv6.isNone then (.skip, v6)
  else
    match linkAs q.bgp n with
    | none => (.skip, v6)
    | some nlas =>
      if nlas = 0 then (.skip, v6)
      else if n.bgpAs = some asn ∧ las = nlas then (.skip, v6)
      else
        let v6Num := isNum v6 && isNum q.ipv6
        let unnum := isTrue l.ipv4 && isTrue q.ipv4
        if isTrue l.ipv4 && !unnum then (.error, v6)
        else if isTrue v6 && !isTrue q.ipv6 then (.error, v6)
        else
          let lla := (isTrue v6 && isTrue q.ipv6) || (unnum && !v6Num)
          let v6' := if unnum && !v6Num && v6.isNone then some (.flag true) else v6
          if lla && !node.features.ipv6Lla then (.error, v6')
          else if unnum && v6Num && !node.features.rfc8950 then (.error, v6')
          else
            let t := if nlas = las then SType.localasIbgp else .ebgp
            if t = .localasIbgp ∧ !node.features.localAsIbgp then (.error, v6')
            else
              let g : BgpNgb := {
                name := n.name
                asn := nlas
                type := t
                ifindex := some l.ifindex
                vrf := l.vrf
                localIf := if lla then some l.ifname else none
                rfc8950 := unnum
                localAs := orAs l.bgp.localAs node.localAs }
              match bgpNeighbor g { ipv4 := q.ipv4, ipv6 := q.ipv6 } node.sessions with
              | none => (.skip, v6')
              | some g =>
                match l.vrf with
                | some v => if v ∈ node.vrfOff then (.skip, v6') else (.session g, v6')
                | none => (.session g, v6')

/-- `topology.nodes[name]` (`netsim/modules/bgp.py:246`) -/
def findBgpNode (topo : List BgpNode) (name : String) : Option BgpNode :=
  topo.find? (fun n => n.name = name)

/-- The loop over neighbors (`netsim/modules/bgp.py:238-345`): sessions (with the neighbor entry they were built from)
and the number of errors.  A missing node would be a crash; it is skipped here. -/
def ebgpLoop (topo : List BgpNode) (node : BgpNode) (asn las : Int) (l : BgpIntf) :
    Option AddrV → List NgbIf → List (NgbIf × BgpNgb) × Nat
  | _, [] => ([], 0)
  | v6, q :: r =>
    match findBgpNode topo q.node with
    | none => ebgpLoop topo node asn las l v6 r
    | some n =>
      match ebgpOne node asn las l v6 q n with
      | (.skip, v6') => ebgpLoop topo node asn las l v6' r
      | (.error, v6') =>
        let (s, e) := ebgpLoop topo node asn las l v6' r
        (s, e + 1)
      | (.session g, v6') =>
        let (s, e) := ebgpLoop topo node asn las l v6' r
        ((q, g) :: s, e)

/-- EBGP sessions on an interface (`netsim/modules/bgp.py:215-345`) -/
def ebgpIntf (topo : List BgpNode) (node : BgpNode) (asn : Int) (l : BgpIntf) : List (NgbIf × BgpNgb) × Nat :=
  if l.bgp = .off then ([], 0)
  else
    let las := (linkAs l.bgp node).getD asn
    if l.ipv4.isNone && l.ipv6.isNone then ([], 0)
    else if asn ≠ las ∧ !node.features.localAs then ([], 1)
    else if asn ≠ las ∧ l.vrf.any (· ≠ "") ∧ !node.features.vrfLocalAs then ([], 1)
    else ebgpLoop topo node asn las l l.ipv6 l.neighbors

/-- `netsim/modules/bgp.py:210-345` (`build_ebgp_sessions`) -/
def buildEbgpSessions (topo : List BgpNode) (node : BgpNode) (asn : Int) : List BgpNgb × Nat :=
  node.interfaces.foldl (fun st l =>
    let (s, e) := ebgpIntf topo node asn l
    (st.1 ++ s.map (·.2), st.2 + e)) ([], 0)

/-- The global neighbor list built by `build_bgp_sessions` (`netsim/modules/bgp.py:422-429`) and the number of errors.
Validation of the sessions attribute is left out. -/
def buildBgpSessions (topo : List BgpNode) (node : BgpNode) (asn : Int) : List BgpNgb × Nat :=
  let (s, e) := buildEbgpSessions topo node asn
  (buildIbgpSessions topo node asn ++ s.filter (fun g => g.vrf.isNone), e)

end Netlab
