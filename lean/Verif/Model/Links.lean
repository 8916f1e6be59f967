import Verif.Model.Ipam
/-!
# Node interfaces, neighbor lists and link numbering (`netsim/augment/links.py`)
-/

namespace Netlab

/-- `netsim/augment/links.py:18-19` (`VIRTUAL_INTERFACE_TYPES`) -/
def virtualTypes : List String := ["loopback", "tunnel", "lag", "svi"]

/-- Interface data before it is attached to a node (`netsim/augment/links.py:844-848`): link
type, user-specified index and name, addresses, MTU.  Other attributes are not modelled. -/
structure IfReq where
  ty : Option String
  ifindex : Option Int
  ifname : Option String
  ip4 : IfAddr
  ip6 : IfAddr
  mtu : Option Int
  deriving Repr, DecidableEq

/-- An entry of a neighbor list (`netsim/augment/links.py:870-883`): node, interface name and
addresses; module data is not modelled. -/
structure Nbr where
  node : String
  ifname : Option String
  ip4 : IfAddr
  ip6 : IfAddr
  deriving Repr, DecidableEq

/-- An element of `node.interfaces` (`netsim/augment/links.py:311-337`, `add_node_interface`):
all interfaces of the lab are kept in one list, tagged with the node name.  `link` is the
`linkindex` copied from the link. -/
structure NodeIf where
  node : String
  link : Int
  ty : Option String
  ifindex : Int
  ifname : Option String
  ip4 : IfAddr
  ip6 : IfAddr
  mtu : Option Int
  nbrs : List Nbr
  deriving Repr, DecidableEq

/-- Device data used when an interface is created (`netsim/augment/links.py:235-309`):
`ifindex_offset`, `loopback_offset`, interface names (as functions of interface type and
index), node MTU and the `system_mtu` device feature. -/
structure NodeDev where
  ifOffset : Option Int
  loOffset : Option Int
  ifFormat : Option (Int → String)
  virtFormat : String → Option (Int → String)
  mtu : Option Int
  sysMtu : Bool

/-- The `while` loop of `netsim/augment/links.py:215-219` (`get_unique_ifindex`) with `stop -
ifindex` as the first argument. -/
def ifindexLoop (used : List Int) : Nat → Int → Option Int
  | 0, _ => none
  | k + 1, i => if used.contains i then ifindexLoop used k (i + 1) else some i

/-- The list of used indices in `netsim/augment/links.py:211-213`; `ifs` are the interfaces of
the node. -/
def usedIndices (ifs : List NodeIf) (iftype : Option String) : List Int :=
  (ifs.filter (fun i => match iftype with
    | some t => i.ty == some t
    | none => !(virtualTypes.any (fun t => i.ty == some t)))).map (·.ifindex)

/-- `netsim/augment/links.py:204-225` (`get_unique_ifindex`): index and "no error" flag. -/
def uniqueIfindex (ifs : List NodeIf) (iftype : Option String) (start : Int) : Int × Bool :=
  match ifindexLoop (usedIndices ifs iftype) 1000 start with
  | some i => (i, true)
  | none => (start + ifs.length + 1, false)

/-- Is this a virtual interface (`netsim/augment/links.py:312`) -/
def isVirtual (ty : Option String) : Bool := virtualTypes.any (fun t => ty == some t)

/-- Index offset of a virtual interface type (`netsim/augment/links.py:277`) -/
def virtOffset (t : String) : Int := ((virtualTypes.idxOf t : Int) + 1) * 10000

/-- First index of a virtual interface type (`netsim/augment/links.py:271-273`): a missing or
zero `loopback_offset` is replaced with 1; the offset of other types is always zero. -/
def virtStart (d : NodeDev) (t : String) : Int :=
  (if t = "loopback" then (if d.loOffset.getD 0 = 0 then 1 else d.loOffset.getD 0) else 0) +
    virtOffset t

/-- Index and name of a physical interface: `netsim/augment/links.py:235-259`
(`create_regular_interface`) without provider data.  The result is the index, the name
and the "no error" flag; `ifs` are the interfaces of the node. -/
def regularIf (d : NodeDev) (ifs : List NodeIf) (r : IfReq) : Int × Option String × Bool :=
  let off := d.ifOffset.getD 1
  let (idx, ok) := match r.ifindex with
    | none => uniqueIfindex ifs none off
    | some i => (i, decide (off ≤ i))
  let name := match r.ifname with
    | some n => some n
    | none => d.ifFormat.map (· idx)
  (idx, name, ok)

/-- Index and name of a virtual interface: `netsim/augment/links.py:269-309`
(`create_virtual_interface`) -/
def virtualIf (d : NodeDev) (ifs : List NodeIf) (t : String) (r : IfReq) :
    Int × Option String × Bool :=
  let (idx, ok) := match r.ifindex with
    | none => uniqueIfindex ifs (some t) (virtStart d t)
    | some i => (i, true)
  match r.ifname with
  | some n => (idx, some n, ok)
  | none =>
    match d.virtFormat t with
    | some f => (idx, some (f (idx - virtOffset t)), ok)
    | none => (idx, none, false)

/-- Removal of `False` addresses in `netsim/augment/links.py:317-319`; `not ifdata[af]` is also
true for a host index of zero and an empty string (which is not a possible value here). -/
def dropFalse : IfAddr → IfAddr
  | .flag false => .missing
  | .index 0 => .missing
  | a => a

/-- MTU handling in `netsim/augment/links.py:321-331`; a node MTU of zero counts as no MTU. -/
def ifMtu (d : NodeDev) (ty : Option String) (m : Option Int) : Option Int :=
  let m' := if d.mtu.getD 0 = 0 then m
    else match m with
      | some x => if d.sysMtu && d.mtu == some x then none else some x
      | none => if d.sysMtu then none else d.mtu
  if ty = some "loopback" then none else m'

/-- Index, name and success flag of a new interface: the two branches of
`netsim/augment/links.py:312-315`. -/
def ifIdent (d : NodeDev) (ifs : List NodeIf) (r : IfReq) : Int × Option String × Bool :=
  match r.ty with
  | some t => if isVirtual (some t) then virtualIf d ifs t r else regularIf d ifs r
  | none => regularIf d ifs r

/-- `netsim/augment/links.py:311-337` (`add_node_interface`): the new interface and the
"no error" flag.  `all` are all interfaces created so far. -/
def newInterface (dev : String → NodeDev) (all : List NodeIf) (link : Int) (node : String)
    (r : IfReq) : NodeIf × Bool :=
  let d := dev node
  let (idx, name, ok) := ifIdent d (all.filter (fun i => i.node == node)) r
  ({ node := node, link := link, ty := r.ty, ifindex := idx, ifname := name,
     ip4 := dropFalse r.ip4, ip6 := dropFalse r.ip6, mtu := ifMtu d r.ty r.mtu, nbrs := [] }, ok)

/-- First loop of `netsim/augment/links.py:836-852` (`create_node_interfaces`): returns the
interfaces created for the link and the "no error" flag. -/
def linkInterfaces (dev : String → NodeDev) (link : Int) :
    List NodeIf → List (String × IfReq) → List NodeIf × Bool
  | _, [] => ([], true)
  | all, (n, r) :: rs =>
    let (i, ok) := newInterface dev all link n r
    let (is, ok') := linkInterfaces dev link (all ++ [i]) rs
    (i :: is, ok && ok')

/-- Neighbor data of an interface (`netsim/augment/links.py:870-882`) -/
def nbrOf (i : NodeIf) : Nbr := { node := i.node, ifname := i.ifname, ip4 := i.ip4, ip6 := i.ip6 }

/-- Inner loop of `netsim/augment/links.py:864-883`: neighbors of the interface in position `k`;
"skip the current interface" compares object identities, i.e. positions. -/
def nbrList (k : Nat) (ifs : List NodeIf) : List Nbr :=
  (ifs.zipIdx.filter (fun x => x.2 != k)).map (fun x => nbrOf x.1)

/-- Outer loop of `netsim/augment/links.py:861-883` -/
def setNeighbors (ifs : List NodeIf) : List NodeIf :=
  ifs.mapIdx (fun k i => { i with nbrs := nbrList k ifs })

/-- A link ready for the creation of node interfaces (`netsim/augment/links.py:830`): link
index and the interfaces attached to it. -/
structure LinkReq where
  index : Int
  ifs : List (String × IfReq)
  deriving Repr

/-- `netsim/augment/links.py:830-883` (`create_node_interfaces`) for all links in turn, as called
in `netsim/augment/links.py:1217-1234` (`transform`). -/
def createInterfaces (dev : String → NodeDev) :
    List NodeIf → List LinkReq → List NodeIf × Bool
  | all, [] => (all, true)
  | all, l :: ls =>
    let (is, ok) := linkInterfaces dev l.index all l.ifs
    let (r, ok') := createInterfaces dev (all ++ setNeighbors is) ls
    (r, ok && ok')

/-! ### Link indices -/

/-- `netsim/augment/links.py:1131-1135` (`set_linkindex`): a link is reduced to its index; `n`
is the number of links. -/
def setLinkindex (start : Int) (n : Nat) : List Int := (List.range n).map (fun (k : Nat) => start + k)

/-- `netsim/augment/links.py:1104-1109` (`get_next_linkindex`) -/
def nextLinkindex (start : Int) (links : List Int) : Int :=
  match links.getLast? with
  | none => start
  | some i => i + 1

/-- Operations on the list of links after the initial numbering: modules append a link with
`get_next_linkindex` (`netsim/modules/vlan.py:593`, `netsim/modules/vrf.py:414`, ...), the LAG
module appends member links numbered `len(topology.links)+1` (`netsim/modules/lag.py:165`), and
several functions remove links, retaining those that satisfy a predicate on the link
(`netsim/modules/lag.py:437`, `netsim/modules/vlan.py:1422`). -/
inductive LinkOp where
  | addNext
  | addLag
  | retain (keep : Int → Bool)

/-- One operation on the list of links (see `LinkOp`, `netsim/augment/links.py:1104-1109`) -/
def LinkOp.apply (start : Int) (links : List Int) : LinkOp → List Int
  | .addNext => links ++ [nextLinkindex start links]
  | .addLag => links ++ [(links.length : Int) + 1]
  | .retain keep => links.filter keep

/-- Initial numbering (`netsim/augment/links.py:1131-1135`) followed by later operations -/
def linkHistory (start : Int) (n : Nat) (ops : List LinkOp) : List Int :=
  ops.foldl (LinkOp.apply start) (setLinkindex start n)

/-- `netsim/augment/links.py:1111-1115` (`get_link_by_index`): position of the first link with
the index. -/
def linkByIndex (links : List Int) (idx : Int) : Option Nat := links.findIdx? (· == idx)

/-- `netsim/augment/links.py:971-980` (`set_link_bridge_name`) for a link type that needs a bridge:
the name (`none` = error).  `name` is the lab name. -/
def bridgeName (name : String) (linkindex : Nat) (bridge : Option String) : Option String :=
  match bridge with
  | none => some (String.ofList (name.toList.take 10) ++ "_" ++ toString linkindex)
  | some b => if b.length > 15 then none else some b

end Netlab
