import Verif.Model.Bgp
/-!
# BGP address families, advertised prefixes and communities (`netsim/modules/bgp.py`)
-/

namespace Netlab

/-- `bgp.activate` (`netsim/modules/bgp.py:444`): session types for an address family; `none`: not in the dictionary -/
structure Activate where
  ipv4 : Option (List SType) := none
  ipv6 : Option (List SType) := none
  deriving Repr, DecidableEq

/-- Interface (`netsim/modules/bgp.py:458-477`).  `off`: `bgp: False`; `ipv4`, `ipv6`: the address family has a value that
is not false; `vrf`: the interface is in a VRF. -/
structure AfIntf where
  type : Option String := none
  role : Option String := none
  off : Bool := false
  advertise : Option Bool := none
  ipv4 : Bool := false
  ipv6 : Bool := false
  vrf : Bool := false
  neighbors : List String := []
  deriving Repr, DecidableEq

/-- BGP neighbor and its `activate` flags (`netsim/modules/bgp.py:357-361`) -/
structure AfNgb where
  ngb : BgpNgb
  act4 : Option Bool := none
  act6 : Option Bool := none
  deriving Repr, DecidableEq

/-- BGP node (`netsim/modules/bgp.py:411-513`).  `lo4`, `lo6`: address families of the loopback; `activateAf`: device
feature; `bgp4`, `bgp6`: the address family flags of the BGP process. -/
structure AfNode where
  name : String := ""
  ngbs : List AfNgb := []
  bgp4 : Bool := false
  bgp6 : Bool := false
  activate : Option Activate := none
  activateAf : Bool := true
  advertiseLoopback : Option Bool := none
  lo4 : Bool := false
  lo6 : Bool := false
  originate : List String := []
  interfaces : List AfIntf := []
  deriving Repr, DecidableEq

/-- A node as seen by its neighbors (`netsim/modules/_routing.py:118`) -/
structure AfPeer where
  daemon : Bool := false
  role : String := ""
  deriving Repr, DecidableEq

/-- `netsim/modules/_routing.py:111-121` (`is_true_stub`) called without a protocol (`netsim/modules/bgp.py:473`) -/
def bgpTrueStub (peer : String → AfPeer) (l : AfIntf) : Bool :=
  l.neighbors.all (fun n => !((peer n).daemon || (peer n).role != "host"))

/-- `netsim/modules/bgp.py:431-434`: address families used by a global neighbor -/
def afFromNeighbors (n : AfNode) : AfNode :=
  { n with bgp4 := n.bgp4 || n.ngbs.any (fun g => g.ngb.ipv4.isSome)
           bgp6 := n.bgp6 || n.ngbs.any (fun g => g.ngb.ipv6.isSome) }

/-- `node.bgp.get('activate') or BGP_DEFAULT_SESSIONS` (`netsim/modules/bgp.py:405-408,444`); an empty dictionary is
false. -/
def Activate.effective (a : Option Activate) : Activate :=
  match a with
  | some ⟨none, none⟩ | none => ⟨some Sessions.default.ipv4, some Sessions.default.ipv6⟩
  | some a => a

/-- `netsim/modules/bgp.py:357-361` (`activate_bgp_default_af`) for one neighbor -/
def activateNgb (n : AfNode) (a : Activate) (g : AfNgb) : AfNgb :=
  { g with
    act4 := if g.ngb.ipv4.isSome then some (n.bgp4 && (a.ipv4.getD []).contains g.ngb.type) else g.act4
    act6 := if g.ngb.ipv6.isSome then some (n.bgp6 && (a.ipv6.getD []).contains g.ngb.type) else g.act6 }

/-- `netsim/modules/bgp.py:429-450`: the last part of `build_bgp_sessions` (address families and activation) and the
number of errors.  Validation of the attribute is left out; the statement at lines 447-448 looks for a session type among
address families and never does anything. -/
def activateAfs (n : AfNode) : AfNode × Nat :=
  let m := afFromNeighbors n
  if m.activate.isSome && !m.activateAf then (m, 1)
  else ({ m with ngbs := m.ngbs.map (activateNgb m (Activate.effective m.activate)) }, 0)

/-- `netsim/modules/bgp.py:455-477` (`bgp_set_advertise`) for one interface.  `roles`: `bgp.advertise_roles` -/
def setAdvertise (roles : List String) (peer : String → AfPeer) (adLo : Option Bool) (l : AfIntf) : AfIntf :=
  if l.off then l
  else if l.advertise.isSome then l
  else if l.type.any roles.contains || l.role.any roles.contains then
    if l.role ≠ some "stub" then { l with advertise := some true }
    else { l with advertise := some (bgpTrueStub peer l) }
  else if l.type = some "loopback" ∧ adLo = some true then { l with advertise := some true }
  else l

/-- `netsim/modules/bgp.py:486-497`: replace named prefixes.  A prefix in the table may have no IPv4 component. -/
def originatePrefix (pfx : List (String × Option String)) (o : String) : String × Nat :=
  match pfx.lookup o with
  | none => (o, 0)
  | some none => (o, 1)
  | some (some v) => (v, 0)

/-- `netsim/modules/bgp.py:499-513` for one address family: `flag` is the current flag of the process, `lo` tells whether
the loopback has the address family, `has` selects the address family of an interface. -/
def originateAf (n : AfNode) (flag lo : Bool) (has : AfIntf → Bool) : Bool :=
  if flag then true
  else if n.advertiseLoopback.getD true && lo then true
  else n.interfaces.any (fun i => has i && (!i.off && i.advertise.getD false) && !i.vrf)

/-- `netsim/modules/bgp.py:482-513` (`bgp_set_originate_af`) -/
def setOriginateAf (pfx : List (String × Option String)) (n : AfNode) : AfNode × Nat :=
  let r := n.originate.map (originatePrefix pfx)
  ({ n with
     bgp4 := originateAf n (n.bgp4 || !n.originate.isEmpty) n.lo4 (·.ipv4)
     bgp6 := originateAf n n.bgp6 n.lo6 (·.ipv6)
     originate := r.map (·.1) }, (r.map (·.2)).sum)

/-- The part of `node_post_transform` after the sessions are built (`netsim/modules/bgp.py:710-712`) -/
def bgpAfPost (roles : List String) (peer : String → AfPeer) (pfx : List (String × Option String)) (n : AfNode) :
    AfNode × Nat :=
  let a := activateAfs n
  let b := { a.1 with interfaces := a.1.interfaces.map (setAdvertise roles peer a.1.advertiseLoopback) }
  let c := setOriginateAf pfx b
  (c.1, a.2 + c.2)

/-! ## Communities -/

/-- `bgp.community` (`netsim/modules/bgp.py:29-39`): a keyword, a list or a dictionary -/
inductive CommSpec where
  | one (k : String)
  | list (l : List String)
  | dict (ibgp ebgp : Option (List String))
  deriving Repr, DecidableEq

/-- Device translation of a keyword (`netsim/data/__init__.py:169-175`) -/
inductive KwVal where
  | same
  | off
  | word (w : String)
  | words (l : List String)
  deriving Repr, DecidableEq

/-- Communities for the session types (`netsim/modules/bgp.py:585,601-605`); `none`: not in the dictionary -/
structure CommList where
  ibgp : Option (List String) := none
  ebgp : Option (List String) := none
  localas : Option (List String) := none
  deriving Repr, DecidableEq

/-- `netsim/modules/bgp.py:29-39`: normalised communities; unknown keys are left out -/
def commNormal : CommSpec → CommList
  | .one k => { ibgp := some [k], ebgp := some [k] }
  | .list l => { ibgp := some l, ebgp := some l }
  | .dict i e => { ibgp := i, ebgp := e }

/-- `netsim/data/__init__.py:165-175` (`kw_lookup`) -/
def kwLookup (t : List (String × KwVal)) (k : String) : List String :=
  match t.lookup k with
  | none => []
  | some .same => [k]
  | some .off => []
  | some (.word w) => [w]
  | some (.words l) => l

/-- `netsim/data/__init__.py:177-184` (`kw_list_transform`) -/
def kwTransform (t : List (String × KwVal)) (l : List String) : List String :=
  l.foldl (fun r k => (kwLookup t k).foldl (fun r w => if r.contains w then r else r ++ [w]) r) []

/-- `BGP_DEFAULT_COMMUNITY_KW` (`netsim/modules/bgp.py:575-578`) -/
def defaultCommKw : List (String × KwVal) := [("standard", .word "standard"), ("extended", .word "extended")]

/-- Unknown keywords (`netsim/modules/bgp.py:591-599`) -/
def commErrors (t : List (String × KwVal)) (l : Option (List String)) : Nat :=
  ((l.getD []).filter (fun k => (t.lookup k).isNone)).length

/-- `netsim/modules/bgp.py:583-605` (`bgp_transform_community_list`): communities and number of errors.  `features` is the
keyword table of the device (`none`: no such feature; an empty table is false).  When the IBGP communities are missing,
reading them yields an empty dictionary. -/
def commTransform (features : Option (List (String × KwVal))) (c : CommList) : CommList × Nat :=
  if c = {} then (c, 0)
  else
    let t := if (features.getD []).isEmpty then defaultCommKw else features.getD []
    let e := commErrors t c.ibgp + commErrors t c.ebgp + commErrors t c.localas
    let las := if c.localas.isSome then c.localas else some (c.ibgp.getD [])
    ({ ibgp := c.ibgp.map (kwTransform t), ebgp := c.ebgp.map (kwTransform t), localas := las.map (kwTransform t) }, e)

/-- `bgp.community` from the node attribute to the device keywords (`netsim/modules/bgp.py:29-39,583-605`) -/
def commSetup (features : Option (List (String × KwVal))) (s : CommSpec) : CommList × Nat :=
  commTransform features (commNormal s)

end Netlab
