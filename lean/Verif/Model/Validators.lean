import Verif.Model.PrefixCheck
/-!
# Validation functions (`netsim/validate/bgp`, `netsim/validate/ospf`, `netsim/validate/isis`, `netsim/validate/route`, `netsim/validate/linux.py`, `netsim/validate/eos.py`)

The functions get the (parsed) printout of the device and decide whether the test passes.  Every exception other than `log.Result` fails the test
(`netsim/cli/validate.py:379-397`); the texts of the messages are left out.  The models return `true` when the test passes.
-/

namespace Netlab

/-! ### BGP neighbors -/

/-- An address of a BGP neighbor: a text, or `True` for an unnumbered session (`netsim/validate/_common.py:10`) -/
inductive VnNgbAddr where
  | text (s : String)
  | unnumbered
  deriving DecidableEq

/-- An item in the list of BGP neighbors (`netsim/validate/_common.py:11-16`): the name and the addresses -/
structure VnNgb where
  name : String
  addrs : List (String × VnNgbAddr)

/-- `netsim/validate/_common.py:10-18` (`get_bgp_neighbor_id`): no value when it raises an exception -/
def vnAddr (n af : String) : List VnNgb → Option VnNgbAddr
  | [] => none
  | x :: r =>
    if x.name ≠ n then vnAddr n af r
    else
      match x.addrs.lookup af with
      | none => vnAddr n af r
      | some a => some a

/-- `af_lookup` in `netsim/validate/bgp/frr.py:12-16` -/
def frAfLookup : List (String × String) := [("ipv4", "ipv4Unicast"), ("ipv6", "ipv6Unicast"), ("evpn", "evpn")]

/-- `netsim/validate/bgp/frr.py:40-43`: the key of the peer in the printout -/
def frPeerKey (intf : String) : VnNgbAddr → Option String
  | .text s => some s
  | .unnumbered => if intf = "" then none else some intf

/-- `netsim/validate/bgp/frr.py:29-67` (`valid_bgp_neighbor`).  The result has the states of BGP peers for every address family; the expected state is a
text (`x not in state` looks for a part of the text). -/
def frBgpNeighbor (ngb : List VnNgb) (n af state activate intf : String) (result : List (String × List (String × String))) : Bool :=
  match vnAddr n af ngb with
  | none => false
  | some a =>
    match frPeerKey intf a with
    | none => false
    | some key =>
      match frAfLookup.lookup (if activate = "" then af else activate) with
      | none => false
      | some st =>
        match result.lookup st with
        | none => false
        | some peers =>
          match peers.lookup key with
          | none => state == "missing"
          | some s => pySubstr s.toList state.toList

/-- `netsim/validate/bgp/frr.py:73-88` (`valid_bgp_neighbor_details`): the attributes of the neighbor in the printout -/
def frBgpDetails (ngb : List VnNgb) (n af : String) (want : List (String × Val)) (result : List (String × List (String × Val))) : Bool :=
  match vnAddr n af ngb with
  | some (.text a) =>
    match result.lookup a with
    | none => false
    | some d => want.all (fun kv => d.lookup kv.1 == some kv.2)
  | _ => false

/-- `netsim/validate/bgp/eos.py:12-19` (`check_vrf_data`): the printout has VRFs, and a VRF may have peers -/
def eoPeers (vrf : String) (result : Option (List (String × Option (List (String × String))))) : Option (List (String × String)) :=
  match result with
  | none => none
  | some vrfs =>
    match vrfs.lookup vrf with
    | some (some peers) => some peers
    | _ => none

/-- `netsim/validate/bgp/eos.py:60-61`: is the address of the neighbor in the printout?  `True` is not a key in the printout. -/
def eoPeerState (peers : List (String × String)) : VnNgbAddr → Option String
  | .text s => peers.lookup s
  | .unnumbered => none

/-- `netsim/validate/bgp/eos.py:37-72` (`valid_bgp_neighbor`) -/
def eoBgpNeighbor (ngb : List VnNgb) (n af state vrf : String) (result : Option (List (String × Option (List (String × String))))) : Bool :=
  match vnAddr n af ngb with
  | none => false
  | some a =>
    match eoPeers vrf result with
    | none => false
    | some peers =>
      match eoPeerState peers a with
      | none => state == "missing"
      | some s => if pySubstr s.toList state.toList then true else state == "missing" && s != "Established"

/-! ### OSPF neighbors -/

/-- A value in the printout of OSPF neighbors on FRR (`netsim/validate/ospf/frr.py:23-31`): a VRF or a list of adjacencies (states) -/
inductive FrOspfItem where
  | vrf (d : List (String × List String))
  | ngb (l : List String)

/-- `x.startswith(p)` (`netsim/validate/ospf/frr.py:36`) -/
def vnStarts (p s : String) : Bool := p.toList.isPrefixOf s.toList

/-- `netsim/validate/ospf/frr.py:26-39`: the adjacencies with the neighbor -/
def frOspfState (present : Bool) : Option (List String) → Bool
  | none => !present
  | some [] => false
  | some (s :: _) => present && vnStarts "Full" s

/-- `netsim/validate/ospf/frr.py:20-39` (`valid_ospf_neighbor`) -/
def frOspfNeighbor (id : String) (present : Bool) (vrf : String) (result : List (String × FrOspfItem)) : Bool :=
  match result.lookup vrf with
  | some (.vrf d) => frOspfState present (d.lookup id)
  | some (.ngb _) => !present
  | none =>
    match result.lookup id with
    | some (.ngb l) => frOspfState present (some l)
    | some (.vrf _) => false
    | none => !present

/-- `n_idx.split('%')[0]` (`netsim/validate/ospf/frr.py:53`) -/
def vnRouterId (k : String) : String := String.ofList (k.toList.takeWhile (· ≠ '%'))

/-- `netsim/validate/ospf/frr.py:48-69` (`valid_ospf6_neighbor`): the keys are router IDs followed by interface names -/
def frOspf6Neighbor (id : String) (present : Bool) (result : List (String × String)) : Bool :=
  match result.find? (fun x => vnRouterId x.1 == id) with
  | none => !present
  | some (_, s) => present && s == "Full"

/-- `netsim/validate/ospf/eos.py:13-26` (`get_ospf_neighbor_data`): the adjacencies (router ID and state) in all OSPF instances of a VRF -/
def eoOspfData (id vrf : String) (result : List (String × List (String × List (String × String)))) : List (String × String) :=
  match result.lookup vrf with
  | none => []
  | some inst => (inst.flatMap (·.2)).filter (fun a => a.1 == id)

/-- `netsim/validate/ospf/eos.py:35-55` (`valid_ospf_neighbor`, also used for OSPFv3 in `netsim/validate/ospf/eos.py:64-65`) -/
def eoOspfNeighbor (id : String) (present : Bool) (vrf : String) (result : List (String × List (String × List (String × String)))) : Bool :=
  match eoOspfData id vrf result with
  | [] => !present
  | a :: _ => present && vnStarts "full" a.2

/-! ### OSPF prefixes -/

/-- A route in the OSPF table of FRR (`netsim/validate/ospf/frr.py:77-87`) -/
structure FrOspfRoute where
  routeType : String
  cost : Option Int
  type2cost : Option Int
  deriving DecidableEq

/-- `netsim/validate/ospf/frr.py:80-82`: the cost of the route (an exception when there is none) -/
def frOspfCost (p : FrOspfRoute) : Option Int := if pySubstr "E2".toList p.routeType.toList then p.type2cost else p.cost

/-- `netsim/validate/ospf/frr.py:77-84` (`check_ospf_cost`) -/
def frCheckCost (v : Int) (d : List FrOspfRoute) : VpOut FrOspfRoute :=
  if d.any (fun p => (frOspfCost p).isNone) then .fail else .data (d.filter (fun p => frOspfCost p == some v))

/-- `netsim/validate/ospf/frr.py:89-104` (`valid_ospf_prefix`), with `get_ospf_prefix` (`netsim/validate/ospf/frr.py:74-75`) and `check_ospf_rt`
(`netsim/validate/ospf/frr.py:86-87`).  `norm` is `get_prefix` (`netsim/utils/routing.py:23-24`), no value when it raises an exception. -/
def frOspfPrefix (norm : String → Option String) (pfx : String) (missing : Bool) (cost : Option Int) (rt : Option String) (unknown : Bool)
    (table : List (String × FrOspfRoute)) : Bool :=
  match norm pfx with
  | none => false
  | some p => vpRun missing unknown
      (vpOpt cost frCheckCost ++ vpOpt rt (fun v d => .data (d.filter (fun x => x.routeType == v)))) ((table.lookup p).map (fun x => [x]))

/-- A route in the OSPFv3 table of FRR (`netsim/validate/ospf/frr.py:112-124`) -/
structure FrOspf6Route where
  pathType : String
  metricCost : Option Int
  metricCostE2 : Option Int
  deriving DecidableEq

/-- `netsim/validate/ospf/frr.py:115-117`: the cost of the route (an exception when there is none) -/
def frOspf6Cost (p : FrOspf6Route) : Option Int := if p.pathType = "External-2" then p.metricCostE2 else p.metricCost

/-- `netsim/validate/ospf/frr.py:112-121` (`check_ospf6_cost`) -/
def frCheckCost6 (v : Int) (d : List FrOspf6Route) : VpOut FrOspf6Route :=
  if d.any (fun p => (frOspf6Cost p).isNone) then .fail else .data (d.filter (fun p => frOspf6Cost p == some v))

/-- `netsim/validate/ospf/frr.py:126-141` (`valid_ospf6_prefix`), with `get_ospf6_prefix` (`netsim/validate/ospf/frr.py:109-110`) and `check_ospf6_rt`
(`netsim/validate/ospf/frr.py:123-124`); `table` is `routes`, there's an exception when it's not in the printout. -/
def frOspf6Prefix (norm : String → Option String) (pfx : String) (missing : Bool) (cost : Option Int) (rt : Option String) (unknown : Bool)
    (table : Option (List (String × FrOspf6Route))) : Bool :=
  match norm pfx with
  | none => false
  | some p =>
    match table with
    | none => false
    | some t => vpRun missing unknown
        (vpOpt cost frCheckCost6 ++ vpOpt rt (fun v d => .data (d.filter (fun x => x.pathType == v)))) ((t.lookup p).map (fun x => [x]))

/-- Outcome of a test that can be skipped (`netsim/cli/validate.py:383-391`) -/
inductive VnOutcome where
  | pass
  | fail
  | skip
  deriving DecidableEq

/-- The outcome of a test that is not skipped (`netsim/cli/validate.py:379-382`) -/
def vnOutcome (b : Bool) : VnOutcome := if b then .pass else .fail

/-- `netsim/validate/ospf/eos.py:70-74` (`get_ospf_prefix`): the metric of the route in the first VRF in the printout -/
def eoOspfLookup (p : String) : List (String × List (String × Int)) → Option Int
  | [] => none
  | v :: _ => v.2.lookup p

/-- `netsim/validate/ospf/eos.py:82-97` (`valid_ospf_prefix`, also `netsim/validate/ospf/eos.py:102-117`), with `check_ospf_cost` and `check_ospf_rt`
(`netsim/validate/ospf/eos.py:76-80`): the check of the route type, made after the check of the cost, skips the test. -/
def eoOspfPrefix (norm : String → Option String) (pfx : String) (missing : Bool) (cost : Option Int) (rt unknown : Bool)
    (result : List (String × List (String × Int))) : VnOutcome :=
  match norm pfx with
  | none => .fail
  | some p =>
    match eoOspfLookup p result with
    | none => vnOutcome missing
    | some m =>
      if unknown then .fail
      else
        match cost with
        | none => if rt then .skip else vnOutcome (!missing)
        | some c => if m ≠ c then vnOutcome missing else if missing then .fail else if rt then .skip else .pass

/-! ### IS-IS -/

/-- An IS-IS circuit (`netsim/validate/isis/frr.py:39-53`): the system ID of the neighbor, state, circuit type and area -/
structure IsCircuit where
  adj : Option String
  state : String
  level : Option String
  area : Option String
  deriving DecidableEq

/-- `netsim/validate/isis/frr.py:13-29` (`check_neighbor_state`, `check_neighbor_level`, `check_neighbor_area`), called when the expected value is not empty
(`netsim/validate/isis/frr.py:49-54`) -/
def isChecks (state level area : String) (c : IsCircuit) : Bool :=
  (state == "" || c.state == state) && (level == "" || c.level == some level) && (area == "" || c.area == some area)

/-- `netsim/validate/isis/frr.py:39-55`: the circuits of an area (`some x` when the function returns or raises an exception) -/
def isCircuits (id : String) (present : Bool) (state level area : String) : List IsCircuit → Option Bool
  | [] => none
  | c :: r => if c.adj ≠ some id then isCircuits id present state level area r else if !present then some false else some (isChecks state level area c)

/-- `netsim/validate/isis/frr.py:38-60`: the areas -/
def isAreas (id : String) (present : Bool) (state level area : String) : List (Option (List IsCircuit)) → Bool
  | [] => !present
  | a :: r =>
    match isCircuits id present state level area (a.getD []) with
    | some b => b
    | none => isAreas id present state level area r

/-- `netsim/validate/isis/frr.py:31-60` (`valid_isis_neighbor`) -/
def isNeighbor (id : String) (present : Bool) (state level area : String) (areas : Option (List (Option (List IsCircuit)))) : Bool :=
  match areas with
  | none => !present
  | some l => isAreas id present state level area l

/-- An IS-IS prefix (`netsim/validate/isis/frr.py:65-68`, `netsim/validate/isis/frr.py:90-91`): the attributes have lower-case or capitalised names -/
structure IsPrefix where
  prefix' : Option String
  capPrefix : Option String
  metric : Option Int
  capMetric : Option Int

/-- `p_info.get('prefix',p_info.get('Prefix',None))` (`netsim/validate/isis/frr.py:91`) -/
def isPfx (p : IsPrefix) : Option String := p.prefix'.or p.capPrefix

/-- `p_info.get('metric',p_info.get('Metric',None))` (`netsim/validate/isis/frr.py:66`) -/
def isMetric (p : IsPrefix) : Option Int := p.metric.or p.capMetric

/-- `netsim/validate/isis/frr.py:90-97`: the prefixes of an area -/
def isPfxList (pfx : String) (present : Bool) (cost : Option Int) : List IsPrefix → Option Bool
  | [] => none
  | p :: r =>
    if isPfx p ≠ some pfx then isPfxList pfx present cost r
    else if !present then some false
    else
      match cost with
      | none => some true
      | some c => some (isMetric p == some c)

/-- `netsim/validate/isis/frr.py:81-101`: the areas; an area has address families for every level -/
def isPfxAreas (pfx level af : String) (present : Bool) (cost : Option Int) : List (List (String × List (String × List IsPrefix))) → Bool
  | [] => !present
  | a :: r =>
    match a.lookup ("level-" ++ level) with
    | none => isPfxAreas pfx level af present cost r
    | some info =>
      match info.lookup af with
      | none => isPfxAreas pfx level af present cost r
      | some l =>
        match isPfxList pfx present cost l with
        | some b => b
        | none => isPfxAreas pfx level af present cost r

/-- `netsim/validate/isis/frr.py:70-101` (`valid_isis_prefix`) -/
def isPrefixTest (norm : String → Option String) (pfx level af : String) (present : Bool) (cost : Option Int)
    (areas : List (List (String × List (String × List IsPrefix)))) : Bool :=
  match norm pfx with
  | none => false
  | some p => isPfxAreas p level af present cost areas

/-! ### IP routes -/

/-- `netsim/validate/route/frr.py:22-56` (`valid_rt_prefix`), with `check_rt_metric` (`netsim/validate/route/frr.py:16-20`).  A prefix has a list of routes; a
route may have a metric.  Other arguments are ignored (`netsim/validate/route/frr.py:43-45`). -/
def frRoute (norm : String → Option String) (pfx : String) (missing : Bool) (metric : Option Int) (table : List (String × List (Option Int))) : Bool :=
  match norm pfx with
  | none => false
  | some p =>
    match table.lookup p with
    | none => missing
    | some [] => false
    | some (m :: _) =>
      match metric with
      | none => true
      | some v => m == some v

/-- `netsim/validate/ospf/frr.py:146-164` (`valid_ipv6_route`): the prefix is used as it is -/
def frRoute6 (pfx : String) (cost : Option Int) (table : List (String × List (Option Int))) : Bool :=
  match table.lookup pfx with
  | none => false
  | some [] => false
  | some (m :: _) =>
    match cost with
    | none => true
    | some c => m == some c

/-! ### Linux -/

/-- The number of bytes in an echo reply (`netsim/validate/linux.py:72`, `netsim/validate/eos.py:54`); `def` is 64 on Linux and 80 on EOS.  A packet length of
0 is the same as no packet length. -/
def pingBytes (dflt : Nat) : Option Nat → Nat
  | none => dflt
  | some 0 => dflt
  | some n => n + 8

/-- `netsim/validate/linux.py:50-74` (`valid_ping`), the same as `netsim/validate/eos.py:33-56`: does the test pass? -/
def pingTest (dflt : Nat) (len : Option Nat) (expectFail : Bool) (stdout : String) : Bool :=
  if expectFail then ["0 packets received", "0 received", "unreachable"].any (fun k => pySubstr k.toList stdout.toList)
  else pySubstr (toString (pingBytes dflt len) ++ " bytes from").toList stdout.toList

/-- `netsim/validate/linux.py:79-84` (`valid_default6`) -/
def default6Test (stdout : String) : Bool := pySubstr "default".toList stdout.toList

/-- Does the regular expression match the beginning of the text?  A dot matches any character; other special characters are left out
(`netsim/validate/linux.py:88-90` uses prefixes and interface names as regular expressions). -/
def grepHere : List Char → List Char → Bool
  | [], _ => true
  | _ :: _, [] => false
  | p :: ps, c :: cs => (p == '.' || p == c) && grepHere ps cs

/-- `grep` (`netsim/validate/linux.py:88-90`): does the regular expression match anywhere in the line? -/
def grepLine (p : String) : List Char → Bool
  | [] => grepHere p.toList []
  | c :: cs => grepHere p.toList (c :: cs) || grepLine p cs

/-- The lines printed by the command in `netsim/validate/linux.py:86-92` (`exec_route`) when the routing table printout is `lines` -/
def routeLines (pfx intf : String) (lines : List String) : List String :=
  (lines.filter (fun l => grepLine pfx l.toList)).filter (fun l => intf == "" || grepLine ("dev " ++ intf) l.toList)

/-- `netsim/validate/linux.py:94-105` (`valid_route`): a printout without lines fails the test unless the route should be missing -/
def routeValid (missing : Bool) (out : List String) : Bool := if missing then out.isEmpty else !out.isEmpty

/-- The outcome of the test in `netsim/cli/validate.py:879-899`: `grep` that prints nothing fails, the command then returns `False`
(`netsim/cli/external_commands.py:103-123`, `netsim/cli/connect.py:86`), and the test fails when errors have to be reported (`final`: the test has no more time
to wait, `netsim/cli/validate.py:999`) -/
def routeTest (final missing : Bool) (pfx intf : String) (lines : List String) : Bool :=
  if (routeLines pfx intf lines).isEmpty && final then false else routeValid missing (routeLines pfx intf lines)

end Netlab
