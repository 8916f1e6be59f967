import Verif.Model.Evpn
import Verif.Model.Nodeset
/-!
# Validation of BGP prefixes (`netsim/validate/_common.py:20-86`, `netsim/validate/bgp/frr.py`, `netsim/validate/bgp/eos.py`)

A test passes when the validation function returns a text or raises `log.Result`, and fails on any other exception
(`netsim/cli/validate.py:379-397`).
-/

namespace Netlab

/-- Outcome of a check function (`netsim/validate/_common.py:68`): the remaining paths, `log.Result` exception, another exception -/
inductive VpOut (P : Type) where
  | data (l : List P)
  | pass
  | fail

/-- `netsim/validate/_common.py:65-82`: the checks used in the validation, in the order of the table of checks; `missing` is `state == 'missing'`. -/
def vpLoop (missing : Bool) : List (List P → VpOut P) → List P → Bool
  | [], _ => !missing
  | c :: r, d =>
    match c d with
    | .pass => true
    | .fail => false
    | .data d' => if d'.isEmpty then missing else if missing then false else vpLoop missing r d'

/-- `netsim/validate/_common.py:44-86` (`run_prefix_checks`) with `check_for_prefix` (`netsim/validate/_common.py:26-42`): `table` is the result of the
lookup, `unknown` is true when an unknown check is requested. -/
def vpRun (missing unknown : Bool) (checks : List (List P → VpOut P)) (table : Option (List P)) : Bool :=
  match table with
  | none => missing
  | some d => if unknown then false else vpLoop missing checks d

/-- The state of the prefix (`netsim/validate/bgp/frr.py:238`): the two values with a meaning and any other value -/
inductive VpState where
  | present
  | missing
  | other
  deriving DecidableEq

/-- A filter that reports missing paths (for example, `netsim/validate/bgp/frr.py:121-124`): an exception unless the state is `missing` -/
def vpStrict (st : VpState) (l : List P) : VpOut P := if l.isEmpty && st ≠ .missing then .fail else .data l

/-- A check that is used when the user gives its value (`netsim/validate/_common.py:66-67`) -/
def vpOpt (v : Option V) (f : V → List P → VpOut P) : List (List P → VpOut P) :=
  match v with
  | none => []
  | some x => [f x]

/-- `value.split('/')[0]` (`netsim/validate/bgp/frr.py:111`) -/
def vpHost (s : String) : String := String.ofList (s.toList.takeWhile (· ≠ '/'))

/-- Expected attributes of a BGP prefix (`netsim/validate/bgp/frr.py:249-258`, `netsim/validate/bgp/eos.py:253-263`) -/
structure VpArgs where
  peer : Option String := none
  nh : Option String := none
  best : Option Bool := none
  clusterid : Option String := none
  community : Option (List (String × String)) := none
  asElements : Option (List Nat) := none
  aspath : Option String := none
  locpref : Option Int := none
  med : Option Int := none
  unknown : Bool := false

/-- `BGP_COMMUNITY_KW` (`netsim/validate/bgp/__init__.py:12`) -/
def vpCommKw : List String := ["community", "largeCommunity", "extendedCommunity"]

/-- The second loop in `netsim/validate/bgp/frr.py:160-167`: `ok` tells whether a community was found. -/
def vpCommLoop (st : VpState) (ok : String → Bool) : List (String × String) → VpOut P
  | [] => .pass
  | c :: r =>
    if !vpCommKw.contains c.1 then .fail
    else if st = .present && !ok c.1 then .fail
    else if st = .missing && ok c.1 then .fail
    else vpCommLoop st ok r

/-! ### FRR -/

/-- A BGP path (`netsim/validate/bgp/frr.py:102-224`): router ID of the peer, next hops, best path flag, cluster list, texts with communities, AS path, segments
of the AS path, local preference, MED -/
structure FrPath where
  peer : String
  nexthops : List String
  best : Option Bool
  cluster : Option (List String)
  comms : List (String × String)
  aspath : String
  segments : List (List Nat)
  locpref : Option Int
  med : Option Int
  deriving DecidableEq

/-- `netsim/validate/bgp/frr.py:110-124` (`filter_bgp_nh`) -/
def frNh (st : VpState) (v : String) (d : List FrPath) : VpOut FrPath := vpStrict st (d.filter (fun p => p.nexthops.contains (vpHost v)))

/-- `netsim/validate/bgp/frr.py:136-144` (`check_cluster_id`) -/
def frCluster (st : VpState) (v : String) (d : List FrPath) : VpOut FrPath := vpStrict st (d.filter (fun p => (p.cluster.getD []).contains v))

/-- The first loop in `netsim/validate/bgp/frr.py:153-158`: is the community found in the text of at least one path?  The names of communities are different. -/
def frCommOk (d : List FrPath) (v : List (String × String)) (c : String) : Bool :=
  d.any (fun p => v.any (fun x => x.1 == c && p.comms.any (fun y => y.1 == c && pySubstr x.2.toList y.2.toList)))

/-- `netsim/validate/bgp/frr.py:149-167` (`check_community`) -/
def frComm (st : VpState) (v : List (String × String)) (d : List FrPath) : VpOut FrPath := vpCommLoop st (frCommOk d v) v

/-- AS numbers not found in the AS path (`netsim/validate/bgp/frr.py:198-202`) -/
def frLeft (v : List Nat) (segments : List (List Nat)) : List Nat :=
  segments.foldl (fun a s => s.foldl (fun a n => if a.contains n then a.filter (· ≠ n) else a) a) v

/-- `netsim/validate/bgp/frr.py:190-212` (`check_as_elements`) -/
def frAsElements (st : VpState) (v : List Nat) (d : List FrPath) : VpOut FrPath := vpStrict st (d.filter (fun p => (frLeft v p.segments).isEmpty))

/-- `netsim/validate/bgp/frr.py:172-185` (`check_aspath`) -/
def frAspath (st : VpState) (v : String) (d : List FrPath) : VpOut FrPath := vpStrict st (d.filter (fun p => p.aspath == v))

/-- The checks in `netsim/validate/bgp/frr.py:249-258`, with `filter_bgp_peer` (`netsim/validate/bgp/frr.py:102-103`), `filter_best`
(`netsim/validate/bgp/frr.py:129-130`), `check_locpref` (`netsim/validate/bgp/frr.py:217-218`) and `check_med` (`netsim/validate/bgp/frr.py:223-224`) -/
def frChecks (st : VpState) (a : VpArgs) : List (List FrPath → VpOut FrPath) :=
  vpOpt a.peer (fun v d => .data (d.filter (fun p => p.peer == v))) ++
  vpOpt a.nh (frNh st) ++
  vpOpt a.best (fun v d => .data (d.filter (fun p => p.best == some v))) ++
  vpOpt a.clusterid (frCluster st) ++
  vpOpt a.community (frComm st) ++
  vpOpt a.asElements (frAsElements st) ++
  vpOpt a.aspath (frAspath st) ++
  vpOpt a.locpref (fun v d => .data (d.filter (fun p => p.locpref == some v))) ++
  vpOpt a.med (fun v d => .data (d.filter (fun p => p.med == some v)))

/-- `netsim/validate/bgp/frr.py:235-259` (`valid_bgp_prefix`): does the test pass?  `table` are the paths in the result when it describes a prefix
(`netsim/validate/bgp/frr.py:93-97`). -/
def frValid (st : VpState) (a : VpArgs) (table : Option (List FrPath)) : Bool := vpRun (st = .missing) a.unknown (frChecks st a) table

/-! ### EOS -/

/-- Route details (`netsim/validate/bgp/eos.py:118-126`, `netsim/validate/bgp/eos.py:207-216`): cluster list and lists of communities -/
structure EoDetail where
  cluster : String
  comms : List (String × List String)
  deriving DecidableEq

/-- A BGP path (`netsim/validate/bgp/eos.py:86-216`): address and router ID of the peer, next hop, best path flag, route details, AS path, local preference, MED -/
structure EoPath where
  peerAddr : String
  peerId : String
  nextHop : String
  active : Option Bool
  detail : Option EoDetail
  aspath : Option String
  locpref : Option Int
  med : Option Int
  deriving DecidableEq

/-- `COMMUNITY_ATTRIBUTE` (`netsim/validate/bgp/eos.py:195-198`) -/
def eoAttr (c : String) : Option String :=
  if c = "community" then some "communityList" else if c = "largeCommunity" then some "largeCommunityList" else none

/-- A community of a path (`netsim/validate/bgp/eos.py:210-216`) -/
def eoHas (c v : String) (p : EoPath) : Bool :=
  match p.detail with
  | none => false
  | some x => x.comms.any (fun y => eoAttr c == some y.1 && y.2.contains v)

/-- `netsim/validate/bgp/eos.py:200-226` (`check_community`): an unknown community is an exception when at least one path has route details. -/
def eoComm (st : VpState) (v : List (String × String)) (d : List EoPath) : VpOut EoPath :=
  if d.any (fun p => p.detail.isSome) && v.any (fun x => (eoAttr x.1).isNone) then .fail
  else vpCommLoop st (fun c => d.any (fun p => v.any (fun x => x.1 == c && eoHas c x.2 p))) v

/-- AS numbers not found in the AS path (`netsim/validate/bgp/eos.py:172-179`) -/
def eoLeft (v : List Nat) (aspath : String) : List String :=
  ((splitOnChar ' ' aspath.toList).map String.ofList).foldl (fun a n => if a.contains n then a.filter (· ≠ n) else a) (v.map toString)

/-- Is the path selected (`netsim/validate/bgp/eos.py:171-183`)? -/
def eoAsOk (v : List Nat) (p : EoPath) : Bool :=
  match p.aspath with
  | none => false
  | some s => (eoLeft v s).isEmpty

/-- The checks in `netsim/validate/bgp/eos.py:253-263`, with the functions in `netsim/validate/bgp/eos.py:86-190`.  An AS path entry without the AS
path is treated as a missing entry (the code treats it as an empty path when it looks for AS numbers). -/
def eoChecks (st : VpState) (a : VpArgs) : List (List EoPath → VpOut EoPath) :=
  vpOpt a.peer (fun v d => .data (d.filter (fun p => p.peerAddr == v || p.peerId == v))) ++
  vpOpt a.nh (fun v d => vpStrict st (d.filter (fun p => p.nextHop == vpHost v))) ++
  vpOpt a.best (fun v d => .data (d.filter (fun p => p.active == some v))) ++
  vpOpt a.clusterid (fun v d => vpStrict st (d.filter (fun p => p.detail.any (fun x => pySubstr v.toList x.cluster.toList)))) ++
  vpOpt a.community (eoComm st) ++
  vpOpt a.asElements (fun v d => vpStrict st (d.filter (eoAsOk v))) ++
  vpOpt a.aspath (fun v d => vpStrict st (d.filter (fun p => p.aspath == some v))) ++
  vpOpt a.locpref (fun v d => .data (d.filter (fun p => p.locpref == some v))) ++
  vpOpt a.med (fun v d => .data (d.filter (fun p => p.med == some v)))

/-- BGP tables of VRFs: prefixes and paths (`netsim/validate/bgp/eos.py:12-19`, `netsim/validate/bgp/eos.py:77-81`) -/
abbrev EoTable := List (String × List (String × List EoPath))

/-- `netsim/validate/bgp/eos.py:77-81` (`get_bgp_prefix`): `none` is an exception. -/
def eoLookup (vrf pfx : String) (t : EoTable) : Option (Option (List EoPath)) := (t.lookup vrf).map (fun d => d.lookup pfx)

/-- `netsim/validate/bgp/eos.py:238-265` (`valid_bgp_prefix`): the VRF is a parameter of checks, not of the lookup (`netsim/validate/_common.py:33`). -/
def eoValid (st : VpState) (a : VpArgs) (_vrf pfx : String) (t : EoTable) : Bool :=
  match eoLookup "default" pfx t with
  | none => false
  | some x => vpRun (st = .missing) a.unknown (eoChecks st a) x

end Netlab
