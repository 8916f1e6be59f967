import Verif.Model.NodeDevice
import Verif.Model.Net
/-!
# Protocol-specific IGP processing (`netsim/modules/ospf.py`, `netsim/modules/isis.py`, `netsim/modules/ripv2.py`, `netsim/modules/srv6.py`,
`netsim/modules/_routing.py:335-443`)
-/

namespace Netlab

/-- An interface of a node (`netsim/modules/ospf.py:26-42`, `netsim/modules/isis.py:15-35`): addresses, number of neighbors, and attributes of the protocol
(`none` when the interface does not use the protocol) -/
structure IpIntf where
  ifname : String
  v4 : Option Val
  v6 : Option Val
  nbrs : Nat
  attrs : Option (List String)

/-- `l.get('ipv4',None) is True` (`netsim/modules/ospf.py:27`, `netsim/modules/isis.py:27`) -/
def ipUnnum (v : Option Val) : Bool :=
  match v with
  | some (.bool true) => true
  | _ => false

/-- `netsim/modules/ospf.py:26-42`: the interface is an unnumbered OSPF interface -/
def ospfUnnumIntf (i : IpIntf) : Bool := ipUnnum i.v4 && i.attrs.isSome

/-- `netsim/modules/ospf.py:23-51` (`ospf_unnumbered`): the `unnumbered` flag of the node and the number of errors; `has` tells whether the node has the flag, and
`feature` whether the device supports unnumbered interfaces. -/
def ospfUnnum (feature has : Bool) (intfs : List IpIntf) : Bool × Nat :=
  let flag := has || intfs.any ospfUnnumIntf
  let e := (intfs.filter (fun i => ospfUnnumIntf i && (i.nbrs > 1 || i.nbrs == 0))).length
  (flag, e + (if flag && !feature then 1 else 0))

/-- `netsim/modules/isis.py:12-37` (`isis_unnumbered`): number of errors; the device features are `f4`, `f6` and `net`. -/
def isisUnnum (f4 f6 net : Bool) (intfs : List IpIntf) : Nat :=
  if intfs.any (fun i => ipUnnum i.v4) && !f4 then 1
  else if intfs.any (fun i => ipUnnum i.v6) && !f6 then 1
  else (intfs.filter (fun i => ipUnnum i.v4 && decide (i.nbrs > 1) && !net)).length

/-- `netsim/modules/isis.py:69-73`: instance names of VRFs -/
def isisInstances (vrfs : List (String × Option String)) : List (String × Option String) :=
  vrfs.map (fun v => (v.1, match v.2 with
    | some i => if i = "" then some i else some v.1
    | none => none))

/-- Strict BFD in `netsim/modules/ospf.py:85-100`: the delay when strict BFD is used, and the number of errors -/
def ospfStrict (bfd : Option Val) (feature bfdModule : Bool) : Option Val × Nat :=
  match bfd with
  | some (.dict d) =>
    if ((d.lookup "strict").getD (.bool false)).truthy then
      if feature then
        if bfdModule then (some ((d.lookup "strict_delay").getD (.int 0)), 0) else (none, 1)
      else (none, 1)
    else (none, 0)
  | _ => (none, 0)

/-- `netsim/modules/ospf.py:64-65`: OSPF data of the loopback interface -/
def ospfLoopback (ospf : List (String × Val)) (lb : Option (List (String × Val))) : Option (List (String × Val)) :=
  match lb, ospf.lookup "area" with
  | some l, some a => some (setKey l "area" a)
  | l, _ => l

/-- `netsim/modules/ospf.py:70-76`: OSPF data of VRFs -/
def ospfVrfs (kws : List String) (ospf : List (String × Val)) (vrfs : List (String × Option (List (String × Val)))) :
    List (String × Option (List (String × Val))) :=
  vrfs.map (fun v => (v.1, v.2.map (fun d => kws.foldl (ndCopy ospf) d)))

/-- `netsim/modules/ripv2.py:23-34` (`adjust_rip_timers`) for existing timers -/
def ripTimers (t : List (String × Int)) : List (String × Int) :=
  let t1 := if (t.lookup "update").isNone then setKey t "update" 30 else t
  let u := (t1.lookup "update").getD 0
  let t2 := if (t1.lookup "timeout").isNone then setKey t1 "timeout" (u * 6) else t1
  if (t2.lookup "garbage").isNone then setKey t2 "garbage" (u * 4) else t2

/-- `netsim/modules/ripv2.py:54-55` with `routing_protocol_data` (`netsim/modules/_routing.py:764-770`): timers of all protocol instances; instances that are not
dictionaries are not changed (`none`). -/
def ripNode (insts : List (Option (Option (List (String × Int))))) : List (Option (Option (List (String × Int)))) :=
  insts.map (Option.map (Option.map ripTimers))

/-- A VRF in `netsim/modules/_routing.py:357-383`: address families of the protocol (`none` when the VRF does not use the protocol), and of the VRF -/
structure CvVrf where
  name : String
  proto : Option (List (String × Bool))
  af : List String

/-- `netsim/modules/_routing.py:357-383` (`check_vrf_protocol_support`): VRFs and the number of errors -/
def cvCheck (feature : Bool) (af : String) : List CvVrf → List CvVrf × Nat
  | [] => ([], 0)
  | v :: r =>
    match v.proto with
    | none => (v :: (cvCheck feature af r).1, (cvCheck feature af r).2)
    | some p =>
      if !v.af.contains af then (v :: (cvCheck feature af r).1, (cvCheck feature af r).2)
      else if !feature then (v :: r, 1)
      else ({ v with proto := some (setKey p af true) } :: (cvCheck feature af r).1, (cvCheck feature af r).2)

/-- `netsim/utils/routing.py:72-87` (`igp_interfaces`): the VRF part looks for interface attribute `proto`, `key` tells whether an interface has it. -/
def igpIntfs (key : IpIntf → Bool) (glob : List IpIntf) (vrfs : List (List IpIntf)) : List IpIntf :=
  glob.filter (fun i => i.attrs.isSome) ++ vrfs.flatten.filter key

/-- `netsim/modules/_routing.py:388-415` (`check_intf_support`): names of attributes reported as errors -/
def ciErrors (optional : Option (List String)) (features : List String) (intfs : List IpIntf) : List String :=
  match optional with
  | none => []
  | some o => ((intfs.flatMap (fun i => i.attrs.getD [])).filter (fun k => o.contains k && !features.contains k)).eraseDups

/-- `netsim/modules/_routing.py:436-443` (`get_router_id_blacklist`): router identifiers of nodes and of their VRFs -/
def ridBlacklist (nodes : List (Option String × List (Option String))) : List String :=
  (nodes.flatMap (fun n => n.1 :: n.2)).filterMap id

/-- The value of 16-bit groups of an IPv6 address (`netsim/modules/srv6.py:15-16`) -/
def srValue (l : List Nat) : Nat := l.foldl (fun a x => a * 65536 + x) 0

/-- The network in `netsim/modules/srv6.py:15-16`: `groups` are groups of the configured locator, `none` is an exception. -/
def srLocator (groups : List Nat) (id : Nat) : Option Net :=
  if (groups ++ [id]).length > 7 || (groups ++ [id]).any (fun x => x ≥ 65536) then none
  else if srValue (groups ++ [id]) * 2 ^ (16 * (8 - (groups ++ [id]).length)) % 2 ^ 64 ≠ 0 then none
  else some ⟨128, srValue (groups ++ [id]) * 2 ^ (16 * (8 - (groups ++ [id]).length)), 64⟩

/-- `netsim/modules/srv6.py:12-29` (`node_post_transform`): the locator and the number of errors; `lb` is the network of the IPv6 loopback address. -/
def srNode (groups : List Nat) (id : Nat) (lb : Option Net) : Option (Net × Nat) :=
  match srLocator groups id with
  | none => none
  | some l =>
    match lb with
    | none => some (l, 1)
    | some n => some (l, if l.base ≤ n.base && n.base + n.size ≤ l.base + l.size then 1 else 0)

end Netlab
