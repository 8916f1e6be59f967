import Verif.Model.Net
/-!
# Interface addressing (`netsim/augment/links.py`)

One address family at a time.  Node identifiers come from the node dictionary; every node
attached to a link is assumed to be in it (checked when the link list is parsed).
-/

namespace Netlab

/-- The value of `intf.ipv4` / `intf.ipv6` (`netsim/augment/links.py:556-592`): missing, a
Boolean (unnumbered or unaddressed), a host index, an address given as text, or the final
`address/length` value.  For text, `a = none` is a string that cannot be parsed and
`plen = none` an address without a prefix length. -/
inductive IfAddr where
  | missing
  | flag (b : Bool)
  | index (i : Int)
  | text (a : Option Nat) (plen : Option Nat)
  | addr (a : Nat) (plen : Nat)
  deriving Repr, DecidableEq

/-- An interface attached to a link: node name and address (`netsim/augment/links.py:635-637`);
all other attributes are left out. -/
structure LinkIntf where
  node : String
  ip : IfAddr
  deriving Repr, DecidableEq

/-- `netsim/augment/addressing.py:411-413` (`get_nth_ip_from_prefix`); `none` is the exception -/
def nthIp (pfx : Net) (host : Int) : Option IfAddr :=
  (pfx.nth? host).map (fun a => .addr a pfx.plen)

/-- `netsim/augment/links.py:556-592` (`set_interface_address`): new value and success flag.
The `addr` case is a string that has already been normalized. -/
def setAddress (pfx : Net) (nodeId : Int) : IfAddr → IfAddr × Bool
  | .flag b => (.flag b, true)
  | .index i =>
    match nthIp pfx i with
    | some a => (a, true)
    | none => (.index i, false)
  | .text none l => (.text none l, false)
  | .text (some a) none => (.addr a pfx.plen, true)
  | .text (some a) (some l) => (.addr a l, true)
  | .addr a l => (.addr a l, true)
  | .missing =>
    match nthIp pfx nodeId with
    | some a => (a, true)
    | none => (.missing, false)

/-- `netsim/augment/links.py:616-625` (`IPAM_sequential`): the loop over interfaces with the
current `count` and `start`. -/
def ipamSeqLoop (pfx : Net) (gwid : Option Int) : Int → Int → List LinkIntf →
    List LinkIntf × Bool
  | _, _, [] => ([], true)
  | count, start, i :: is =>
    let start := if some (count + start) = gwid then start + 1 else start
    let (a, ok) := setAddress pfx (count + start) i.ip
    let (r, ok') := ipamSeqLoop pfx gwid (count + 1) start is
    ({ i with ip := a } :: r, ok && ok')

/-- First host number: `netsim/augment/links.py:617` and `netsim/augment/links.py:628`. -/
def ipamStart (pfx : Net) : Int := if pfx.size > 2 then 1 else 0

/-- `netsim/augment/links.py:616-625` (`IPAM_sequential`) -/
def ipamSequential (pfx : Net) (gwid : Option Int) (ifs : List LinkIntf) : List LinkIntf × Bool :=
  ipamSeqLoop pfx gwid 0 (ipamStart pfx) ifs

/-- `netsim/augment/links.py:635-640` (`IPAM_id_based`) -/
def ipamIdBased (pfx : Net) (ids : String → Int) : List LinkIntf → List LinkIntf × Bool
  | [] => ([], true)
  | i :: is =>
    let (a, ok) := setAddress pfx (ids i.node) i.ip
    let (r, ok') := ipamIdBased pfx ids is
    ({ i with ip := a } :: r, ok && ok')

/-- The loop of `netsim/augment/links.py:627-633` (`IPAM_p2p`) over the sorted interfaces;
each interface carries its position in `link.interfaces`. -/
def ipamP2pLoop (pfx : Net) : Int → List (LinkIntf × Nat) → List (LinkIntf × Nat) × Bool
  | _, [] => ([], true)
  | n, (i, k) :: is =>
    let (a, ok) := setAddress pfx n i.ip
    let (r, ok') := ipamP2pLoop pfx (n + 1) is
    (({ i with ip := a }, k) :: r, ok && ok')

/-- `netsim/augment/links.py:627-633` (`IPAM_p2p`): interfaces are numbered in the order of
node names (Python's `sorted` is stable); the interface objects are changed in place, so
the order of `link.interfaces` does not change. -/
def ipamP2p (pfx : Net) (ifs : List LinkIntf) : List LinkIntf × Bool :=
  let srt := ifs.zipIdx.mergeSort (fun a b => decide (a.1.node ≤ b.1.node))
  let (r, ok) := ipamP2pLoop pfx (ipamStart pfx) srt
  (ifs.zipIdx.map (fun x => (r.find? (fun y => y.2 == x.2)).elim x.1 (·.1)), ok)

/-- `netsim/augment/links.py:642-647` (`IPAM_loopback`) -/
def ipamLoopback (pfx : Net) (ifs : List LinkIntf) : List LinkIntf × Bool :=
  (ifs.map (fun i => { i with ip := .addr pfx.base pfx.w }), true)

/-- `netsim/augment/links.py:597-614` (`IPAM_unnumbered`).  `b` is the Boolean prefix (if any),
`loop n` says whether node `n` has a loopback interface and whether that has an address in
this address family, `v6` is true for IPv6. -/
def ipamUnnumbered (b : Option Bool) (loop : String → Option Bool) (v6 : Bool) :
    List LinkIntf → List LinkIntf × Bool
  | [] => ([], true)
  | i :: is =>
    let (r, ok) := ipamUnnumbered b loop v6 is
    match i.ip with
    | .missing =>
      let a := match b with
        | some x => IfAddr.flag x
        | none =>
          match loop i.node with
          | some y => .flag y
          | none => if v6 then .flag true else .missing
      ({ i with ip := a } :: r, ok)
    | .index _ => (i :: r, false)
    | _ => (i :: r, ok)

/-- Allocation policies: `netsim/augment/links.py:649-655` (`IPAM_dispatch`) and the `error`
value returned by `get_prefix_IPAM_policy`. -/
inductive Policy where
  | unnumbered | p2p | sequential | idBased | loopback | error
  deriving Repr, DecidableEq

/-- `max` of a list of integers; `none` is the exception raised for an empty list
(`netsim/augment/links.py:493`). -/
def listMax? : List Int → Option Int
  | [] => none
  | x :: xs =>
    match listMax? xs with
    | none => some x
    | some m => some (max x m)

/-- `netsim/augment/links.py:471-502` (`get_prefix_IPAM_policy`) for a prefix that is not a
Boolean.  `p2p` says that the link type is `p2p`, `gw` is the gateway identifier (0 = not
set), `ids` are the identifiers of the attached nodes in interface order.  `none` is an
exception. -/
def ipamPolicy (p2p : Bool) (gw : Int) (ids : List Int) (pfx : Net) : Option Policy :=
  if p2p && gw == 0 then
    some (if pfx.size > 1 then .p2p else .error)
  else
    let size : Int := pfx.size
    let extra : Int := if pfx.size > 2 && gw > 0 then 1 else 0
    let reserved : Int := if gw < 0 then min (-2) (gw - 1) else -2
    if pfx.size == 2 && ids.length == 2 then some .p2p
    else
      let size := if pfx.size > 2 then size + reserved else size
      match listMax? ids with
      | none => none
      | some maxId =>
        if size == 1 then some (if ids.length == 1 then .loopback else .error)
        else if maxId ≤ size then some .idBased
        else if ids.length + extra ≤ size then some .sequential
        else some .error

/-- Is this a multicast address (`ipaddress` property `is_multicast`, used in
`netsim/augment/links.py:524`): 224.0.0.0/4 or ff00::/8. -/
def isMulticast (w a : Nat) : Bool :=
  if w == 32 then decide (14 * 2 ^ 28 ≤ a ∧ a < 15 * 2 ^ 28)
  else decide (255 * 2 ^ 120 ≤ a)

/-- `netsim/augment/links.py:508-551` (`check_interface_host_bits`) for one address -/
def hostBitsOk (w : Nat) : IfAddr → Bool
  | .addr a plen =>
    if isMulticast w a then false
    else
      let size := 2 ^ (w - plen)
      if size ≤ 2 then true
      else if a % size == 0 then false
      else if a % size == size - 1 then false
      else true
  | _ => true

/-- Execution of a policy: `IPAM_dispatch[policy]` in `netsim/augment/links.py:729-731`.
`none` is the exception raised for a name that is not in the table. -/
def runPolicy (pol : Policy) (pfx : Net) (gwid : Option Int) (ids : String → Int)
    (loop : String → Option Bool) (v6 : Bool) (ifs : List LinkIntf) :
    Option (List LinkIntf × Bool) :=
  match pol with
  | .unnumbered => some (ipamUnnumbered none loop v6 ifs)
  | .p2p => some (ipamP2p pfx ifs)
  | .sequential => some (ipamSequential pfx gwid ifs)
  | .idBased => some (ipamIdBased pfx ids ifs)
  | .loopback => some (ipamLoopback pfx ifs)
  | .error => none

/-- Selection of the policy in `netsim/augment/links.py:701-704`
(`assign_interface_addresses`): the `allocation` attribute of the prefix if there is one,
otherwise the computed policy. -/
def choosePolicy (p2p : Bool) (gwid : Option Int) (alloc : Option Policy) (ids : String → Int)
    (pfx : Net) (ifs : List LinkIntf) : Option Policy :=
  match alloc with
  | some p => some p
  | none => ipamPolicy p2p (gwid.getD 0) (ifs.map (fun i => ids i.node)) pfx

/-- `netsim/augment/links.py:665-737` (`assign_interface_addresses`) for one address family
with an IP prefix: `alloc` is the `allocation` attribute of the prefix (if any), the result
is the interface list and the "no error" flag, which includes the final check of host
bits.  `none` is an exception. -/
def assignAf (p2p : Bool) (gwid : Option Int) (alloc : Option Policy) (ids : String → Int)
    (loop : String → Option Bool) (v6 : Bool) (pfx : Net) (ifs : List LinkIntf) :
    Option (List LinkIntf × Bool) :=
  match choosePolicy p2p gwid alloc ids pfx ifs with
  | none => none
  | some .error => some (ifs, false)
  | some p =>
    match runPolicy p pfx gwid ids loop v6 ifs with
    | none => none
    | some (r, ok) => some (r, ok && r.all (fun i => hostBitsOk pfx.w i.ip))

/-- `netsim/augment/links.py:1140-1162` (`check_duplicate_address`) for one address family:
`gw` is the gateway address; the result is the number of errors. -/
def dupLoop (seen : List (Nat × Nat)) : List LinkIntf → Nat
  | [] => 0
  | i :: is =>
    match i.ip with
    | .addr a l => if seen.contains (a, l) then dupLoop seen is + 1 else dupLoop ((a, l) :: seen) is
    | _ => dupLoop seen is

/-- `netsim/augment/links.py:1140-1162` (`check_duplicate_address`) -/
def dupCheck (gw : Option (Nat × Nat)) (ifs : List LinkIntf) : Nat :=
  dupLoop gw.toList ifs

/-- `netsim/augment/links.py:365-385` (`set_fhrp_gateway`) for one address family: the gateway
address; `none` when there is no usable identifier or the address cannot be computed. -/
def gatewayAddr (pfx : Net) (gwid : Option Int) : Option (Nat × Nat) :=
  match gwid with
  | none => none
  | some g => if g == 0 then none else (pfx.nth? g).map (fun a => (a, pfx.plen))

end Netlab
