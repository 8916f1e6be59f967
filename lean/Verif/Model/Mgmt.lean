import Verif.Model.Net
/-!
# Management addresses (`netsim/augment/nodes.py:101-186`)
-/

namespace Netlab

/-- The management address pool (`topology.addressing.mgmt` after `validate_pools`,
`netsim/augment/addressing.py:150-168`).  `mac` is a 48-bit number; 64-bit EUIs are not modelled. -/
structure MgmtPool where
  ipv4 : Option Net
  ipv6 : Option Net
  start : Nat
  mac : Option Nat
  deriving Repr, DecidableEq

/-- The node attributes used in `augment_mgmt_if` (`netsim/augment/nodes.py:101-166`).  The management
interface name (lines 102-116) is not modelled. -/
structure MgmtNode where
  id : Nat
  ipv4 : Option String
  ipv6 : Option String
  mac : Option String
  deriving Repr, DecidableEq

/-- Conversions between addresses and strings: `str(address)`, `netaddr.EUI(text)` and
`eui.format(netaddr.mac_unix_expanded)` (`netsim/augment/nodes.py:120,129,155`); their details are not
modelled. -/
structure MgmtText where
  fmt4 : Nat → String
  fmt6 : Nat → String
  fmtMac : Nat → String
  parseMac : String → Option Nat

/-- `mac_eui[3] = node.id` (`netsim/augment/nodes.py:128`): replace the fourth octet of the MAC address
(the octets are counted from the most significant one) -/
def setOctet3 (mac id : Nat) : Nat :=
  mac / 2 ^ 24 * 2 ^ 24 + id * 2 ^ 16 + mac % 2 ^ 16

/-- `netsim/augment/nodes.py:118-129`: the management MAC address and the number of errors -/
def mgmtMac (t : MgmtText) (pool : Option MgmtPool) (n : MgmtNode) : Option String × Nat :=
  match n.mac with
  | some m =>
    match t.parseMac m with
    | some v => (some (t.fmtMac v), 0)
    | none => (some m, 1)
  | none =>
    match pool.bind (·.mac) with
    | some m => (some (t.fmtMac (setOctet3 m n.id)), 0)
    | none => (none, 0)

/-- `netsim/augment/nodes.py:143-160`, one address family: the address and the number of errors -/
def mgmtAf (fmt : Nat → String) (pfx : Option Net) (start id : Nat) : Option String × Nat :=
  match pfx with
  | none => (none, 0)
  | some p =>
    match p.nth? ((id : Int) + start) with
    | some a => (some (fmt a), 0)
    | none => (none, 1)

/-- `netsim/augment/nodes.py:131-166`: assign the management addresses; `none` = fatal error (no start
offset in the pool) -/
def mgmtAddr (t : MgmtText) (pool : Option MgmtPool) (n : MgmtNode) :
    Option (Option String × Option String × Nat) :=
  if n.ipv4.isSome || n.ipv6.isSome then some (n.ipv4, n.ipv6, 0)
  else match pool with
    | none => some (none, none, 1)
    | some p =>
      if p.start == 0 && (p.ipv4.isSome || p.ipv6.isSome) then none
      else
        let r4 := mgmtAf t.fmt4 p.ipv4 p.start n.id
        let r6 := mgmtAf t.fmt6 p.ipv6 p.start n.id
        some (r4.1, r6.1, r4.2 + r6.2 + if r4.1.isNone && r6.1.isNone then 1 else 0)

/-- `netsim/augment/nodes.py:101-166` (`augment_mgmt_if`): the new node data and the number of errors -/
def augmentMgmt (t : MgmtText) (pool : Option MgmtPool) (n : MgmtNode) : Option (MgmtNode × Nat) :=
  match mgmtAddr t pool n with
  | none => none
  | some r => some (⟨n.id, r.1, r.2.1, (mgmtMac t pool n).1⟩, (mgmtMac t pool n).2 + r.2.2)

/-- `netsim/augment/nodes.py:425-443`: the loop over nodes -/
def augmentMgmtAll (t : MgmtText) (pool : Option MgmtPool) : List MgmtNode → Option (List MgmtNode × Nat)
  | [] => some ([], 0)
  | n :: rest =>
    match augmentMgmt t pool n with
    | none => none
    | some r =>
      match augmentMgmtAll t pool rest with
      | none => none
      | some q => some (r.1 :: q.1, r.2 + q.2)

/-- `netsim/augment/nodes.py:175-186`: the inner loop of `check_duplicate_mgmt_addr`, returns the number
of errors -/
def mgmtDup (used : List String) : List (Option String) → Nat
  | [] => 0
  | none :: rest => mgmtDup used rest
  | some a :: rest => if used.contains a then mgmtDup used rest + 1 else mgmtDup (a :: used) rest

/-- `netsim/augment/nodes.py:171-186` (`check_duplicate_mgmt_addr`) -/
def checkDuplicateMgmt (l : List MgmtNode) : Nat :=
  mgmtDup [] (l.map (·.ipv4)) + mgmtDup [] (l.map (·.ipv6)) + mgmtDup [] (l.map (·.mac))

/-- `netsim/augment/nodes.py:425-445`: management addresses of all nodes, and the number of errors -/
def mgmtPipeline (t : MgmtText) (pool : Option MgmtPool) (l : List MgmtNode) :
    Option (List MgmtNode × Nat) :=
  match augmentMgmtAll t pool l with
  | none => none
  | some r => some (r.1, r.2 + checkDuplicateMgmt r.1)

end Netlab
