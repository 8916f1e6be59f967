import Verif.Model.Box
/-!
# Forwarded ports and management addresses (`netsim/providers/__init__.py:363-377`, `netsim/providers/__init__.py:393-426`,
`netsim/providers/clab.py:90-98`)
-/

namespace Netlab

/-- `netsim/providers/__init__.py:363-377` (`get_forwarded_ports`): `fmap` are the first host ports of provider services, `pmap` the ports of services. -/
def fwPorts (fmap pmap : List (String × Int)) (id : Int) : List (Int × Int) :=
  fmap.filterMap (fun f => (pmap.lookup f.1).map (fun p => (f.2 + id, p)))

/-- Port mapping (`netsim/providers/clab.py:96`) -/
def fwLine (p : Int × Int) : String := toString p.1 ++ ":" ++ toString p.2

/-- The loop in `netsim/providers/clab.py:95-98` -/
def fwLoop : List (Int × Int) → List String → List String
  | [], l => l
  | p :: r, l => fwLoop r (if l.contains (fwLine p) then l else l ++ [fwLine p])

/-- `netsim/providers/clab.py:177-181` (`augment_node_data`) with `add_forwarded_ports` (`netsim/providers/clab.py:90-98`): the list `clab.ports` -/
def fwNode (fmap pmap : List (String × Int)) (id : Int) (ports : Option (List String)) : Option (List String) :=
  if (fwPorts fmap pmap id).isEmpty then ports else some (fwLoop (fwPorts fmap pmap id) (ports.getD []))

/-- An IPv4 or IPv6 address with a prefix length, or a prefix (`netsim/providers/__init__.py:414-415`) -/
structure PvAddr where
  v6 : Bool
  addr : Nat
  plen : Nat
  deriving Repr, DecidableEq

/-- Size of the network (`netsim/providers/__init__.py:422`, package `ipaddress`) -/
def pvSize (a : PvAddr) : Nat := 2 ^ ((if a.v6 then 128 else 32) - a.plen)

/-- First address of the network (`netsim/providers/__init__.py:422`, package `ipaddress`) -/
def pvFirst (a : PvAddr) : Nat := a.addr / pvSize a * pvSize a

/-- Last address of the network (`netsim/providers/__init__.py:422`, package `ipaddress`) -/
def pvLast (a : PvAddr) : Nat := pvFirst a + pvSize a - 1

/-- `a.network.subnet_of(b)` (`netsim/providers/__init__.py:422`, package `ipaddress`): `none` is an exception. -/
def pvSubnet (a b : PvAddr) : Option Bool :=
  if a.v6 ≠ b.v6 then none else some (decide (pvFirst b ≤ pvFirst a) && decide (pvLast a ≤ pvLast b))

/-- One address family in `netsim/providers/__init__.py:411-426`: number of errors -/
def pvAf (addr pfx : Option PvAddr) : Option Nat :=
  match addr with
  | none => some 0
  | some a =>
    match pfx with
    | none => some 1
    | some p => (pvSubnet a p).map (fun b => if b then 0 else 1)

/-- `netsim/providers/__init__.py:393-426` (`validate_mgmt_ip`): number of errors; `none` is an exception; the pool is `none` when there is no management pool. -/
def pvMgmt (required v4only : Bool) (a4 a6 : Option PvAddr) (pool : Option (Option PvAddr × Option PvAddr)) : Option Nat :=
  let e := if required && !(a4.isSome || (!v4only && a6.isSome)) then 1 else 0
  match pool with
  | none => some e
  | some p =>
    match pvAf a4 p.1, pvAf a6 p.2 with
    | some x, some y => some (e + x + y)
    | _, _ => none

end Netlab
