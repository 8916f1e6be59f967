import Verif.Model.Dhcp
/-!
# DHCP pools on DHCP servers (`netsim/modules/dhcp.py:249-263`)

Simplifications: the VRF of a pool is a parameter. The pools are built from data that is not changed by the loop over DHCP servers.
-/

namespace Netlab

/-- Node data used in `netsim/modules/dhcp.py:252-263`; `vrf` is the `dhcp.vrf` flag. -/
structure DsNode where
  name : String
  server : Bool := false
  vrf : Option Bool := none
  pools : Option DhcpPools := none

/-- `topology.dhcp.pools` and the number of reported errors, `netsim/modules/dhcp.py:256-257` -/
structure DsState where
  pools : DhcpPools := []
  errors : Nat := 0

/-- Build the pools if there are none, `netsim/modules/dhcp.py:256-257` -/
def dsBuild (t : DhcpTopo) (s : DsState) : DsState :=
  if s.pools.isEmpty then { pools := dhcpPools t, errors := s.errors + (allPools t).2 } else s

/-- The `dhcp.vrf` flag, `netsim/modules/dhcp.py:260-263` -/
def dsVrf (poolVrf : String → Option String) : Option Bool → DhcpPools → Option Bool
  | f, [] => f
  | f, p :: l => dsVrf poolVrf (if (poolVrf p.1).isSome then (if f.isNone then some true else f) else f) l

/-- `set_dhcp_server_pools`, `netsim/modules/dhcp.py:252-263` -/
def dsNode (t : DhcpTopo) (poolVrf : String → Option String) (s : DsState) (n : DsNode) : DsState × DsNode :=
  if !n.server then (s, n)
  else
    let s' := dsBuild t s
    (s', { n with pools := some s'.pools, vrf := dsVrf poolVrf n.vrf s'.pools })

/-- The loop over nodes, `netsim/modules/dhcp.py:384-386` -/
def dsNodes (t : DhcpTopo) (poolVrf : String → Option String) : DsState → List DsNode → DsState × List DsNode
  | s, [] => (s, [])
  | s, n :: l =>
    let r := dsNode t poolVrf s n
    let q := dsNodes t poolVrf r.1 l
    (q.1, r.2 :: q.2)

end Netlab
