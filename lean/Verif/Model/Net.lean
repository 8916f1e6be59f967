/-!
# IP prefixes (Python `ipaddress` networks)

An address of a family with `w` bits (32 or 128) is a natural number below `2^w`.
-/

namespace Netlab

/-- `ipaddress.ip_network` object as used in `netsim/augment/addressing.py:149-151` and
`netsim/augment/links.py:407-458`: address width, network address, prefix length.
Parsing and printing are not modelled. -/
structure Net where
  w : Nat
  base : Nat
  plen : Nat
  deriving Repr, DecidableEq

namespace Net

/-- `num_addresses` of an `ipaddress` network (used in `netsim/augment/links.py:481`). -/
def size (n : Net) : Nat := 2 ^ (n.w - n.plen)

/-- Number of subnets generated by `net.subnets(new_prefix=plen)`
(`netsim/augment/addressing.py:223`). -/
def numSubnets (n : Net) (plen : Nat) : Nat := 2 ^ (plen - n.plen)

/-- The `k`-th subnet generated by `net.subnets(new_prefix=plen)`
(`netsim/augment/addressing.py:223`): `range(start,end,step)` with
`step = size of the new prefix`. -/
def subnet (n : Net) (plen k : Nat) : Net :=
  { w := n.w, base := n.base + k * 2 ^ (n.w - plen), plen := plen }

/-- `net[i]` (`__getitem__` of `ipaddress` networks, used in
`netsim/augment/addressing.py:411-413`): non-negative indices count from the network
address, negative ones from the broadcast address; `none` is the `IndexError`. -/
def nth? (n : Net) (i : Int) : Option Nat :=
  if 0 ≤ i then
    if i < n.size then some (n.base + i.toNat) else none
  else
    if -i ≤ n.size then some (n.base + n.size - (-i).toNat) else none

/-- A network object can only be created with host bits set to zero (strict parsing in
`ipaddress.ip_network`, `netsim/augment/addressing.py:150`). -/
def WF (n : Net) : Prop :=
  n.plen ≤ n.w ∧ n.size ∣ n.base ∧ n.base + n.size ≤ 2 ^ n.w

end Net
end Netlab
