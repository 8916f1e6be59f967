import Verif.Model.Pools
import Verif.Model.Ipam
import Verif.Model.Box
/-!
# Loopback interfaces of nodes (`netsim/augment/nodes.py:373-406`)
-/

namespace Netlab

/-- A value of a loopback attribute (`netsim/augment/nodes.py:383-404`): an address with a prefix length, or another value -/
inductive LbVal where
  | addr (a plen : Nat)
  | other (v : Val)

/-- Python truth value of a loopback attribute (`netsim/augment/nodes.py:389`): texts with addresses are not empty. -/
def lbTruthy (v : Option LbVal) : Bool :=
  match v with
  | none => false
  | some (.addr _ _) => true
  | some (.other v) => v.truthy

/-- A node (`netsim/augment/nodes.py:373-406`, `netsim/augment/nodes.py:437-438`): identifier, is it a host, pool name, and loopback attributes -/
structure LbNode where
  name : String
  id : Nat
  host : Bool
  pool : Option String
  lb : List (String × LbVal)

/-- Loopback attributes, address families of the node and number of errors (`netsim/augment/nodes.py:383-397`) -/
structure LbState where
  lb : List (String × LbVal)
  af : List (String × Bool)
  err : Nat

/-- The value assigned in `netsim/augment/nodes.py:390-396`: a pool attribute is converted to text. -/
def lbValue (af : String) (e : PfxEntry) : LbVal :=
  match e with
  | .attr v => .other v
  | .net p => if af = "ipv6" then (if p.plen = 128 then .addr p.base p.plen else .addr (p.base + 1) p.plen) else .addr p.base p.plen

/-- An element of the prefix in `netsim/augment/nodes.py:383-397` -/
def lbEntry (st : LbState) (x : String × PfxEntry) : LbState :=
  match x.2 with
  | .attr (.bool true) => { st with err := st.err + 1 }
  | .attr (.bool false) => st
  | e => if lbTruthy (st.lb.lookup x.1) then st else { st with lb := setKey st.lb x.1 (lbValue x.1 e), af := setKey st.af x.1 true }

/-- Errors reported in `netsim/augment/nodes.py:399-406` for an address family: `check_interface_host_bits` (`netsim/augment/links.py:508-551`) is used
for addresses; texts that are not addresses are rejected earlier. -/
def lbCheck (w : Nat) (v : Option LbVal) : Nat :=
  match v with
  | none => 0
  | some (.addr a plen) => if hostBitsOk w (.addr a plen) then 0 else 1
  | some (.other (.str _)) => 0
  | some (.other _) => 1

/-- `netsim/augment/nodes.py:373-406` (`loopback_interface`): loopback attributes, address families of the node and the number of errors, and new pools.
Interface type, name and index are not modelled. -/
def lbIntf (pools : Pools) (n : LbNode) : LbState × Pools :=
  let r := getPrefix pools [n.pool.getD "loopback"] n.id
  let st := r.2.1.foldl lbEntry { lb := n.lb, af := [], err := r.2.2.2 }
  ({ st with err := st.err + lbCheck 32 (st.lb.lookup "ipv4") + lbCheck 128 (st.lb.lookup "ipv6") }, r.2.2.1)

/-- The loop in `netsim/augment/nodes.py:427-438` limited to loopback interfaces: nodes with their loopback attributes and address families, the number of
errors and new pools -/
def lbNodes (pools : Pools) : List LbNode → List (LbNode × LbState) × Nat × Pools
  | [] => ([], 0, pools)
  | n :: r =>
    if n.host then
      let y := lbNodes pools r
      ((n, { lb := n.lb, af := [], err := 0 }) :: y.1, y.2.1, y.2.2)
    else
      let x := lbIntf pools n
      let y := lbNodes x.2 r
      ((n, x.1) :: y.1, x.1.err + y.2.1, y.2.2)

end Netlab
