import Verif.Model.Box
import Verif.Model.Pools
/-!
# Router identifiers (`netsim/modules/_routing.py`)
-/

namespace Netlab

/-- A router identifier: an address (width, value) or a value that Python `ipaddress` module
cannot parse (`netsim/modules/_routing.py:218-225`).  The text form of an address is unique,
therefore addresses are compared as numbers. -/
inductive Rid where
  | ip (w a : Nat)
  | bad (s : String)
  deriving Repr, DecidableEq

/-- The node data used in `netsim/modules/_routing.py:216-249`: node identifier, protocol-specific
router identifiers, node router identifier and the IPv4 address of the loopback interface. -/
structure RidNode where
  id : Nat
  protos : List (String × Rid) := []
  rid : Option Rid := none
  lb : Option Nat := none
  deriving Repr, DecidableEq

/-- `netsim/modules/_routing.py:188-212` (`get_router_id_prefix`): the address (width and value)
from the `router_id` pool, new state of the pools and the number of errors.  `n` is the node
identifier, or 0 for the next available prefix.  A pool without IPv4 prefixes returns no address. -/
def poolRid (pools : Pools) (n : Nat) : Option (Nat × Nat) × Pools × Nat :=
  match pools.lookup "router_id" with
  | none => (none, pools, 1)
  | some pool =>
    if pool.isEmpty then (none, pools, 1)
    else
      let r := getPrefix pools ["router_id"] n
      match r.2.1.lookup "ipv4" with
      | some (.net s) => (some (s.w, s.base), r.2.2.1, r.2.2.2)
      | _ => (none, r.2.2.1, r.2.2.2 + 1)

/-- `netsim/modules/_routing.py:216-249` (`router_id`) -/
def routerId (n : RidNode) (proto : String) (pools : Pools) : RidNode × Pools × Nat :=
  match n.protos.lookup proto with
  | some (.ip _ _) => (n, pools, 0)
  | some (.bad _) => (n, pools, 1)
  | none =>
    match n.rid with
    | some (.ip w a) => ({ n with protos := setKey n.protos proto (.ip w a) }, pools, 0)
    | some (.bad _) => (n, pools, 1)
    | none =>
      match n.lb with
      | some a => ({ n with protos := setKey n.protos proto (.ip 32 a) }, pools, 0)
      | none =>
        let r := poolRid pools n.id
        match r.1 with
        | some (w, a) =>
          ({ n with
              rid := some (.ip w a)
              protos := setKey n.protos proto (.ip w a) }, r.2.1, r.2.2)
        | none => (n, r.2.1, r.2.2)

/-- One step of a lab transformation that uses address pools: a router identifier for a protocol
on a node (`netsim/modules/ospf.py:83`, `netsim/modules/bgp.py:698`, ...), or any other request for
a prefix (`netsim/augment/addressing.py:280-287`). -/
inductive RidOp where
  | assign (node : Nat) (proto : String)
  | other (pl : List String) (n : Nat)
  deriving Repr, DecidableEq

/-- Execution of one step; the sequence of steps depends on the lab topology
(`netsim/modules/_routing.py:216`, `netsim/augment/addressing.py:280`). -/
def ridStep (s : List RidNode × Pools) : RidOp → List RidNode × Pools
  | .assign k proto =>
    match s.1[k]? with
    | none => s
    | some n => let r := routerId n proto s.2; (s.1.set k r.1, r.2.1)
  | .other pl n => (s.1, (getPrefix s.2 pl n).2.2.1)

/-- A sequence of steps (`netsim/modules/_routing.py:216`) -/
def ridRun (s : List RidNode × Pools) (ops : List RidOp) : List RidNode × Pools :=
  ops.foldl ridStep s

/-- The `while True` loop in `netsim/modules/_routing.py:473-479`.  The pool never returns the same
prefix twice, so the loop is executed at most once for each router identifier in the blacklist
before it is done; `C31_unique_loop_ends` shows that the limit used here is never reached. -/
def ridLoop (blacklist : List (Nat × Nat)) : Nat → Pools → Option (Nat × Nat) × Pools × Bool
  | 0, pools => (none, pools, true)
  | k + 1, pools =>
    let r := poolRid pools 0
    match r.1 with
    | none => (none, r.2.1, false)
    | some a => if blacklist.contains a then ridLoop blacklist k r.2.1 else (some a, r.2.1, false)

/-- The VRF loop in `netsim/modules/_routing.py:453-491` (`get_unique_router_ids`): VRFs (running
the protocol) are reduced to their router identifiers.  The result are the new identifiers, the
pools, and the number of identifiers that could not be changed. -/
def uniqueRids (blacklist : List (Nat × Nat)) :
    List (Nat × Nat) → List (Nat × Nat) → Pools → List (Nat × Nat) × Pools × Nat
  | _, [], pools => ([], pools, 0)
  | used, v :: vs, pools =>
    if used.contains v then
      let l := ridLoop blacklist (blacklist.length + 1) pools
      let r := uniqueRids blacklist used vs l.2.1
      match l.1 with
      | some a => (a :: r.1, r.2.1, r.2.2)
      | none => (v :: r.1, r.2.1, r.2.2 + 1)
    else
      let r := uniqueRids blacklist (used ++ [v]) vs pools
      (v :: r.1, r.2.1, r.2.2)

end Netlab
